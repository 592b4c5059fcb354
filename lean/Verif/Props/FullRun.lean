import Verif.Props.Full
import Mathlib.Analysis.Complex.ExponentialBounds

/-!
C134: runs on a transect from the input files: no transport in a breeze, bounded concentrations in a storm.
-/

set_option linter.unusedSectionVars false

namespace Aeolis.Props

open Finset Aeolis.Spec Aeolis.Sand Aeolis.Solver Aeolis.Whole Aeolis.Full

variable {nx nf : ℕ}

/-- The wind comes from a file, with speeds of at most `umax`. -/
def WindBelow (C : Full.Config nx nf) (umax : ℝ) : Prop :=
  C.wind.processWind = true ∧ ∃ file, C.wind.file = some file ∧ ∀ r ∈ file, |r.2.1| ≤ umax

theorem file_below {C : Full.Config nx nf} (hF : SeriesOk C) {umax : ℝ} (hu : WindBelow C umax) {t dt : ℝ} {E : Env nx 0 nf}
    (hE : StepOf C t dt E) (c : Fin (cells nx 0)) : 0 ≤ (E.wind c).uw ∧ (E.wind c).uw ≤ umax ∧ (Windy E → 0 < (E.wind c).uw) := by
  obtain ⟨hp, file, hf, hle⟩ := hu
  obtain ⟨v, d, hv, huw⟩ := hE.wind file hp hf
  obtain ⟨hne, hinc⟩ := hF.wind file hf
  obtain ⟨v', hv', hlo, hhi⟩ := C10_within_data_range (file.map fun r => (r.1, r.2.1)) (by simpa using hne) (by
    unfold Increasing
    rw [List.pairwise_map]
    exact hinc) t (-umax) umax (by
      intro k hk
      obtain ⟨r, hr, rfl⟩ := List.mem_map.mp hk
      exact abs_le.mp (hle r hr))
  have e : v = v' := by
    unfold Wind.windAt at hv
    simp only [hv'] at hv
    split at hv
    · rename_i a _ _ h1 _ _
      have h2 := Option.some.inj hv
      have h1 := Option.some.inj h1
      exact (congrArg Prod.fst h2).symm.trans h1.symm
    · simp at hv
  rw [(huw c).1]
  refine ⟨abs_nonneg v, abs_le.mpr (by rw [e]; exact ⟨hlo, hhi⟩), fun hw => abs_pos.mpr ?_⟩
  rintro h0
  apply hw
  simp [huw, h0]

/-- **C134** With groundwater, for runs that return: if the shear velocity of the strongest wind in the file is below the threshold of
every grain size nothing moves. -/
theorem C134_breeze_any (sp : LinSolve nx 0) (hsp : Exact sp) (C : Full.Config nx nf) (hC : Usable C) (hF : SeriesOk C)
    (hin : NoInflow C.core) (hcs : 0 ≤ C.core.thr.csalt) (hmix : C.core.setup.mixing = false) (hlev : NoOtherChanges C) (hflat : Sheltering C)
    (hmask : ∀ j, 1 ≤ (C.thresholdMask j).1) (umax z0 : ℝ) (hu : WindBelow C umax) (hz : RoughnessIs C z0)
    (hlow : ∀ f, max 0.01 (umax * |C.wind.kappa / Real.log (C.wind.z / z0)|) ≤ grainThreshold C.core f) (calls : List ((ℕ → ℝ) × ℝ))
    (σ τ : Full.State nx nf) (hm : ∀ c, ∀ k < C.core.setup.bed.nl, ∀ f, 0 ≤ (σ.core.sand.bed c).mass k f)
    (hcap : ∀ c f, 0 ≤ (σ.core.cap c f).Cu0) (hair : ∀ c f, σ.core.sand.Ct c f = 0) (hsalt : ∀ c, (σ.moist c).salt ≤ 1)
    (hrho : ∀ j, 0 ≤ (σ.veg j).rho) (h : Full.run sp C calls σ = some (.ok τ)) :
    Still C.core.setup.bed.nl σ.core τ.core := by
  obtain ⟨Es, -, hEs, hsE, huE, hr⟩ := C133_run sp C hC calls σ τ h
  refine C127_run sp hsp C.core hC.core hC.grid hin hcs hmix Es (fun E hE => ?_) σ.core τ.core hm hcap hair hr
  obtain ⟨x, -, hS⟩ := hEs E hE
  refine ⟨fun hw => ⟨(hS.ok hw).1, hsE hsalt E hE, fun c => by rw [hS.mask]; exact hmask c, fun c f => ?_⟩, hS.levels hlev⟩
  refine (huE hflat hrho E hE c).1.trans ((max_le_max le_rfl ?_).trans (hlow f))
  rw [hS.profile z0 hz c]
  exact mul_le_mul_of_nonneg_right (file_below hF hu hS c).2.1 (abs_nonneg _)

/-- **C134** If the shear velocity of the strongest wind in the file is below the threshold of every grain size nothing moves: whatever the
time steps, the tide, the moisture and the salt, layers and levels stay what they were and the air stays clear. -/
theorem C134_breeze (sp : LinSolve nx 0) (hsp : Exact sp) (C : Full.Config nx nf) (hC : Usable C) (hN : NamesOk C.core) (hF : FilesOk C)
    (hin : NoInflow C.core) (hcs : 0 ≤ C.core.thr.csalt) (hmix : C.core.setup.mixing = false) (hlev : NoOtherChanges C) (hflat : Sheltering C)
    (hmask : ∀ j, 1 ≤ (C.thresholdMask j).1) (umax z0 : ℝ) (hu : WindBelow C umax) (hz : RoughnessIs C z0)
    (hlow : ∀ f, max 0.01 (umax * |C.wind.kappa / Real.log (C.wind.z / z0)|) ≤ grainThreshold C.core f) (calls : List ((ℕ → ℝ) × ℝ))
    (σ : Full.State nx nf) (hm : ∀ c, ∀ k < C.core.setup.bed.nl, ∀ f, 0 ≤ (σ.core.sand.bed c).mass k f)
    (hcap : ∀ c f, 0 ≤ (σ.core.cap c f).Cu0) (hair : ∀ c f, σ.core.sand.Ct c f = 0) (hsalt : ∀ c, (σ.moist c).salt ≤ 1)
    (hrho : ∀ j, 0 ≤ (σ.veg j).rho) : ∃ τ, Full.run sp C calls σ = some (.ok τ) ∧ Still C.core.setup.bed.nl σ.core τ.core := by
  obtain ⟨τ, h⟩ := C133_run_total sp C hC hN hF calls σ hcap
  exact ⟨τ, h, C134_breeze_any sp hsp C hC hF.toSeriesOk hin hcs hmix hlev hflat hmask umax z0 hu hz hlow calls σ τ hm hcap hair hsalt hrho h⟩

/-- Bagnold's concentration for the undisturbed wind `u` without threshold. -/
noncomputable def bagnoldBound (C : Full.Config nx nf) (z0 u : ℝ) : ℝ :=
  C.core.tr.Cb * (C.core.tr.rhoa / C.core.tr.g) * (C.wind.kappa / Real.log (C.wind.z / z0)) ^ 3 * u ^ 2 * C.core.tr.accfac

/-- At the ends at most the equilibrium concentration of the undisturbed wind enters. -/
structure SmallInflow (C : Whole.Config nf) : Prop where
  off : (C.bounds.off = "flux" → C.offshoreFlux ≤ 1) ∧ (C.bounds.off = "constant" → C.constOff = 0)
  on : (C.bounds.on = "flux" → C.onshoreFlux ≤ 1) ∧ (C.bounds.on = "constant" → C.constOn = 0)

/-- Where the shear velocity is that of the shelter of fences and plants: no grain moves at 0.01 m/s, the lower limit there. -/
structure CalmShelter (C : Full.Config nx nf) : Prop extends Sheltering C where
  grains : ∀ f, 0.01 ≤ grainThreshold C.core f
  csalt : 0 ≤ C.core.thr.csalt
  mask : ∀ j, 1 ≤ (C.thresholdMask j).1

/-- The steps of a storm with fences and vegetation on a bed that does not change the shear. -/
theorem storm_env (sp : LinSolve nx 0) (C : Full.Config nx nf) (hC : Usable C) (hF : SeriesOk C)
    (hin : SmallInflow C.core) (hflat : CalmShelter C) (hb : C.core.tr.methodTransport = "bagnold")
    (umax z0 : ℝ) (hu : WindBelow C umax) (hz : RoughnessIs C z0) (hz0 : 0 < z0 ∧ z0 < C.wind.z) (m : ℝ)
    (t dt : ℝ) (hthick : Copes nx 0 C.core (bagnoldBound C z0 umax) m (if 0 < dt then dt else C.ts.dt)) (E : Env nx 0 nf) (hS : StepOf C t dt E)
    (hsalt : ∀ c, E.salt c ≤ 1) (hle : Sheltered E) :
    Windy E → EnvOk C.core E ∧ Steadying C.core E ∧ Copes nx 0 C.core (bagnoldBound C z0 umax) m E.dt ∧
      ∀ τ ρ, transport sp C.core E τ = some (.ok ρ) →
        (∀ c f, (ρ.cap c f).Cu ≤ bagnoldBound C z0 umax ∧ (ρ.cap c f).Cuf ≤ bagnoldBound C z0 umax) ∧
          EndsBelow C.core (bagnoldBound C z0 umax) ρ := by
  have hP := hC.core.transport.1
  have hq : 0 < C.wind.kappa / Real.log (C.wind.z / z0) := div_pos hC.kappa (Real.log_pos ((one_lt_div hz0.1).mpr hz0.2))
  have hk : 0 < C.core.tr.Cb * (C.core.tr.rhoa / C.core.tr.g) := mul_pos hP.Cb (div_pos hP.rhoa hP.g)
  have hM : 0 ≤ bagnoldBound C z0 umax := by
    unfold bagnoldBound
    have := hP.accfac
    positivity
  intro hw
  obtain ⟨hok, hst⟩ := hS.ok hw
  refine ⟨hok, hst, by rw [hS.time.2]; exact hthick, fun ρ ρ' ht => ?_⟩
  have hparts := transport_ok.mp ht
  have hsp' : ∀ c f, ρ'.speed c f = ⟨(E.wind c).uw, (E.wind c).uws, (E.wind c).uwn⟩ := fun c f =>
    windspeed_speed hC.speed (by simpa [hC.core.transport.2] using hparts.speed c f)
  have key : ∀ c f, (ρ'.cap c f).Cu ≤ bagnoldBound C z0 umax ∧ (ρ'.cap c f).Cuf ≤ bagnoldBound C z0 umax ∧
      (ρ'.cap c f).Cu0 ≤ bagnoldBound C z0 umax := by
    intro c f
    obtain ⟨h0, hmax, hpos⟩ := file_below hF hu hS c
    have hpos := hpos hw
    have h1 := bagnold_le hC.core hok hb hparts c f (by rw [hsp']; exact hpos)
    rw [hsp'] at h1
    have e0 : (E.wind c).ustar0 = (E.wind c).uw * (C.wind.kappa / Real.log (C.wind.z / z0)) := by
      rw [hS.profile z0 hz c, abs_of_pos hq]
    have hpos0 : 0 < (E.wind c).ustar0 := by
      rw [e0]
      exact mul_pos hpos hq
    have hne : (E.wind c).ustar ≠ 0 := ((hle c).2 hpos0).ne'
    have hbd : C.core.tr.Cb * (C.core.tr.rhoa / C.core.tr.g) * (E.wind c).ustar0 ^ 3 * (1 / (E.wind c).uw) * C.core.tr.accfac ≤
        bagnoldBound C z0 umax := by
      have e : C.core.tr.Cb * (C.core.tr.rhoa / C.core.tr.g) * (E.wind c).ustar0 ^ 3 * (1 / (E.wind c).uw) * C.core.tr.accfac =
          C.core.tr.Cb * (C.core.tr.rhoa / C.core.tr.g) * (C.wind.kappa / Real.log (C.wind.z / z0)) ^ 3 * (E.wind c).uw ^ 2 *
            C.core.tr.accfac := by
        rw [e0]
        field_simp
      rw [e]
      refine mul_le_mul_of_nonneg_right (mul_le_mul_of_nonneg_left ?_ (mul_nonneg hk.le (pow_nonneg hq.le 3))) hP.accfac.le
      exact pow_le_pow_left₀ h0 hmax 2
    have hCu0 := (h1.2.2 hne).trans hbd
    by_cases hlow : (E.wind c).ustar ≤ 0.01
    · obtain ⟨z1, z2⟩ := caps_below hC.core hflat.csalt hok hparts c (hsalt c) (by rw [hS.mask]; exact hflat.mask c) f
        (hlow.trans (hflat.grains f))
      rw [z1, z2]
      exact ⟨hM, hM, hCu0⟩
    · have hle' : (E.wind c).ustar ≤ (E.wind c).ustar0 := (le_max_iff.mp (hle c).1).resolve_left hlow
      have hmono : C.core.tr.Cb * (C.core.tr.rhoa / C.core.tr.g) * (E.wind c).ustar ^ 3 * (1 / (E.wind c).uw) * C.core.tr.accfac ≤
          C.core.tr.Cb * (C.core.tr.rhoa / C.core.tr.g) * (E.wind c).ustar0 ^ 3 * (1 / (E.wind c).uw) * C.core.tr.accfac := by
        refine mul_le_mul_of_nonneg_right (mul_le_mul_of_nonneg_right (mul_le_mul_of_nonneg_left ?_ hk.le) (one_div_nonneg.mpr h0)) hP.accfac.le
        exact pow_le_pow_left₀ (hok.ustar c).1 hle' 3
      exact ⟨(h1.1.trans hmono).trans hbd, (h1.2.1.trans hmono).trans hbd, hCu0⟩
  have hend : ∀ k x : ℝ, 0 ≤ k → k ≤ 1 → x ≤ bagnoldBound C z0 umax → k * x ≤ bagnoldBound C z0 umax := fun k x h0 h1 hx =>
    (mul_le_mul_of_nonneg_left hx h0).trans (mul_le_of_le_one_left hM h1)
  have hfl := hC.core.flux
  refine ⟨fun c f => ⟨(key c f).1, (key c f).2.1⟩, ⟨fun c _ f => ⟨fun k => ?_, fun k => ?_⟩, fun c _ f => ⟨fun k => ?_, fun k => ?_⟩⟩⟩
  · exact hend _ _ hfl.1 (hin.off.1 k) (key c f).2.2
  · rw [hin.off.2 k, zero_div]
    exact hM
  · exact hend _ _ hfl.2.1 (hin.on.1 k) (key c f).2.2
  · rw [hin.on.2 k, zero_div]
    exact hM

/-- Bagnold's concentration is not negative. -/
theorem bagnoldBound_nonneg (C : Full.Config nx nf) (hC : Usable C) (umax z0 : ℝ) (hz0 : 0 < z0 ∧ z0 < C.wind.z) :
    0 ≤ bagnoldBound C z0 umax := by
  have hP := hC.core.transport.1
  have hq : 0 < C.wind.kappa / Real.log (C.wind.z / z0) := div_pos hC.kappa (Real.log_pos ((one_lt_div hz0.1).mpr hz0.2))
  have hk : 0 < C.core.tr.Cb * (C.core.tr.rhoa / C.core.tr.g) := mul_pos hP.Cb (div_pos hP.rhoa hP.g)
  unfold bagnoldBound
  have := hP.accfac
  positivity

/-- **C134** With groundwater: a run that returns keeps the state sound. -/
theorem C134_storm_any (sp : LinSolve nx 0) (hsp : Exact sp) (C : Full.Config nx nf) (hC : Usable C) (hF : SeriesOk C)
    (hlat : C.core.bounds.lat = "circular") (hin : SmallInflow C.core) (hflat : CalmShelter C) (hb : C.core.tr.methodTransport = "bagnold")
    (umax z0 : ℝ) (hu : WindBelow C umax) (hz : RoughnessIs C z0) (hz0 : 0 < z0 ∧ z0 < C.wind.z) (m : ℝ) (hm : 0 ≤ m)
    (calls : List ((ℕ → ℝ) × ℝ)) (hthick : ∀ x ∈ calls, Copes nx 0 C.core (bagnoldBound C z0 umax) m (if 0 < x.2 then x.2 else C.ts.dt))
    (σ τ : Full.State nx nf) (hσ : Sound C.core.setup.bed.nl m σ.core) (hair : ∀ c f, σ.core.sand.Ct c f ≤ bagnoldBound C z0 umax)
    (hsalt : ∀ c, (σ.moist c).salt ≤ 1) (hrho : ∀ j, 0 ≤ (σ.veg j).rho) (h : Full.run sp C calls σ = some (.ok τ)) :
    Sound C.core.setup.bed.nl m τ.core ∧
      ∀ c f, τ.core.sand.Ct c f ≤ bagnoldBound C z0 umax := by
  obtain ⟨Es, -, hEs, hsE, huE, hr⟩ := C133_run sp C hC calls σ τ h
  refine C128_fractions sp hsp C.core hC.core hC.grid hlat m _ hm (bagnoldBound_nonneg C hC umax z0 hz0) Es (fun E hE hw => ?_)
    σ.core τ.core hσ hair hr
  obtain ⟨x, hx, hS⟩ := hEs E hE
  exact storm_env sp C hC hF hin hflat hb umax z0 hu hz hz0 m _ _ (hthick x hx) E hS (hsE hsalt E hE) (huE hflat.toSheltering hrho E hE) hw

/-- **C134** A run with any number of fractions on a bed that does not change the shear, with fences and vegetation, always returns and keeps the state sound: every layer keeps its mass, no amount of sand
is negative, and nowhere is there more sand in the air than Bagnold's formula gives for the strongest wind in the file.  The layers must hold
what this concentration settles in a time step. -/
theorem C134_storm (sp : LinSolve nx 0) (hsp : Exact sp) (C : Full.Config nx nf) (hC : Usable C) (hN : NamesOk C.core) (hF : FilesOk C)
    (hlat : C.core.bounds.lat = "circular") (hin : SmallInflow C.core) (hflat : CalmShelter C) (hb : C.core.tr.methodTransport = "bagnold")
    (umax z0 : ℝ) (hu : WindBelow C umax) (hz : RoughnessIs C z0) (hz0 : 0 < z0 ∧ z0 < C.wind.z) (m : ℝ) (hm : 0 ≤ m)
    (calls : List ((ℕ → ℝ) × ℝ)) (hthick : ∀ x ∈ calls, Copes nx 0 C.core (bagnoldBound C z0 umax) m (if 0 < x.2 then x.2 else C.ts.dt))
    (σ : Full.State nx nf) (hσ : Sound C.core.setup.bed.nl m σ.core) (hair : ∀ c f, σ.core.sand.Ct c f ≤ bagnoldBound C z0 umax)
    (hsalt : ∀ c, (σ.moist c).salt ≤ 1) (hrho : ∀ j, 0 ≤ (σ.veg j).rho) :
    ∃ τ, Full.run sp C calls σ = some (.ok τ) ∧ Sound C.core.setup.bed.nl m τ.core ∧
      ∀ c f, τ.core.sand.Ct c f ≤ bagnoldBound C z0 umax := by
  obtain ⟨τ, h⟩ := C133_run_total sp C hC hN hF calls σ fun c f => (hσ.cap c f).2.2
  exact ⟨τ, h, C134_storm_any sp hsp C hC hF.toSeriesOk hlat hin hflat hb umax z0 hu hz hz0 m hm calls hthick σ τ hσ hair hsalt hrho h⟩

/-! ### Examples -/

/-- A transect of three cells with tide, drying sand and a wind that turns from onshore to offshore; on request with dunes, that is with shear
over the topography and its separation, a fence, vegetation, avalanches and dune erosion by waves. -/
noncomputable def coastConfig (umax : ℝ) (dunes : Bool) : Full.Config 2 1 where
  core := duneConfig
  wind := ⟨true, some [(0, 0, 270), (3600, umax, 270), (7200, umax, 90)], 0, 0.41, 10, 0.001, 2650, 1.225, 9.81, "constant", dunes, dunes, 0.2, 0.1⟩
  shelter := ⟨dunes, 4.8, 0.3, dunes, "okin", 4.8, 0.3, 16, fun _ _ => 1 / 9,
    ⟨true, true, 5, 1, 0, 1, 3600, 3600, 1, 1, 1, 0.5, 0, 0.05, 0.2⟩, 1⟩
  ts := ⟨3600, false, 1, 999⟩
  accfac := 1
  alpha := 0
  x := fun j => j
  water := ⟨true, true, true, some [(0, -1), (21600, 1)], some [(0, 1, 6), (86400, 2, 8)], 0.5, 0.1⟩
  tideMask := fun _ => (1, 0)
  waveMask := fun _ => (1, 0)
  runupMask := none
  ground := ⟨false, ⟨0, 1, 1, 10, 1, true⟩, "no_flow", 3, 10, 0, 0, fun _ => 1, fun _ => (1, 0), fun j => j⟩
  moist := ⟨true, false, false, "infiltration", 0.4, 0.001, 5400, 86400, 0.1, 0.02, 0.02, 0.4, 0.4, 0.01, 0.01, 2, 2, 2, 2, 0.5, 0.5, 0.001, 10⟩
  meteoFile := none
  thresholdMask := fun _ => (1, 0)
  zne := fun _ => some (-10)
  ava := ⟨dunes, 2, 0, fun _ _ => 1, fun _ _ => 1, fun _ _ => none, 34, 33, 1000⟩
  wetReset := false
  Tbedreset := 86400
  zb0 := fun _ => 1
  avgTime := 86400
  dune := ⟨dunes, ⟨3, 0.1, 1e-4⟩, fun _ _ _ _ _ => 1⟩
  duran := fun _ => ⟨1.5e-5, 9.81, 2650, 1.225, 0.085, 0.41, 0.000225⟩

theorem coast_usable (umax : ℝ) (dunes : Bool) : Usable (coastConfig umax dunes) where
  core := duneConfig_ok
  grid := duneGrid
  speed := rfl
  on := Or.inl rfl
  kappa := by norm_num [coastConfig]
  rough := ⟨0.001, Or.inl ⟨rfl, rfl⟩, by norm_num, by norm_num [coastConfig]⟩
  weights := fun _ _ => by norm_num [coastConfig]
  mask := fun _ => by norm_num [coastConfig]
  step := ⟨rfl, by norm_num [coastConfig], rfl⟩

theorem coast_files (umax : ℝ) (dunes : Bool) : FilesOk (coastConfig umax dunes) where
  wind := fun file h => by
    obtain rfl := Option.some.inj h
    exact ⟨by simp, by norm_num⟩
  tide := fun ts h => by
    obtain rfl := Option.some.inj h
    unfold Increasing
    exact ⟨by simp, by norm_num⟩
  wave := fun ts h => by
    obtain rfl := Option.some.inj h
    exact ⟨by simp, by norm_num⟩
  moist := fun _ => Or.inl (by show lower "infiltration" = "infiltration"; decide)
  salt := fun h => by cases h
  meteo := fun rows h => by cases h
  dune := fun _ => ⟨by simp [coastConfig], by simp [coastConfig]⟩
  ground := rfl

/-- A flat dry bed and clear air. -/
noncomputable def coastState : Full.State 2 1 where
  clock := ⟨0, 3600, 3600⟩
  uw := 0
  udir := 0
  shear := fun _ => ⟨0, 0, 0, 0, 0, 0⟩
  core := duneState 2 0
  hydro := { water := ⟨fun _ => 0, fun _ => 0, fun _ => 0, fun _ => 0, fun _ => 0, fun _ => 0, fun _ => 0, fun _ => 0, fun _ => 0, fun _ => 0⟩, gw := fun _ => 0, gwPrev := fun _ => 0, wetting := fun _ => false }
  moist := fun _ => ⟨0, 0, 0, false, false, 0, 0, 0, 0, 0, 0, 0⟩
  veg := fun _ => ⟨0, 0, 0, 0, 0, 0⟩
  fence := fun _ => ⟨0, 0, 0⟩
  zsep := fun _ => 0
  dzbavg := fun _ => 0
  dzbveg := fun _ => 0

/-- C133: with all processes, whatever the calls. -/
example (calls : List ((ℕ → ℝ) × ℝ)) : ∃ τ, Full.run byInverse (coastConfig 20 true) calls coastState = some (.ok τ) :=
  C133_run_total byInverse _ (coast_usable 20 true) duneConfig_names (coast_files 20 true) calls coastState fun _ _ => le_rfl

theorem coast_log : 9 ≤ Real.log (10 / 0.001) := by
  rw [Real.le_log_iff_exp_le (by norm_num)]
  have h := Real.exp_one_lt_d9.le
  have e : Real.exp 9 = Real.exp 1 ^ 9 := by rw [← Real.exp_nat_mul]; norm_num
  rw [e]
  exact (pow_le_pow_left₀ (Real.exp_pos 1).le h 9).trans (by norm_num)

theorem coast_ratio : 0 ≤ 0.41 / Real.log (10 / 0.001) ∧ 0.41 / Real.log (10 / 0.001) ≤ 0.0456 := by
  have h := coast_log
  have h0 : 0 < Real.log (10 / 0.001) := by linarith
  refine ⟨by positivity, ?_⟩
  rw [div_le_iff₀ h0]
  linarith

/-- The coast with fences and plants, on a bed that does not change the shear. -/
noncomputable def shelteredConfig (umax : ℝ) : Full.Config 2 1 := { coastConfig umax false with shelter := (coastConfig umax true).shelter }

theorem sheltered_usable (umax : ℝ) : Usable (shelteredConfig umax) :=
  let h := coast_usable umax false
  ⟨h.core, h.grid, h.speed, h.on, h.kappa, h.rough, (coast_usable umax true).weights, h.mask, h.step⟩

theorem sheltered_files (umax : ℝ) : FilesOk (shelteredConfig umax) :=
  let h := coast_files umax false
  ⟨⟨h.wind, h.tide, h.wave, h.moist, h.salt, h.meteo, h.dune⟩, h.ground⟩

/-- The initial state with fences and plants. -/
noncomputable def shelteredState (fence : ℕ → Lee.Fence) (veg : ℕ → Veg.Cell) : Full.State 2 1 := { coastState with fence := fence, veg := veg }

theorem coast_grains (f : Fin 1) : 0.17 ≤ grainThreshold duneConfig f := by
  have hl : lower "bagnold" = "bagnold" := by decide
  show (0.17 : ℝ) ≤ (if lower "bagnold" = "dk" then 0.8 else 1) * (0.085 * Real.sqrt ((2650 - 1.225) / 1.225 * 9.81 * 0.000225))
  rw [hl, if_neg (by decide), one_mul]
  have : (2 : ℝ) ≤ Real.sqrt ((2650 - 1.225) / 1.225 * 9.81 * 0.000225) := Real.le_sqrt_of_sq_le (by norm_num)
  linarith

theorem sheltered_calm (umax : ℝ) : CalmShelter (shelteredConfig umax) where
  shear := rfl
  plants := fun _ h => absurd rfl h
  grains := fun f => le_trans (by norm_num) (coast_grains f)
  csalt := by norm_num [shelteredConfig, coastConfig, duneConfig, exThreshold]
  mask := fun _ => le_rfl

/-- C134: a breeze of 3 m/s, with any fences and plants. -/
example (fence : ℕ → Lee.Fence) (veg : ℕ → Veg.Cell) (hveg : ∀ j, 0 ≤ (veg j).rho) (calls : List ((ℕ → ℝ) × ℝ)) :
    ∃ τ, Full.run byInverse (shelteredConfig 3) calls (shelteredState fence veg) = some (.ok τ) ∧
      Still 3 (shelteredState fence veg).core τ.core := by
  refine C134_breeze byInverse byInverse_exact _ (sheltered_usable 3) duneConfig_names (sheltered_files 3)
    ⟨⟨fun _ => rfl, fun _ => rfl⟩, fun _ => rfl, fun _ => rfl⟩ (sheltered_calm 3).csalt rfl ⟨rfl, rfl, rfl⟩ (sheltered_calm 3).toSheltering
    (fun _ => le_rfl) 3 0.001 ⟨rfl, _, rfl, by norm_num⟩ (Or.inl ⟨rfl, rfl⟩) (fun f => ?_) calls _
    (fun _ _ _ _ => by norm_num [shelteredState, coastState, duneState]) (fun _ _ => le_rfl) (fun _ _ => rfl) (fun _ => zero_le_one) hveg
  show max 0.01 ((3 : ℝ) * |0.41 / Real.log (10 / 0.001)|) ≤ grainThreshold duneConfig f
  rw [abs_of_nonneg coast_ratio.1]
  exact max_le (le_trans (by norm_num) (coast_grains f)) (le_trans (by linarith [coast_ratio.2]) (coast_grains f))

theorem coast_bound : bagnoldBound (coastConfig 20 false) 0.001 20 ≤ 0.01 := by
  have h := pow_le_pow_left₀ coast_ratio.1 coast_ratio.2 3
  show 1.5 * (1.225 / 9.81) * (0.41 / Real.log (10 / 0.001)) ^ 3 * 20 ^ 2 * 1 ≤ _
  nlinarith

theorem coast_thick (dt : ℝ) (h : dt ≤ 3600) :
    bagnoldBound (coastConfig 20 false) 0.001 20 / (coastConfig 20 false).core.T * (if 0 < dt then dt else (coastConfig 20 false).ts.dt) < 159 := by
  have hd : (if 0 < dt then dt else (coastConfig 20 false).ts.dt) ≤ 3600 := by
    split_ifs
    · exact h
    · exact le_rfl
  have hp : 0 < (if 0 < dt then dt else (coastConfig 20 false).ts.dt) := given_pos (coast_usable 20 false) dt
  have hT : (coastConfig 20 false).core.T = 1 := rfl
  rw [hT, div_one]
  have := mul_le_mul_of_nonneg_right coast_bound hp.le
  linarith

theorem coast_air (c : Fin (cells 2 0)) (f : Fin 1) : coastState.core.sand.Ct c f ≤ bagnoldBound (coastConfig 20 false) 0.001 20 := by
  show (0 : ℝ) ≤ 1.5 * (1.225 / 9.81) * (0.41 / Real.log (10 / 0.001)) ^ 3 * 20 ^ 2 * 1
  have := coast_ratio.1
  positivity

/-- C134: storms of up to 20 m/s with time steps of up to an hour, with any fences and plants. -/
example (fence : ℕ → Lee.Fence) (veg : ℕ → Veg.Cell) (hveg : ∀ j, 0 ≤ (veg j).rho) (calls : List ((ℕ → ℝ) × ℝ)) (h : ∀ x ∈ calls, x.2 ≤ 3600) :
    ∃ τ, Full.run byInverse (shelteredConfig 20) calls (shelteredState fence veg) = some (.ok τ) ∧ Sound 3 159 τ.core ∧
      ∀ c f, τ.core.sand.Ct c f ≤ 0.01 := by
  have hthick := fun x hx => copes_one (nx := 2) (ny := 0) (coast_thick x.2 (h x hx))
  obtain ⟨τ, hτ, hs, hc⟩ := C134_storm byInverse byInverse_exact (shelteredConfig 20) (sheltered_usable 20) duneConfig_names
    (sheltered_files 20) rfl ⟨⟨fun _ => zero_le_one, fun _ => rfl⟩, fun _ => zero_le_one, fun _ => rfl⟩ (sheltered_calm 20) rfl 20 0.001
    ⟨rfl, _, rfl, by norm_num⟩ (Or.inl ⟨rfl, rfl⟩) (by norm_num [shelteredConfig, coastConfig]) 159 (by norm_num) calls hthick (shelteredState fence veg)
    (duneState_sound 2 0) coast_air (fun _ => zero_le_one) hveg
  exact ⟨τ, hτ, hs, fun c f => (hc c f).trans coast_bound⟩

end Aeolis.Props
