import Verif.Props.Planar
import Verif.Props.FullRun

/-!
C141: runs on a planar grid from the input files: nothing moves in a breeze, bounded concentrations in a storm.
-/

set_option linter.unusedSectionVars false

namespace Aeolis.Props

open Finset Aeolis.Spec Aeolis.Sand Aeolis.Solver Aeolis.Whole Aeolis.Planar

variable {nx ny nf : ℕ}

/-- The wind comes from a file, with speeds of at most `umax`. -/
def PlanarWindBelow (C : Planar.Config nx ny nf) (umax : ℝ) : Prop :=
  C.wind.processWind = true ∧ ∃ file, C.wind.file = some file ∧ ∀ r ∈ file, |r.2.1| ≤ umax

theorem planar_file_below {C : Planar.Config nx ny nf} (hF : PlanarSeries C) {umax : ℝ} (hu : PlanarWindBelow C umax) {t dt : ℝ} {E : Env nx ny nf}
    (hE : PlanarStep C t dt E) (c : Fin (cells nx ny)) : 0 ≤ (E.wind c).uw ∧ (E.wind c).uw ≤ umax ∧ (Windy E → 0 < (E.wind c).uw) := by
  obtain ⟨hp, file, hf, hle⟩ := hu
  obtain ⟨v, d, hv, huw⟩ := hE.wind file hp hf
  obtain ⟨hne, hinc⟩ := hF.wind file hf
  obtain ⟨v', hv', hlo, hhi⟩ := C10_within_data_range (file.map fun r => (r.1, r.2.1)) (by simpa using hne) (by
    unfold Increasing
    rw [List.pairwise_map]
    exact hinc) t (-umax) umax (by
      intro k hk
      obtain ⟨r, hr, rfl⟩ := List.mem_map.mp hk
      exact abs_le.mp (hle r hr))
  have e : v = v' := by
    unfold Wind.windAt at hv
    simp only [hv'] at hv
    split at hv
    · rename_i a _ _ h1 _ _
      have h2 := Option.some.inj hv
      have h1 := Option.some.inj h1
      exact (congrArg Prod.fst h2).symm.trans h1.symm
    · simp at hv
  rw [(huw c).1]
  refine ⟨abs_nonneg v, abs_le.mpr (by rw [e]; exact ⟨hlo, hhi⟩), fun hw => abs_pos.mpr ?_⟩
  rintro h0
  apply hw
  simp [huw, h0]

/-- **C141** With groundwater, for runs that return: if the shear velocity of the strongest wind in the file is below the threshold of every
grain size nothing moves. -/
theorem C141_breeze_any (sp : LinSolve nx ny) (hsp : Exact sp) (C : Planar.Config nx ny nf) (hC : PlanarUsable C) (hF : PlanarSeries C)
    (hs : FromSector C) (hin : NoInflow C.core) (hcs : 0 ≤ C.core.thr.csalt) (hmix : C.core.setup.mixing = false) (hlev : PlanarNoOtherChanges C) (hflat : PlanarSheltering C)
    (hmask : ∀ c, 1 ≤ (C.thresholdMask c).1) (umax z0 : ℝ) (hu : PlanarWindBelow C umax) (hz : PlanarRoughness C z0)
    (hlow : ∀ f, umax * |C.wind.kappa / Real.log (C.wind.z / z0)| ≤ grainThreshold C.core f) (calls : List ((ℕ → ℕ → ℝ) × ℝ))
    (σ τ : Planar.State nx ny nf) (hm : ∀ c, ∀ k < C.core.setup.bed.nl, ∀ f, 0 ≤ (σ.core.sand.bed c).mass k f)
    (hcap : ∀ c f, 0 ≤ (σ.core.cap c f).Cu0) (hair : ∀ c f, σ.core.sand.Ct c f = 0) (hsalt : ∀ c, (σ.moist c).salt ≤ 1)
    (hrho : ∀ i j, 0 ≤ (σ.veg i j).rho) (h : Planar.run sp C calls σ = some (.ok τ)) :
    Still C.core.setup.bed.nl σ.core τ.core := by
  obtain ⟨Es, -, hEs, hsE, huE, hr⟩ := C140_run sp C hC calls σ τ h
  refine C127_run sp hsp C.core hC.core hC.grid hin hcs hmix Es (fun E hE => ?_) σ.core τ.core hm hcap hair hr
  obtain ⟨x, -, hS⟩ := hEs E hE
  refine ⟨fun hw => ⟨(hS.ok hw).1 (C140_sector C hF hs _ _ E hS), hsE hsalt E hE, fun c => by rw [hS.mask]; exact hmask c, fun c f => ?_⟩, hS.levels hlev⟩
  refine (huE hflat hrho E hE c).1.trans (le_trans ?_ (hlow f))
  rw [hS.profile z0 hz c]
  exact mul_le_mul_of_nonneg_right (planar_file_below hF hu hS c).2.1 (abs_nonneg _)

/-- **C141** If the shear velocity of the strongest wind in the file is below the threshold of every grain size nothing moves: whatever the
time steps, the direction of the wind within the sector, the vegetation, the tide, the moisture and the salt, layers and levels stay what they were and the air stays clear. -/
theorem C141_breeze (sp : LinSolve nx ny) (hsp : Exact sp) (C : Planar.Config nx ny nf) (hC : PlanarUsable C) (hN : NamesOk C.core) (hF : PlanarFiles C)
    (hs : FromSector C) (hin : NoInflow C.core) (hcs : 0 ≤ C.core.thr.csalt) (hmix : C.core.setup.mixing = false) (hlev : PlanarNoOtherChanges C) (hflat : PlanarSheltering C)
    (hmask : ∀ c, 1 ≤ (C.thresholdMask c).1) (umax z0 : ℝ) (hu : PlanarWindBelow C umax) (hz : PlanarRoughness C z0)
    (hlow : ∀ f, umax * |C.wind.kappa / Real.log (C.wind.z / z0)| ≤ grainThreshold C.core f) (calls : List ((ℕ → ℕ → ℝ) × ℝ))
    (σ : Planar.State nx ny nf) (hm : ∀ c, ∀ k < C.core.setup.bed.nl, ∀ f, 0 ≤ (σ.core.sand.bed c).mass k f)
    (hcap : ∀ c f, 0 ≤ (σ.core.cap c f).Cu0) (hair : ∀ c f, σ.core.sand.Ct c f = 0) (hsalt : ∀ c, (σ.moist c).salt ≤ 1)
    (hrho : ∀ i j, 0 ≤ (σ.veg i j).rho) :
    ∃ τ, Planar.run sp C calls σ = some (.ok τ) ∧ Still C.core.setup.bed.nl σ.core τ.core := by
  obtain ⟨τ, h⟩ := C140_run_total sp C hC hN hF hs calls σ hcap
  exact ⟨τ, h, C141_breeze_any sp hsp C hC hF.toPlanarSeries hs hin hcs hmix hlev hflat hmask umax z0 hu hz hlow calls σ τ hm hcap hair hsalt hrho h⟩

/-- Bagnold's concentration for the undisturbed wind `u` without threshold. -/
noncomputable def planarBagnold (C : Planar.Config nx ny nf) (z0 u : ℝ) : ℝ :=
  C.core.tr.Cb * (C.core.tr.rhoa / C.core.tr.g) * (C.wind.kappa / Real.log (C.wind.z / z0)) ^ 3 * u ^ 2 * C.core.tr.accfac

/-- The steps of a storm with vegetation on a bed that does not change the shear. -/
theorem planar_storm_env (sp : LinSolve nx ny) (C : Planar.Config nx ny nf) (hC : PlanarUsable C) (hF : PlanarSeries C) (hs : FromSector C)
    (hin : SmallInflow C.core) (hflat : PlanarSheltering C) (hb : C.core.tr.methodTransport = "bagnold")
    (umax z0 : ℝ) (hu : PlanarWindBelow C umax) (hz : PlanarRoughness C z0) (hz0 : 0 < z0 ∧ z0 < C.wind.z) (m : ℝ)
    (t dt : ℝ) (hthick : Copes nx ny C.core (planarBagnold C z0 umax) m (if 0 < dt then dt else C.ts.dt)) (E : Env nx ny nf) (hS : PlanarStep C t dt E)
    (hsalt : ∀ c, E.salt c ≤ 1) (hle : PlanarSheltered E) :
    Windy E → EnvOk C.core E ∧ Steadying C.core E ∧ Copes nx ny C.core (planarBagnold C z0 umax) m E.dt ∧
      ∀ τ ρ, transport sp C.core E τ = some (.ok ρ) →
        (∀ c f, (ρ.cap c f).Cu ≤ planarBagnold C z0 umax ∧ (ρ.cap c f).Cuf ≤ planarBagnold C z0 umax) ∧
          EndsBelow C.core (planarBagnold C z0 umax) ρ := by
  have hP := hC.core.transport.1
  have hq : 0 < C.wind.kappa / Real.log (C.wind.z / z0) := div_pos hC.kappa (Real.log_pos ((one_lt_div hz0.1).mpr hz0.2))
  have hk : 0 < C.core.tr.Cb * (C.core.tr.rhoa / C.core.tr.g) := mul_pos hP.Cb (div_pos hP.rhoa hP.g)
  have hM : 0 ≤ planarBagnold C z0 umax := by
    unfold planarBagnold
    have := hP.accfac
    positivity
  intro hw
  obtain ⟨hok, hst⟩ := hS.ok hw
  have hok := hok (C140_sector C hF hs _ _ E hS)
  refine ⟨hok, hst, by rw [hS.time.2]; exact hthick, fun ρ ρ' ht => ?_⟩
  have hparts := transport_ok.mp ht
  have hsp' : ∀ c f, ρ'.speed c f = ⟨(E.wind c).uw, (E.wind c).uws, (E.wind c).uwn⟩ := fun c f =>
    windspeed_speed hC.speed (by simpa [hC.core.transport.2] using hparts.speed c f)
  have key : ∀ c f, (ρ'.cap c f).Cu ≤ planarBagnold C z0 umax ∧ (ρ'.cap c f).Cuf ≤ planarBagnold C z0 umax ∧
      (ρ'.cap c f).Cu0 ≤ planarBagnold C z0 umax := by
    intro c f
    obtain ⟨h0, hmax, hpos⟩ := planar_file_below hF hu hS c
    have hpos := hpos hw
    have h1 := bagnold_le hC.core hok hb hparts c f (by rw [hsp']; exact hpos)
    rw [hsp'] at h1
    have e0 : (E.wind c).ustar0 = (E.wind c).uw * (C.wind.kappa / Real.log (C.wind.z / z0)) := by
      rw [hS.profile z0 hz c, abs_of_pos hq]
    have hpos0 : 0 < (E.wind c).ustar0 := by
      rw [e0]
      exact mul_pos hpos hq
    have hne : (E.wind c).ustar ≠ 0 := ((hle c).2 hpos0).ne'
    have hbd : C.core.tr.Cb * (C.core.tr.rhoa / C.core.tr.g) * (E.wind c).ustar0 ^ 3 * (1 / (E.wind c).uw) * C.core.tr.accfac ≤
        planarBagnold C z0 umax := by
      have e : C.core.tr.Cb * (C.core.tr.rhoa / C.core.tr.g) * (E.wind c).ustar0 ^ 3 * (1 / (E.wind c).uw) * C.core.tr.accfac =
          C.core.tr.Cb * (C.core.tr.rhoa / C.core.tr.g) * (C.wind.kappa / Real.log (C.wind.z / z0)) ^ 3 * (E.wind c).uw ^ 2 *
            C.core.tr.accfac := by
        rw [e0]
        field_simp
      rw [e]
      refine mul_le_mul_of_nonneg_right (mul_le_mul_of_nonneg_left ?_ (mul_nonneg hk.le (pow_nonneg hq.le 3))) hP.accfac.le
      exact pow_le_pow_left₀ h0 hmax 2
    have hCu0 := (h1.2.2 hne).trans hbd
    have hle' := (hle c).1
    have hmono : C.core.tr.Cb * (C.core.tr.rhoa / C.core.tr.g) * (E.wind c).ustar ^ 3 * (1 / (E.wind c).uw) * C.core.tr.accfac ≤
          C.core.tr.Cb * (C.core.tr.rhoa / C.core.tr.g) * (E.wind c).ustar0 ^ 3 * (1 / (E.wind c).uw) * C.core.tr.accfac := by
      refine mul_le_mul_of_nonneg_right (mul_le_mul_of_nonneg_right (mul_le_mul_of_nonneg_left ?_ hk.le) (one_div_nonneg.mpr h0)) hP.accfac.le
      exact pow_le_pow_left₀ (hok.ustar c).1 hle' 3
    exact ⟨(h1.1.trans hmono).trans hbd, (h1.2.1.trans hmono).trans hbd, hCu0⟩
  have hend : ∀ k x : ℝ, 0 ≤ k → k ≤ 1 → x ≤ planarBagnold C z0 umax → k * x ≤ planarBagnold C z0 umax := fun k x h0 h1 hx =>
    (mul_le_mul_of_nonneg_left hx h0).trans (mul_le_of_le_one_left hM h1)
  have hfl := hC.core.flux
  refine ⟨fun c f => ⟨(key c f).1, (key c f).2.1⟩, ⟨fun c _ f => ⟨fun k => ?_, fun k => ?_⟩, fun c _ f => ⟨fun k => ?_, fun k => ?_⟩⟩⟩
  · exact hend _ _ hfl.1 (hin.off.1 k) (key c f).2.2
  · rw [hin.off.2 k, zero_div]
    exact hM
  · exact hend _ _ hfl.2.1 (hin.on.1 k) (key c f).2.2
  · rw [hin.on.2 k, zero_div]
    exact hM

/-- Bagnold's concentration is not negative. -/
theorem planarBagnold_nonneg (C : Planar.Config nx ny nf) (hC : PlanarUsable C) (umax z0 : ℝ) (hz0 : 0 < z0 ∧ z0 < C.wind.z) :
    0 ≤ planarBagnold C z0 umax := by
  have hP := hC.core.transport.1
  have hq : 0 < C.wind.kappa / Real.log (C.wind.z / z0) := div_pos hC.kappa (Real.log_pos ((one_lt_div hz0.1).mpr hz0.2))
  have hk : 0 < C.core.tr.Cb * (C.core.tr.rhoa / C.core.tr.g) := mul_pos hP.Cb (div_pos hP.rhoa hP.g)
  unfold planarBagnold
  have := hP.accfac
  positivity

/-- **C141** With groundwater: a run that returns keeps the state sound. -/
theorem C141_storm_any (sp : LinSolve nx ny) (hsp : Exact sp) (C : Planar.Config nx ny nf) (hC : PlanarUsable C) (hF : PlanarSeries C)
    (hs : FromSector C) (hlat : C.core.bounds.lat = "circular") (hin : SmallInflow C.core) (hflat : PlanarSheltering C) (hb : C.core.tr.methodTransport = "bagnold")
    (umax z0 : ℝ) (hu : PlanarWindBelow C umax) (hz : PlanarRoughness C z0) (hz0 : 0 < z0 ∧ z0 < C.wind.z) (m : ℝ) (hm : 0 ≤ m)
    (calls : List ((ℕ → ℕ → ℝ) × ℝ)) (hthick : ∀ x ∈ calls, Copes nx ny C.core (planarBagnold C z0 umax) m (if 0 < x.2 then x.2 else C.ts.dt))
    (σ τ : Planar.State nx ny nf) (hσ : Sound C.core.setup.bed.nl m σ.core) (hair : ∀ c f, σ.core.sand.Ct c f ≤ planarBagnold C z0 umax)
    (hsalt : ∀ c, (σ.moist c).salt ≤ 1) (hrho : ∀ i j, 0 ≤ (σ.veg i j).rho) (h : Planar.run sp C calls σ = some (.ok τ)) :
    Sound C.core.setup.bed.nl m τ.core ∧
      ∀ c f, τ.core.sand.Ct c f ≤ planarBagnold C z0 umax := by
  obtain ⟨Es, -, hEs, hsE, huE, hr⟩ := C140_run sp C hC calls σ τ h
  refine C128_fractions sp hsp C.core hC.core hC.grid hlat m _ hm (planarBagnold_nonneg C hC umax z0 hz0) Es (fun E hE hw => ?_)
    σ.core τ.core hσ hair hr
  obtain ⟨x, hx, hS⟩ := hEs E hE
  exact planar_storm_env sp C hC hF hs hin hflat hb umax z0 hu hz hz0 m _ _ (hthick x hx) E hS (hsE hsalt E hE) (huE hflat hrho E hE) hw

/-- **C141** A run with any number of fractions on a bed that does not change the shear, with vegetation and wind from the sector, always returns and
keeps the state sound: every layer keeps its mass, no amount of sand is negative, and nowhere is there more sand in the air than Bagnold's formula gives for the strongest wind in the file.  The layers must hold
what this concentration settles in a time step. -/
theorem C141_storm (sp : LinSolve nx ny) (hsp : Exact sp) (C : Planar.Config nx ny nf) (hC : PlanarUsable C) (hN : NamesOk C.core) (hF : PlanarFiles C)
    (hs : FromSector C) (hlat : C.core.bounds.lat = "circular") (hin : SmallInflow C.core) (hflat : PlanarSheltering C) (hb : C.core.tr.methodTransport = "bagnold")
    (umax z0 : ℝ) (hu : PlanarWindBelow C umax) (hz : PlanarRoughness C z0) (hz0 : 0 < z0 ∧ z0 < C.wind.z) (m : ℝ) (hm : 0 ≤ m)
    (calls : List ((ℕ → ℕ → ℝ) × ℝ)) (hthick : ∀ x ∈ calls, Copes nx ny C.core (planarBagnold C z0 umax) m (if 0 < x.2 then x.2 else C.ts.dt))
    (σ : Planar.State nx ny nf) (hσ : Sound C.core.setup.bed.nl m σ.core) (hair : ∀ c f, σ.core.sand.Ct c f ≤ planarBagnold C z0 umax)
    (hsalt : ∀ c, (σ.moist c).salt ≤ 1) (hrho : ∀ i j, 0 ≤ (σ.veg i j).rho) :
    ∃ τ, Planar.run sp C calls σ = some (.ok τ) ∧ Sound C.core.setup.bed.nl m τ.core ∧
      ∀ c f, τ.core.sand.Ct c f ≤ planarBagnold C z0 umax := by
  obtain ⟨τ, h⟩ := C140_run_total sp C hC hN hF hs calls σ fun c f => (hσ.cap c f).2.2
  exact ⟨τ, h, C141_storm_any sp hsp C hC hF.toPlanarSeries hs hlat hin hflat hb umax z0 hu hz hz0 m hm calls hthick σ τ hσ hair hsalt hrho h⟩

end Aeolis.Props
