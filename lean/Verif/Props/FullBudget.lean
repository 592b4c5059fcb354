import Verif.Props.FullRun
import Verif.Props.WholeBudget

/-!
C135: the balance of sand of runs on a transect from the input files.
-/

set_option linter.unusedSectionVars false

namespace Aeolis.Props

open Finset Aeolis.Spec Aeolis.Sand Aeolis.Solver Aeolis.Whole Aeolis.Full

variable {nx nf : ℕ}

theorem adds_nothing {C : Full.Config nx nf} {t dt : ℝ} {E : Env nx 0 nf} (hS : StepOf C t dt E) (hava : OnlyAvalanches C) {area : ℝ}
    (h0 : 0 ≤ area) (hcell : ∀ j ≤ nx, C.core.ds 0 j * C.core.dn 0 j = area) : AddsNothing C.core E := by
  intro l
  rw [zero_add, sum_range_one, sum_range_one]
  have e : ∀ f : ℕ → ℝ, ∑ j ∈ Ico 1 nx, C.core.ds 0 j * C.core.dn 0 j * f j = ∑ j ∈ Ico 1 nx, area * f j := fun f =>
    sum_congr rfl fun j hj => by rw [hcell j (by rw [mem_Ico] at hj; omega)]
  rw [e, e, ← mul_sum, ← mul_sum]
  exact mul_le_mul_of_nonneg_left (hS.slides hava l) h0

/-- **C135** One call of `update`, any number of fractions, with fences and vegetation, on a bed that does not change the shear: the sand in bed and air together grows by what the wind carries in through
the ends less what it carries out there or sideways, up to the tolerance of the solver; the wind is the one in the file. -/
theorem C135_call (sp : LinSolve nx 0) (hsp : Exact sp) (C : Full.Config nx nf) (hC : Usable C) (hF : SeriesOk C)
    (hB : BalanceOk nx 0 C.core) (hin : SmallInflow C.core) (hflat : CalmShelter C) (hlev : NoOtherChanges C)
    (hb : C.core.tr.methodTransport = "bagnold")
    (umax z0 : ℝ) (hu : WindBelow C umax) (hz : RoughnessIs C z0) (hz0 : 0 < z0 ∧ z0 < C.wind.z) (m : ℝ) (hm : 0 ≤ m)
    (r : ℕ → ℝ) (dt : ℝ) (hthick : Copes nx 0 C.core (bagnoldBound C z0 umax) m (if 0 < dt then dt else C.ts.dt)) (hdt : -1 ≤ dt)
    (σ τ : Full.State nx nf) (b : Bool) (hσ : Sound C.core.setup.bed.nl m σ.core) (hair : ∀ c f, σ.core.sand.Ct c f ≤ bagnoldBound C z0 umax)
    (hsalt : ∀ c, (σ.moist c).salt ≤ 1) (hrho : ∀ j, 0 ≤ (σ.veg j).rho) (h : Full.update sp C r dt σ = some (.ok (τ, b))) :
    ∃ E, StepOf C σ.clock.t dt E ∧
      let error := sandMass C.core τ.core - sandMass C.core σ.core - throughput C.core E τ.core
      0 ≤ error ∧ error ≤ C.core.setup.bed.maxError * nf * innerArea nx 0 C.core ∧
        (OnshoreWind C.core E → Windy E →
          throughput C.core E τ.core = carried C.core E τ.core 0 - carried C.core E τ.core (nx - 1) - sideways C.core E τ.core) := by
  obtain ⟨hbf, -, hbt, -⟩ := C133_step sp C hC r dt σ τ b h
  have hbt' : b = true := by
    cases b with
    | true => rfl
    | false => exact absurd (hbf.mp rfl) (not_lt.mpr hdt)
  obtain ⟨E, hS, -, -, hsE, huE, hstep⟩ := hbt hbt'
  have henv := storm_env sp C hC hF hin hflat hb umax z0 hu hz hz0 m _ _ hthick E hS (hsE hsalt) (huE hflat.toSheltering hrho)
  obtain ⟨l, u⟩ := C131_fractions sp hsp C.core hC.core hC.grid hB m (bagnoldBound C z0 umax) hm (bagnoldBound_nonneg C hC umax z0 hz0)
    (fun _ => E) (fun k => if k = 0 then σ.core else τ.core) 1
    (fun k _ hw => ⟨(henv hw).1, Or.inl rfl, (henv hw).2⟩) hσ hair (fun k hk => by
      obtain rfl : k = 0 := by omega
      exact hstep)
  have l := l fun k _ => hS.levels hlev
  have u := (u fun k _ l => by simp only [hS.levels hlev, le_refl]).1
  rw [sum_range_one] at l u
  refine ⟨E, hS, l, by simpa using u, fun hon hw => ?_⟩
  unfold Whole.step at hstep
  simp only [if_pos (show ∑ c, (E.wind c).uw ≠ 0 from hw)] at hstep
  match ht : transport sp C.core E (waves C.core E σ.core) with
  | none => simp [ht] at hstep
  | some (.error e) => simp [ht] at hstep
  | some (.ok ρ) =>
    simp only [ht] at hstep
    have e := Except.ok.inj (Option.some.inj hstep)
    have h3 := (C131_transport sp hsp C.core hC.core hC.grid hB m E (hS.ok hw).1 (Or.inl rfl) _ ρ
      (waves_sound C.core hC.core m E σ.core hσ) ht).2.2 hon
    rw [← e]
    refine (if_pos hw).trans ?_
    exact h3

/-- **C135** With groundwater: sand is not created in a run that returns. -/
theorem C135_not_created_any (sp : LinSolve nx 0) (hsp : Exact sp) (C : Full.Config nx nf) (hC : Usable C) (hF : SeriesOk C)
    (hB : BalanceOk nx 0 C.core) (hin : NoInflow C.core) (hflat : CalmShelter C) (hava : OnlyAvalanches C)
    (area : ℝ) (ha : 0 ≤ area) (hcell : ∀ j ≤ nx, C.core.ds 0 j * C.core.dn 0 j = area)
    (hb : C.core.tr.methodTransport = "bagnold")
    (umax z0 : ℝ) (hu : WindBelow C umax) (hz : RoughnessIs C z0) (hz0 : 0 < z0 ∧ z0 < C.wind.z) (m : ℝ) (hm : 0 ≤ m)
    (calls : List ((ℕ → ℝ) × ℝ)) (hthick : ∀ x ∈ calls, Copes nx 0 C.core (bagnoldBound C z0 umax) m (if 0 < x.2 then x.2 else C.ts.dt))
    (σ τ : Full.State nx nf) (hσ : Sound C.core.setup.bed.nl m σ.core) (hair : ∀ c f, σ.core.sand.Ct c f ≤ bagnoldBound C z0 umax)
    (hsalt : ∀ c, (σ.moist c).salt ≤ 1) (hrho : ∀ j, 0 ≤ (σ.veg j).rho) (h : Full.run sp C calls σ = some (.ok τ)) :
   
      sandMass C.core τ.core ≤ sandMass C.core σ.core + calls.length * (C.core.setup.bed.maxError * nf * innerArea nx 0 C.core) := by
  have hM := bagnoldBound_nonneg C hC umax z0 hz0
  have hsmall : SmallInflow C.core :=
    ⟨⟨fun k => by rw [hin.off.1 k]; exact zero_le_one, hin.off.2⟩, fun k => by rw [hin.on.1 k]; exact zero_le_one, hin.on.2⟩
  obtain ⟨Es, hlen, hEs, hsE, huE, hr⟩ := C133_run sp C hC calls σ τ h
  have hpos : 0 ≤ C.core.setup.bed.maxError * nf * innerArea nx 0 C.core := by
    refine mul_nonneg (mul_nonneg hC.core.err (Nat.cast_nonneg _)) (sum_nonneg fun i hi => sum_nonneg fun j hj => ?_)
    rw [mem_range] at hi
    rw [mem_Ico] at hj
    exact mul_nonneg (hC.grid.ds i (by omega) j (by omega)) (hC.grid.dn i (by omega) j (by omega))
  have key : ∀ (Es : List (Env nx 0 nf)) (ρ ρ' : Whole.State nx 0 nf), (∀ E ∈ Es, (∃ x ∈ calls, StepOf C E.t x.2 E) ∧ (∀ c, E.salt c ≤ 1) ∧ Sheltered E) →
      Sound C.core.setup.bed.nl m ρ → (∀ c f, ρ.sand.Ct c f ≤ bagnoldBound C z0 umax) → Whole.run sp C.core Es ρ = some (.ok ρ') →
      sandMass C.core ρ' ≤ sandMass C.core ρ + Es.length * (C.core.setup.bed.maxError * nf * innerArea nx 0 C.core) := by
    intro Es
    induction Es with
    | nil =>
      intro ρ ρ' _ _ _ hr
      rw [← Except.ok.inj (Option.some.inj hr)]
      simp
    | cons E Es ih =>
      intro ρ ρ' hE hs hc hr
      unfold Whole.run at hr
      match h1 : Whole.step sp C.core E ρ with
      | none => simp [h1] at hr
      | some (.error e) => simp [h1] at hr
      | some (.ok θ) =>
        simp only [h1] at hr
        obtain ⟨⟨x, hx, hS⟩, hs1, hs2⟩ := hE E List.mem_cons_self
        have henv := storm_env sp C hC hF hsmall hflat hb umax z0 hu hz hz0 m _ _ (hthick x hx) E hS hs1 hs2
        have hnext := C128_fractions sp hsp C.core hC.core hC.grid hB.lateral m _ hm hM [E] (fun E' hE' => by
          rw [List.mem_singleton] at hE'
          rw [hE']
          exact henv) ρ θ hs hc (by
            unfold Whole.run
            rw [h1]
            rfl)
        have hone := ((C131_fractions sp hsp C.core hC.core hC.grid hB m (bagnoldBound C z0 umax) hm hM
          (fun _ => E) (fun k => if k = 0 then ρ else θ) 1
          (fun k _ hw => ⟨(henv hw).1, Or.inl rfl, (henv hw).2⟩) hs hc (fun k hk => by
            obtain rfl : k = 0 := by omega
            exact h1)).2 fun _ _ => adds_nothing hS hava ha hcell).2 fun _ _ _ => ⟨hin.off.1, hin.off.2, Or.inr hin.on⟩
        have hone : sandMass C.core θ ≤ sandMass C.core ρ + C.core.setup.bed.maxError * nf * innerArea nx 0 C.core := by simpa using hone
        have := ih θ ρ' (fun E' h' => hE E' (List.mem_cons_of_mem _ h')) hnext.1 hnext.2 hr
        rw [List.length_cons]
        push_cast
        linarith
  have hk := key Es σ.core τ.core (fun E h' => ⟨hEs E h', hsE hsalt E h', huE hflat.toSheltering hrho E h'⟩) hσ hair hr
  have hle : (Es.length : ℝ) ≤ calls.length := by
    rw [hlen]
    exact_mod_cast List.countP_le_length
  have := mul_le_mul_of_nonneg_right hle hpos
  linarith

/-- **C135** Sand is not created: in a run of any length, with any calls of `update`, tide, waves and wind from any direction, avalanches
included, the sand in the bed and in the air together does not grow if none is supplied at the ends, up to the tolerance of the solver in every
step. -/
theorem C135_not_created (sp : LinSolve nx 0) (hsp : Exact sp) (C : Full.Config nx nf) (hC : Usable C) (hN : NamesOk C.core) (hF : FilesOk C)
    (hB : BalanceOk nx 0 C.core) (hin : NoInflow C.core) (hflat : CalmShelter C) (hava : OnlyAvalanches C)
    (area : ℝ) (ha : 0 ≤ area) (hcell : ∀ j ≤ nx, C.core.ds 0 j * C.core.dn 0 j = area)
    (hb : C.core.tr.methodTransport = "bagnold")
    (umax z0 : ℝ) (hu : WindBelow C umax) (hz : RoughnessIs C z0) (hz0 : 0 < z0 ∧ z0 < C.wind.z) (m : ℝ) (hm : 0 ≤ m)
    (calls : List ((ℕ → ℝ) × ℝ)) (hthick : ∀ x ∈ calls, Copes nx 0 C.core (bagnoldBound C z0 umax) m (if 0 < x.2 then x.2 else C.ts.dt))
    (σ : Full.State nx nf) (hσ : Sound C.core.setup.bed.nl m σ.core) (hair : ∀ c f, σ.core.sand.Ct c f ≤ bagnoldBound C z0 umax)
    (hsalt : ∀ c, (σ.moist c).salt ≤ 1) (hrho : ∀ j, 0 ≤ (σ.veg j).rho) :
    ∃ τ, Full.run sp C calls σ = some (.ok τ) ∧
      sandMass C.core τ.core ≤ sandMass C.core σ.core + calls.length * (C.core.setup.bed.maxError * nf * innerArea nx 0 C.core) := by
  obtain ⟨τ, h⟩ := C133_run_total sp C hC hN hF calls σ fun c f => (hσ.cap c f).2.2
  exact ⟨τ, h, C135_not_created_any sp hsp C hC hF.toSeriesOk hB hin hflat hava area ha hcell hb umax z0 hu hz hz0 m hm calls hthick σ τ hσ hair hsalt hrho h⟩

/-! ### Examples -/

/-- The coast with avalanches, fences and plants. -/
noncomputable def slopingConfig : Full.Config 2 1 :=
  { shelteredConfig 20 with ava := ⟨true, 2, 0, fun _ _ => 1, fun _ _ => 1, fun _ _ => none, 34, 33, 1000⟩ }

theorem sloping_usable : Usable slopingConfig :=
  let h := sheltered_usable 20
  ⟨h.core, h.grid, h.speed, h.on, h.kappa, h.rough, h.weights, h.mask, h.step⟩

theorem sloping_files : FilesOk slopingConfig :=
  let h := sheltered_files 20
  ⟨⟨h.wind, h.tide, h.wave, h.moist, h.salt, h.meteo, h.dune⟩, h.ground⟩

theorem sloping_calm : CalmShelter slopingConfig :=
  let h := sheltered_calm 20
  { h with shear := h.shear, plants := h.plants, mask := h.mask }

/-- C135: storms of up to 20 m/s with avalanches. -/
example (fence : ℕ → Lee.Fence) (veg : ℕ → Veg.Cell) (hveg : ∀ j, 0 ≤ (veg j).rho) (calls : List ((ℕ → ℝ) × ℝ)) (h : ∀ x ∈ calls, x.2 ≤ 3600) :
    ∃ τ, Full.run byInverse slopingConfig calls (shelteredState fence veg) = some (.ok τ) ∧
      sandMass duneConfig τ.core ≤ sandMass duneConfig coastState.core + calls.length * 1e-6 := by
  obtain ⟨τ, h1, h2⟩ := C135_not_created byInverse byInverse_exact slopingConfig sloping_usable duneConfig_names sloping_files dune_balance
    ⟨⟨fun _ => rfl, fun _ => rfl⟩, fun _ => rfl, fun _ => rfl⟩ sloping_calm ⟨rfl, rfl⟩ 1 zero_le_one
    (fun _ _ => by norm_num [slopingConfig, shelteredConfig, coastConfig, duneConfig]) rfl 20 0.001
    ⟨rfl, _, rfl, by norm_num⟩ (Or.inl ⟨rfl, rfl⟩) (by norm_num [slopingConfig, shelteredConfig, coastConfig]) 159 (by norm_num) calls
    (fun x hx => copes_one (coast_thick x.2 (h x hx))) (shelteredState fence veg) (duneState_sound 2 0) coast_air (fun _ => zero_le_one) hveg
  have e : duneConfig.setup.bed.maxError * (1 : ℕ) * innerArea 2 0 duneConfig = 1e-6 := by
    unfold innerArea
    norm_num [duneConfig]
  have h2 : sandMass duneConfig τ.core ≤ sandMass duneConfig coastState.core + calls.length * (duneConfig.setup.bed.maxError * (1 : ℕ) * innerArea 2 0 duneConfig) :=
    h2
  rw [e] at h2
  exact ⟨τ, h1, h2⟩

/-- C135: every call, the wind turns. -/
example (fence : ℕ → Lee.Fence) (veg : ℕ → Veg.Cell) (hveg : ∀ j, 0 ≤ (veg j).rho) (r : ℕ → ℝ) (dt : ℝ) (h : dt ≤ 3600) (h' : -1 ≤ dt) :
    ∃ τ b E, Full.update byInverse (shelteredConfig 20) r dt (shelteredState fence veg) = some (.ok (τ, b)) ∧ StepOf (shelteredConfig 20) 0 dt E ∧
      sandMass duneConfig coastState.core + throughput duneConfig E τ.core ≤ sandMass duneConfig τ.core := by
  obtain ⟨τ, b, hu, -⟩ := C133_total byInverse (shelteredConfig 20) (sheltered_usable 20) duneConfig_names (sheltered_files 20) r dt
    (shelteredState fence veg) fun _ _ => le_rfl
  obtain ⟨E, hS, h0, -⟩ := C135_call byInverse byInverse_exact (shelteredConfig 20) (sheltered_usable 20) (sheltered_files 20).toSeriesOk dune_balance
    ⟨⟨fun _ => zero_le_one, fun _ => rfl⟩, fun _ => zero_le_one, fun _ => rfl⟩ (sheltered_calm 20) ⟨rfl, rfl, rfl⟩ rfl 20 0.001
    ⟨rfl, _, rfl, by norm_num⟩ (Or.inl ⟨rfl, rfl⟩) (by norm_num [shelteredConfig, coastConfig]) 159 (by norm_num) r dt (copes_one (coast_thick dt h)) h' (shelteredState fence veg) τ b
    (duneState_sound 2 0) coast_air (fun _ => zero_le_one) hveg hu
  have h0 : 0 ≤ sandMass duneConfig τ.core - sandMass duneConfig coastState.core - throughput duneConfig E τ.core := h0
  exact ⟨τ, b, E, hu, hS, by linarith⟩

end Aeolis.Props
