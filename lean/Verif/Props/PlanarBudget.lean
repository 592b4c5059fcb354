import Verif.Props.PlanarRun
import Verif.Props.WholeBudget

/-!
C142: the balance of sand of runs on a planar grid from the input files.
-/

set_option linter.unusedSectionVars false

namespace Aeolis.Props

open Finset Aeolis.Spec Aeolis.Sand Aeolis.Solver Aeolis.Whole Aeolis.Planar

variable {nx ny nf : ℕ}

theorem planar_adds_nothing {C : Planar.Config nx ny nf} {t dt : ℝ} {E : Env nx ny nf} (hS : PlanarStep C t dt E) (hava : PlanarOnlyAvalanches C) {area : ℝ}
    (h0 : 0 ≤ area) (hcell : ∀ i ≤ ny, ∀ j ≤ nx, C.core.ds i j * C.core.dn i j = area) : AddsNothing C.core E := by
  intro l
  have e : ∀ f : ℕ → ℕ → ℝ, ∑ i ∈ range (ny + 1), ∑ j ∈ Ico 1 nx, C.core.ds i j * C.core.dn i j * f i j =
      area * ∑ i ∈ range (ny + 1), ∑ j ∈ Ico 1 nx, f i j := by
    intro f
    rw [mul_sum]
    refine sum_congr rfl fun i hi => ?_
    rw [mul_sum]
    exact sum_congr rfl fun j hj => by rw [hcell i (by rw [mem_range] at hi; omega) j (by rw [mem_Ico] at hj; omega)]
  rw [e, e]
  exact mul_le_mul_of_nonneg_left (hS.slides hava l) h0

/-- All rows of the grid are the same. -/
def EqualRows (nx ny : ℕ) (C : Whole.Config nf) : Prop := (∀ i ≤ ny, ∀ j ≤ nx, C.ds i j = C.ds 0 j) ∧ ∀ i ≤ ny, C.dn i 0 = C.dn 0 0

theorem planar_rows {C : Planar.Config nx ny nf} (hC : PlanarUsable C) (hg : EqualRows nx ny C.core) {t dt : ℝ} {E : Env nx ny nf}
    (hS : PlanarStep C t dt E) : Rows C.core E := by
  refine Or.inr ⟨by have := hC.rows; omega, hg.1, hg.2, fun c c' _ f s s' h h' => ?_⟩
  rw [windspeed_speed hC.speed h, windspeed_speed hC.speed h']
  exact (hS.uniform c c').2.2

theorem onshore_ahead {C : Planar.Config nx ny nf} (hC : PlanarUsable C) {E : Env nx ny nf} (hu : ∀ c c', (E.wind c).uwn = (E.wind c').uwn)
    (h : Ahead E) : OnshoreWind C.core E where
  us := fun c f s hs => by
    rw [windspeed_speed hC.speed hs]
    exact ⟨(h c).1, fun _ => (h c).2⟩
  wrap := fun _ c c' _ _ f s s' hs hs' => by
    rw [windspeed_speed hC.speed hs, windspeed_speed hC.speed hs']
    exact (hu c c').le

/-- **C142** One call of `update`, any number of fractions, with vegetation, on a bed that does not change the shear: the sand in bed and air together
grows by what the wind carries in through the first column less what it carries out through the last but one, up to the tolerance of the solver;
what leaves a row sideways enters the next. -/
theorem C142_call (sp : LinSolve nx ny) (hsp : Exact sp) (C : Planar.Config nx ny nf) (hC : PlanarUsable C) (hF : PlanarSeries C)
    (hs : FromSector C) (hB : BalanceOk nx ny C.core) (hrows : EqualRows nx ny C.core) (hin : SmallInflow C.core) (hflat : PlanarSheltering C) (hlev : PlanarNoOtherChanges C)
    (hb : C.core.tr.methodTransport = "bagnold")
    (umax z0 : ℝ) (hu : PlanarWindBelow C umax) (hz : PlanarRoughness C z0) (hz0 : 0 < z0 ∧ z0 < C.wind.z) (m : ℝ) (hm : 0 ≤ m)
    (r : ℕ → ℕ → ℝ) (dt : ℝ) (hthick : Copes nx ny C.core (planarBagnold C z0 umax) m (if 0 < dt then dt else C.ts.dt)) (hdt : -1 ≤ dt)
    (σ τ : Planar.State nx ny nf) (b : Bool) (hσ : Sound C.core.setup.bed.nl m σ.core) (hair : ∀ c f, σ.core.sand.Ct c f ≤ planarBagnold C z0 umax)
    (hsalt : ∀ c, (σ.moist c).salt ≤ 1) (hrho : ∀ i j, 0 ≤ (σ.veg i j).rho) (h : Planar.update sp C r dt σ = some (.ok (τ, b))) :
    ∃ E, PlanarStep C σ.clock.t dt E ∧
      let error := sandMass C.core τ.core - sandMass C.core σ.core - throughput C.core E τ.core
      0 ≤ error ∧ error ≤ C.core.setup.bed.maxError * nf * innerArea nx ny C.core ∧
        (Windy E →
          throughput C.core E τ.core = carried C.core E τ.core 0 - carried C.core E τ.core (nx - 1)) := by
  obtain ⟨hbf, -, hbt, -⟩ := C140_step sp C hC r dt σ τ b h
  have hbt' : b = true := by
    cases b with
    | true => rfl
    | false => exact absurd (hbf.mp rfl) (not_lt.mpr hdt)
  obtain ⟨E, hS, -, -, hsE, huE, hstep⟩ := hbt hbt'
  have henv := planar_storm_env sp C hC hF hs hin hflat hb umax z0 hu hz hz0 m _ _ hthick E hS (hsE hsalt) (huE hflat hrho)
  obtain ⟨l, u⟩ := C131_fractions sp hsp C.core hC.core hC.grid hB m (planarBagnold C z0 umax) hm (planarBagnold_nonneg C hC umax z0 hz0)
    (fun _ => E) (fun k => if k = 0 then σ.core else τ.core) 1
    (fun k _ hw => ⟨(henv hw).1, planar_rows hC hrows hS, (henv hw).2⟩) hσ hair (fun k hk => by
      obtain rfl : k = 0 := by omega
      exact hstep)
  have l := l fun k _ => hS.levels hlev
  have u := (u fun k _ l => by simp only [hS.levels hlev, le_refl]).1
  rw [sum_range_one] at l u
  refine ⟨E, hS, l, by simpa using u, fun hw => ?_⟩
  unfold Whole.step at hstep
  simp only [if_pos (show ∑ c, (E.wind c).uw ≠ 0 from hw)] at hstep
  match ht : transport sp C.core E (waves C.core E σ.core) with
  | none => simp [ht] at hstep
  | some (.error e) => simp [ht] at hstep
  | some (.ok ρ) =>
    simp only [ht] at hstep
    have e := Except.ok.inj (Option.some.inj hstep)
    have h3 := (C131_transport sp hsp C.core hC.core hC.grid hB m E (henv hw).1 (planar_rows hC hrows hS) _ ρ
      (waves_sound C.core hC.core m E σ.core hσ) ht).2.2 (onshore_ahead hC (fun c c' => (hS.uniform c c').2.2) (C140_sector C hF hs _ _ E hS))
    rw [← e]
    refine (if_pos hw).trans (h3.trans ?_)
    have : ny ≠ 0 := by have := hC.rows; omega
    unfold sideways
    rw [if_neg this, sub_zero]
    rfl

/-- **C142** With groundwater: sand is not created in a run that returns. -/
theorem C142_not_created_any (sp : LinSolve nx ny) (hsp : Exact sp) (C : Planar.Config nx ny nf) (hC : PlanarUsable C) (hF : PlanarSeries C)
    (hs : FromSector C) (hB : BalanceOk nx ny C.core) (hrows : EqualRows nx ny C.core) (hin : NoInflow C.core) (hflat : PlanarSheltering C) (hava : PlanarOnlyAvalanches C)
    (area : ℝ) (ha : 0 ≤ area) (hcell : ∀ i ≤ ny, ∀ j ≤ nx, C.core.ds i j * C.core.dn i j = area)
    (hb : C.core.tr.methodTransport = "bagnold")
    (umax z0 : ℝ) (hu : PlanarWindBelow C umax) (hz : PlanarRoughness C z0) (hz0 : 0 < z0 ∧ z0 < C.wind.z) (m : ℝ) (hm : 0 ≤ m)
    (calls : List ((ℕ → ℕ → ℝ) × ℝ)) (hthick : ∀ x ∈ calls, Copes nx ny C.core (planarBagnold C z0 umax) m (if 0 < x.2 then x.2 else C.ts.dt))
    (σ τ : Planar.State nx ny nf) (hσ : Sound C.core.setup.bed.nl m σ.core) (hair : ∀ c f, σ.core.sand.Ct c f ≤ planarBagnold C z0 umax)
    (hsalt : ∀ c, (σ.moist c).salt ≤ 1) (hrho : ∀ i j, 0 ≤ (σ.veg i j).rho) (h : Planar.run sp C calls σ = some (.ok τ)) :
   
      sandMass C.core τ.core ≤ sandMass C.core σ.core + calls.length * (C.core.setup.bed.maxError * nf * innerArea nx ny C.core) := by
  have hM := planarBagnold_nonneg C hC umax z0 hz0
  have hsmall : SmallInflow C.core :=
    ⟨⟨fun k => by rw [hin.off.1 k]; exact zero_le_one, hin.off.2⟩, fun k => by rw [hin.on.1 k]; exact zero_le_one, hin.on.2⟩
  obtain ⟨Es, hlen, hEs, hsE, huE, hr⟩ := C140_run sp C hC calls σ τ h
  have hpos : 0 ≤ C.core.setup.bed.maxError * nf * innerArea nx ny C.core := by
    refine mul_nonneg (mul_nonneg hC.core.err (Nat.cast_nonneg _)) (sum_nonneg fun i hi => sum_nonneg fun j hj => ?_)
    rw [mem_range] at hi
    rw [mem_Ico] at hj
    exact mul_nonneg (hC.grid.ds i (by omega) j (by omega)) (hC.grid.dn i (by omega) j (by omega))
  have key : ∀ (Es : List (Env nx ny nf)) (ρ ρ' : Whole.State nx ny nf), (∀ E ∈ Es, (∃ x ∈ calls, PlanarStep C E.t x.2 E) ∧ (∀ c, E.salt c ≤ 1) ∧ PlanarSheltered E) →
      Sound C.core.setup.bed.nl m ρ → (∀ c f, ρ.sand.Ct c f ≤ planarBagnold C z0 umax) → Whole.run sp C.core Es ρ = some (.ok ρ') →
      sandMass C.core ρ' ≤ sandMass C.core ρ + Es.length * (C.core.setup.bed.maxError * nf * innerArea nx ny C.core) := by
    intro Es
    induction Es with
    | nil =>
      intro ρ ρ' _ _ _ hr
      rw [← Except.ok.inj (Option.some.inj hr)]
      simp
    | cons E Es ih =>
      intro ρ ρ' hE hsd hc hr
      unfold Whole.run at hr
      match h1 : Whole.step sp C.core E ρ with
      | none => simp [h1] at hr
      | some (.error e) => simp [h1] at hr
      | some (.ok θ) =>
        simp only [h1] at hr
        obtain ⟨⟨x, hx, hS⟩, hs1, hs2⟩ := hE E List.mem_cons_self
        have henv := planar_storm_env sp C hC hF hs hsmall hflat hb umax z0 hu hz hz0 m _ _ (hthick x hx) E hS hs1 hs2
        have hnext := C128_fractions sp hsp C.core hC.core hC.grid hB.lateral m _ hm hM [E] (fun E' hE' => by
          rw [List.mem_singleton] at hE'
          rw [hE']
          exact henv) ρ θ hsd hc (by
            unfold Whole.run
            rw [h1]
            rfl)
        have hone := ((C131_fractions sp hsp C.core hC.core hC.grid hB m (planarBagnold C z0 umax) hm hM
          (fun _ => E) (fun k => if k = 0 then ρ else θ) 1
          (fun k _ hw => ⟨(henv hw).1, planar_rows hC hrows hS, (henv hw).2⟩) hsd hc (fun k hk => by
            obtain rfl : k = 0 := by omega
            exact h1)).2 fun _ _ => planar_adds_nothing hS hava ha hcell).2 fun _ _ _ => ⟨hin.off.1, hin.off.2, Or.inr hin.on⟩
        have hone : sandMass C.core θ ≤ sandMass C.core ρ + C.core.setup.bed.maxError * nf * innerArea nx ny C.core := by simpa using hone
        have := ih θ ρ' (fun E' h' => hE E' (List.mem_cons_of_mem _ h')) hnext.1 hnext.2 hr
        rw [List.length_cons]
        push_cast
        linarith
  have hk := key Es σ.core τ.core (fun E h' => ⟨hEs E h', hsE hsalt E h', huE hflat hrho E h'⟩) hσ hair hr
  have hle : (Es.length : ℝ) ≤ calls.length := by
    rw [hlen]
    exact_mod_cast List.countP_le_length
  have := mul_le_mul_of_nonneg_right hle hpos
  linarith

/-- **C142** Sand is not created: in a run of any length, with any calls of `update`, tide, waves, vegetation and wind from the sector,
avalanches included, the sand in the bed and in the air together does not grow if none is supplied at the ends, up to the tolerance of the solver in every
step. -/
theorem C142_not_created (sp : LinSolve nx ny) (hsp : Exact sp) (C : Planar.Config nx ny nf) (hC : PlanarUsable C) (hN : NamesOk C.core) (hF : PlanarFiles C)
    (hs : FromSector C) (hB : BalanceOk nx ny C.core) (hrows : EqualRows nx ny C.core) (hin : NoInflow C.core) (hflat : PlanarSheltering C) (hava : PlanarOnlyAvalanches C)
    (area : ℝ) (ha : 0 ≤ area) (hcell : ∀ i ≤ ny, ∀ j ≤ nx, C.core.ds i j * C.core.dn i j = area)
    (hb : C.core.tr.methodTransport = "bagnold")
    (umax z0 : ℝ) (hu : PlanarWindBelow C umax) (hz : PlanarRoughness C z0) (hz0 : 0 < z0 ∧ z0 < C.wind.z) (m : ℝ) (hm : 0 ≤ m)
    (calls : List ((ℕ → ℕ → ℝ) × ℝ)) (hthick : ∀ x ∈ calls, Copes nx ny C.core (planarBagnold C z0 umax) m (if 0 < x.2 then x.2 else C.ts.dt))
    (σ : Planar.State nx ny nf) (hσ : Sound C.core.setup.bed.nl m σ.core) (hair : ∀ c f, σ.core.sand.Ct c f ≤ planarBagnold C z0 umax)
    (hsalt : ∀ c, (σ.moist c).salt ≤ 1) (hrho : ∀ i j, 0 ≤ (σ.veg i j).rho) :
    ∃ τ, Planar.run sp C calls σ = some (.ok τ) ∧
      sandMass C.core τ.core ≤ sandMass C.core σ.core + calls.length * (C.core.setup.bed.maxError * nf * innerArea nx ny C.core) := by
  obtain ⟨τ, h⟩ := C140_run_total sp C hC hN hF hs calls σ fun c f => (hσ.cap c f).2.2
  exact ⟨τ, h, C142_not_created_any sp hsp C hC hF.toPlanarSeries hs hB hrows hin hflat hava area ha hcell hb umax z0 hu hz hz0 m hm calls hthick σ τ hσ hair hsalt hrho h⟩

end Aeolis.Props
