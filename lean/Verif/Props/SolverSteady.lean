import Verif.Props.SolverSystem
import Verif.Proofs.SolverSteady

/-!
C107: the linear system of the steady solver: accepted settings, solutions, relation to the solver in time,
sediment budget, saturation along a transect, and the weights of the first time step.
-/

set_option linter.unusedSectionVars false

namespace Aeolis.Props

open Aeolis.Solver Finset

variable {K : Type*} [Field K] [LinearOrder K] [IsStrictOrderedRing K]

/-! ### Settings -/

theorem steadyBoundaries_eq (b : Bounds) (qoff qon : ℕ → K) (h1 : b.off ≠ "noflux") :
    steadyBoundaries b qoff qon = boundaries b qoff qon := by
  have e1 : steadyOffshore b.off qoff = offshore b.off qoff := by
    unfold steadyOffshore offshore
    by_cases h : b.off = "flux"
    · rw [if_pos h, if_pos (Or.inl h)]
    · have h2 : ¬ (b.off = "flux" ∨ b.off = "noflux") := fun hh => hh.elim h h1
      rw [if_neg h]
      exact (if_neg h2).symm
  have e2 : steadyOnshore b.off b.on qon = onshore b.off b.on qon := by
    unfold steadyOnshore onshore
    by_cases h : b.on = "flux"
    · rw [if_pos h, if_pos (Or.inl h)]
    · have h2 : ¬ (b.on = "flux" ∨ b.off = "noflux") := fun hh => hh.elim h h1
      rw [if_neg h]
      exact (if_neg h2).symm
  unfold steadyBoundaries boundaries
  rw [e1, e2]
  rfl

/-- C107: the steady solver and the solver in time treat all settings alike, except that the steady solver
does not know `noflux`. -/
theorem C107_settings (b : Bounds) (qoff qon : ℕ → K) :
    (b.off ≠ "noflux" → steadyBoundaries b qoff qon = boundaries b qoff qon) ∧
    (b.off = "noflux" → steadyBoundaries b qoff qon = .error .valueError) := by
  refine ⟨steadyBoundaries_eq b qoff qon, fun h => ?_⟩
  unfold steadyBoundaries steadyOffshore
  simp [h]

/-- C107: exactly these settings are accepted. -/
theorem C107_accepted_iff (b : Bounds) (qoff qon : ℕ → K) :
    (∃ bc, steadyBoundaries b qoff qon = .ok bc) ↔
      b.off ∈ ["flux", "constant", "uniform", "gradient"] ∧
      b.on ∈ ["flux", "constant", "uniform", "gradient"] ∧ b.lat ∈ ["constant", "circular"] := by
  obtain ⟨h1, h2⟩ := C107_settings b qoff qon
  by_cases h : b.off = "noflux"
  · rw [h2 h]
    simp [h]
  · rw [h1 h, C50_accepted_iff]
    simp [h]

theorem steady_accepted (b : Bounds) (qoff qon : ℕ → K) (bc : BcRows K)
    (hb : steadyBoundaries b qoff qon = .ok bc) :
    boundaries b qoff qon = .ok bc ∧ b.off ≠ "noflux" := by
  obtain ⟨h1, h2⟩ := C107_settings b qoff qon
  by_cases h : b.off = "noflux"
  · rw [h2 h] at hb; cases hb
  · exact ⟨(h1 h) ▸ hb, h⟩

/-! ### Solutions -/

/-- C107: with onshore transport and a flux or constant concentration at the offshore end the system of the
steady solver has exactly one solution, whatever the right-hand side. -/
theorem C107_unique_solution (a : Steady K) (b : Bounds) (qoff qon : ℕ → K) (bc : BcRows K)
    (h : a.Onshore) (hb : steadyBoundaries b qoff qon = .ok bc) (hoff : b.off = "flux" ∨ b.off = "constant") :
    ∃ A, a.matrix bc = .ok A ∧ ∀ y, ∃! X, A.mulVec X = y := by
  obtain ⟨hb', -⟩ := steady_accepted b qoff qon bc hb
  obtain ⟨h1, h2⟩ := offshore_zero b qoff qon bc hb' (by tauto)
  have hA := steady_matrix_ok a bc h.nx h.ny
  have hA' := matrix_ok (a.inTime (2 * a.T) (2 * a.T)) bc h.nx h.ny
  refine ⟨_, hA, ?_⟩
  set A : Matrix (Fin ((a.ny + 1) * (a.nx + 1))) (Fin ((a.ny + 1) * (a.nx + 1))) K :=
    fun r c => diagsEntry (a.bands bc).diagonals r c with hAdef
  have hinj : Function.Injective A.mulVec := by
    intro X Y hXY
    have h0 : A.mulVec (X - Y) = 0 := by rw [Matrix.mulVec_sub]; exact sub_eq_zero.mpr hXY
    refine sub_eq_zero.mp (onshore_injective _ bc (inTime_onshore a h) _ hA' h1 h2 _ ?_)
    funext c
    obtain ⟨q, -, hq⟩ := steady_rows a h bc A hA _ hA' (X - Y) c
    exact hq.trans (by rw [h0]; exact mul_zero q)
  have hu := Matrix.mulVec_injective_iff_isUnit.mp hinj
  have hsur := Matrix.mulVec_surjective_iff_isUnit.mpr hu
  intro y
  obtain ⟨X, hX⟩ := hsur y
  exact ⟨X, hX, fun Y hY => hinj (hY.trans hX.symm)⟩

/-- C107: … and with a non-negative right-hand side no concentration is negative, except possibly at an
onshore end that is extrapolated. -/
theorem C107_nonneg (a : Steady K) (b : Bounds) (qoff qon : ℕ → K) (bc : BcRows K)
    (h : a.Onshore) (hb : steadyBoundaries b qoff qon = .ok bc) (hoff : b.off = "flux" ∨ b.off = "constant")
    (A : Matrix (Fin ((a.ny + 1) * (a.nx + 1))) (Fin ((a.ny + 1) * (a.nx + 1))) K)
    (hA : a.matrix bc = .ok A) (X : Fin ((a.ny + 1) * (a.nx + 1)) → K)
    (hX : ∀ c, 0 ≤ A.mulVec X c) (c : Fin ((a.ny + 1) * (a.nx + 1)))
    (hc : (c : ℕ) % (a.nx + 1) ≠ a.nx ∨ b.on ≠ "gradient") : 0 ≤ X c := by
  obtain ⟨hb', -⟩ := steady_accepted b qoff qon bc hb
  have hA' := matrix_ok (a.inTime (2 * a.T) (2 * a.T)) bc h.nx h.ny
  refine C48_nonneg (a.inTime (2 * a.T) (2 * a.T)) b qoff qon bc (inTime_onshore a h) hb' (by tauto) _ hA' X
    (fun c => ?_) c (hc.imp id Or.inl)
  obtain ⟨q, hq, he⟩ := steady_rows a h bc A hA _ hA' X c
  exact le_of_le_of_eq (mul_nonneg hq.le (hX c)) he.symm

/-- C107: sufficient for a non-negative right-hand side: weights, equilibrium concentrations, saturation
between zero and one, and non-negative values at the ends. -/
theorem C107_rhs_nonneg (a : Steady K) (b : Bounds) (v : Rhs K) (hT : 0 < a.T) (i j : ℕ)
    (hw : 0 ≤ v.w i j) (hC : 0 ≤ v.Cu i j) (hCf : 0 ≤ v.Cuf i j) (hS : 0 ≤ v.S i j ∧ v.S i j ≤ 1)
    (h1 : 0 ≤ v.offFlux i) (h2 : 0 ≤ v.onFlux i) (h3 : 0 ≤ v.offConst i) (h4 : 0 ≤ v.onConst i) :
    0 ≤ a.rhs b v i j := by
  have hTi : 0 ≤ a.Ti := by unfold Steady.Ti; positivity
  have hS1 : 0 ≤ 1 - v.S i j := by linarith [hS.2]
  have hS0 := hS.1
  unfold Steady.rhs
  simp only
  split_ifs <;> first | assumption | positivity

/-! ### Relation to the solver in time -/

/-- C107: with circular lateral boundaries the solutions of the steady system are exactly the states that the
upwind Euler backward step of the solver in time leaves unchanged, for every length of the step. -/
theorem C107_fixed_point (a : Steady K) (b : Bounds) (qoff qon : ℕ → K) (bc : BcRows K) (v : Rhs K)
    (x : ℕ → ℕ → K) (dt : K) (hdt : dt ≠ 0) (hn : 2 ≤ a.nx) (hy : a.ny ≠ 1)
    (hb : steadyBoundaries b qoff qon = .ok bc) (hlat : b.lat = "circular") :
    a.Solves b bc v x ↔ Solver.Solves (a.inTime dt a.T) b bc { v with lCt := x } x := by
  have hl : bc.latUnit = false := by
    unfold steadyBoundaries at hb
    split at hb
    · cases hb
    · split at hb
      · cases hb
      · simp only [hlat, lateral] at hb
        simp at hb
        rw [← hb]
  rw [steady_solves_iff a b bc v x hn hy, solves_iff (a.inTime dt a.T) b bc _ x hn hy]
  refine forall_congr' fun i => forall_congr' fun hi => forall_congr' fun j => forall_congr' fun hj => ?_
  by_cases hc : j = 0 ∨ j = a.nx
  · rw [inTime_outer a bc dt a.T x i j hi (Or.inl hc)]
    have : (a.inTime dt a.T).rhs b { v with lCt := x } i j = a.rhs b v i j := by
      unfold Adv.rhs Steady.rhs
      simp only
      have e1 : ¬ (1 ≤ j ∧ j < a.nx) := by omega
      have e2 : ¬ (1 ≤ j ∧ j < (a.inTime dt a.T).nx) := e1
      rw [if_neg e1, if_neg e2]
      rfl
    rw [this]
  · have h0 : ¬ j = 0 := fun h => hc (Or.inl h)
    have h1 : ¬ j = a.nx := fun h => hc (Or.inr h)
    rw [inTime_inner a bc dt a.T x i j hi (by omega) (by omega) (Or.inl hl)]
    have : (a.inTime dt a.T).rhs b { v with lCt := x } i j = x i j + dt * a.rhs b v i j := by
      unfold Adv.rhs Steady.rhs
      simp only
      have e1 : 1 ≤ j ∧ j < a.nx := by omega
      have e2 : 1 ≤ j ∧ j < (a.inTime dt a.T).nx := e1
      have h1' : ¬ j = (a.inTime dt a.T).nx := h1
      rw [if_pos e1, if_pos e2]
      simp only [h0, h1, h1', and_false, if_false]
      unfold Adv.yIm Adv.Ti Steady.Ti
      simp only [Steady.inTime]
      ring
    rw [this]
    have hz : dt / a.T - dt * a.Ti = 0 := by unfold Steady.Ti; ring
    rw [hz, zero_mul, add_zero]
    constructor
    · intro h; rw [h]
    · intro h
      exact mul_left_cancel₀ hdt (add_left_cancel h)

/-! ### Sediment budget -/

/-- C107: in the steady state of a transect the bed supplies, between the first and last cell, exactly what
leaves by wind minus what enters, plus what leaves sideways. -/
theorem C107_transect_budget (a : Steady K) (b : Bounds) (qoff qon : ℕ → K) (bc : BcRows K) (v : Rhs K)
    (x : ℕ → ℕ → K) (hn : 2 ≤ a.nx) (hy : a.ny = 0) (hT : a.T ≠ 0)
    (hb : steadyBoundaries b qoff qon = .ok bc) (hlat : b.lat = "circular")
    (hus : (∀ j ≤ a.nx, 0 ≤ a.us 0 j) ∨ ∀ j ≤ a.nx, a.us 0 j < 0)
    (hcell : ∀ j ≤ a.nx, a.ds 0 j * a.dn 0 j * a.dsdni 0 j = 1) (hdn : ∀ j ≤ a.nx, a.dn 0 j = a.dn 0 0)
    (hv : v.Cuf = v.Cu) (hs : a.Solves b bc v x) :
    ∑ j ∈ Ico 1 a.nx, a.ds 0 j * a.dn 0 j * ((v.w 0 j * v.Cu 0 j - x 0 j) / a.T)
      = a.dn 0 0 * (if 0 ≤ a.us 0 0 then a.us 0 (a.nx - 1) * x 0 (a.nx - 1) - a.us 0 0 * x 0 0
          else a.us 0 a.nx * x 0 a.nx - a.us 0 1 * x 0 1)
        + ∑ j ∈ Ico 1 a.nx, a.ds 0 j * |a.un 0 j| * x 0 j := by
  have hl : bc.latUnit = false := by
    unfold steadyBoundaries at hb
    split at hb
    · cases hb
    · split at hb
      · cases hb
      · simp only [hlat, lateral] at hb
        simp at hb
        rw [← hb]
  have hf := (C107_fixed_point a b qoff qon bc v x 1 one_ne_zero hn (by omega) hb hlat).mp hs
  have hz : ∀ i ≤ a.ny, i = 0 := fun i hi => by omega
  have hset : BudgetSetting (a.inTime 1 a.T) bc { v with lCt := x } := by
    refine ⟨hn, rfl, by simp [Steady.inTime], hT, hl, ?_, ?_, ?_, hv⟩
    · intro i hi; rw [hz i hi]; exact hus
    · intro i hi; rw [hz i hi]; exact hcell
    · intro i hi; rw [hz i hi]; exact hdn
  have := C49_transect_budget_partial (a.inTime 1 a.T) b bc { v with lCt := x } x hset hy hf
  simp only [area, exchange, throughflow, Steady.inTime, mul_one, one_mul] at this
  by_cases h0 : 0 ≤ a.us 0 0
  · simp only [h0, ↓reduceIte] at this ⊢
    linear_combination -this
  · simp only [h0, ↓reduceIte] at this ⊢
    linear_combination -this

/-! ### Saturation -/

/-- C107: along a transect with uniform wind, spacing and equilibrium concentration and a given concentration
at the offshore end, the concentration approaches the equilibrium geometrically. -/
theorem C107_saturation (a : Steady K) (b : Bounds) (qoff qon : ℕ → K) (bc : BcRows K) (v : Rhs K)
    (x : ℕ → ℕ → K) (u d m : K) (hn : 2 ≤ a.nx) (hy : a.ny = 0) (hT : 0 < a.T) (hu : 0 ≤ u) (hd : 0 < d)
    (hb : steadyBoundaries b qoff qon = .ok bc) (hlat : b.lat = "circular") (hoff : b.off = "constant")
    (hus : ∀ j ≤ a.nx, a.us 0 j = u) (hun : ∀ j ≤ a.nx, a.un 0 j = 0)
    (hds : ∀ j ≤ a.nx, a.dn 0 j * a.dsdni 0 j = 1 / d)
    (hm : ∀ j ≤ a.nx, v.w 0 j * v.Cu 0 j = m) (hv : v.Cuf = v.Cu) (hs : a.Solves b bc v x) :
    ∀ j < a.nx, x 0 j = m - (m - v.offConst 0) * ((u / d) / (u / d + 1 / a.T)) ^ j := by
  obtain ⟨hb', -⟩ := steady_accepted b qoff qon bc hb
  obtain ⟨h1, h2⟩ := offshore_zero b qoff qon bc hb' (by tauto)
  have hl : bc.latUnit = false := by
    unfold steadyBoundaries at hb
    split at hb
    · cases hb
    · split at hb
      · cases hb
      · simp only [hlat, lateral] at hb
        simp at hb
        rw [← hb]
  have hcell := (steady_solves_iff a b bc v x hn (by omega)).mp hs
  have hlr : ¬ a.latRow bc 0 := fun h => by have := h.1; rw [hl] at this; cases this
  have hac : ∀ j, (a.bands bc).acrossPart x 0 j = 0 := by
    intro j; unfold Bands.acrossPart; exact if_neg (by change ¬ 0 < a.ny; omega)
  intro j
  induction j with
  | zero =>
    intro _
    have h := hcell 0 (by omega) 0 (by omega)
    unfold Steady.lhs at h
    rw [hac] at h
    unfold Bands.rowPart Steady.bands Steady.A0 Steady.Ap1 Steady.Am1 Steady.Ap2 Steady.Am2 Steady.rhs at h
    have hn0 : ¬ (0 = a.nx) := by omega
    simp [hlr, h1, h2, hn0, hoff] at h
    rw [h]; ring
  | succ j ih =>
    intro hj
    have ih := ih (by omega)
    have h := hcell 0 (by omega) (j + 1) (by omega)
    unfold Steady.lhs at h
    rw [hac] at h
    unfold Bands.rowPart Steady.bands Steady.A0 Steady.Ap1 Steady.Am1 Steady.Ap2 Steady.Am2 Steady.rhs at h
    have hn0 : ¬ (j + 1 = a.nx) := by omega
    have hx : a.ixs 0 (j + 1) = 1 := by unfold Steady.ixs; rw [hus _ (by omega), if_pos hu]
    have hup : a.usPlus 0 (j + 1) = u := by unfold Steady.usPlus; simp [hus j (by omega)]
    simp only [hlr, hn0, Nat.succ_ne_zero, if_false, or_false, hx, hup, hus _ hj.le, hun _ hj.le, Steady.sgs,
      hds _ hj.le, hv, and_false, Steady.Ti] at h
    rw [if_pos ⟨by omega, hj⟩, hm _ hj.le] at h
    have hpos : 0 < u / d + 1 / a.T := by positivity
    have key : x 0 (j + 1) * (u / d + 1 / a.T) = u / d * x 0 j + m / a.T := by
      have e : j + 1 - 1 = j := rfl
      rw [e] at h
      linear_combination h
    rw [ih] at key
    have : x 0 (j + 1) = (u / d * (m - (m - v.offConst 0) * (u / d / (u / d + 1 / a.T)) ^ j) + m / a.T)
        / (u / d + 1 / a.T) := by
      rw [eq_div_iff hpos.ne']; exact key
    rw [this, pow_succ, div_eq_iff hpos.ne']
    have hq : u / d / (u / d + 1 / a.T) * (u / d + 1 / a.T) = u / d := div_mul_cancel₀ _ hpos.ne'
    generalize u / d / (u / d + 1 / a.T) = r at hq ⊢
    linear_combination (m - v.offConst 0) * r ^ j * hq

/-! ### Lateral boundaries of kind `constant` -/

/-- C107: with lateral boundaries of kind `constant` and no transport towards lower rows the concentration in
the first and last row is the weighted equilibrium concentration divided by the adaptation time. -/
theorem C107_lateral_constant (a : Steady K) (b : Bounds) (qoff qon : ℕ → K) (bc : BcRows K) (v : Rhs K)
    (x : ℕ → ℕ → K) (hn : 2 ≤ a.nx) (hy : a.ny ≠ 1) (hb : steadyBoundaries b qoff qon = .ok bc)
    (hlat : b.lat = "constant") (hun : 0 < a.ny → ∀ i ≤ a.ny, ∀ j ≤ a.nx, 0 ≤ a.un i j)
    (hv : v.Cuf = v.Cu) (hs : a.Solves b bc v x) (i : ℕ) (hi : i = 0 ∨ i = a.ny) (j : ℕ) (hj : 1 ≤ j)
    (hj' : j < a.nx) : x i j = v.w i j * v.Cu i j / a.T := by
  have hl : bc.latUnit = true := by
    unfold steadyBoundaries at hb
    split at hb
    · cases hb
    · split at hb
      · cases hb
      · simp only [hlat, lateral] at hb
        simp at hb
        rw [← hb]
  have hi' : i ≤ a.ny := by omega
  have h := (steady_solves_iff a b bc v x hn hy).mp hs i hi' j hj'.le
  have hr : a.latRow bc i := ⟨hl, hi⟩
  have h0 : ¬ j = 0 := by omega
  have h1 : ¬ j = a.nx := by omega
  have hpx : 0 < a.ny → a.Apx bc (nextRow a.ny i) j = 0 := by
    intro hpos
    unfold Steady.Apx
    rw [if_neg (by simp [h0, h1] : ¬ (j = 0 ∨ j = a.nx))]
    split
    · rfl
    · unfold Steady.ixn
      rw [if_pos (hun hpos _ (by unfold nextRow; split <;> omega) _ hj'.le)]; ring
  have hac : (a.bands bc).acrossPart x i j = 0 := by
    unfold Bands.acrossPart
    split
    · rename_i hpos
      have e1 := hpx hpos
      have e2 : a.Amx bc i j = 0 := if_pos hr
      simp only [Steady.bands] at e1 ⊢
      rw [e1, e2]; ring
    · rfl
  unfold Steady.lhs at h
  rw [hac] at h
  unfold Bands.rowPart Steady.bands Steady.A0 Steady.Ap1 Steady.Am1 Steady.Ap2 Steady.Am2 Steady.rhs at h
  simp only [hr, h0, h1, ↓reduceIte, and_false, hv, Steady.Ti, if_pos (And.intro hj hj')] at h
  linear_combination h

/-! ### First time step -/

/-- C107: the first time step stops with an error unless there is exactly one number in the grain size
distribution (or none is given). -/
theorem C107_first_step {nf : ℕ} {ι : Type*} (grain : List K) (winit : ι → Fin nf → K) :
    (grain.length ≠ 1 → steadyWeights true (some grain) winit = .error .valueError) ∧
    (∀ g, grain = [g] → steadyWeights true (some grain) winit = .ok fun _ _ => g) ∧
    steadyWeights true none winit = .ok winit ∧
    steadyWeights false (some grain) winit = .ok winit := by
  refine ⟨fun h => ?_, fun g hg => ?_, rfl, rfl⟩
  · unfold steadyWeights
    match grain, h with
    | [], _ => rfl
    | [g], h => simp at h
    | g :: g' :: r, _ => rfl
  · subst hg; rfl

/-! ### Examples -/

/-- A transect of four cells with unit spacing, wind and adaptation time. -/
def steadyLine : Steady ℚ :=
  { nx := 3, ny := 0, T := 1, ds := fun _ _ => 1, dn := fun _ _ => 1, dsdni := fun _ _ => 1,
    us := fun _ _ => 1, un := fun _ _ => 0 }

theorem steadyLine_onshore : steadyLine.Onshore := by
  refine ⟨?_, ?_, ?_, ?_, ?_, ?_, ?_, ?_, ?_, ?_⟩ <;> simp [steadyLine]

/-- Equilibrium concentration 4, nothing enters. -/
def steadyLineValues : Rhs ℚ :=
  { w := fun _ _ => 1, Cu := fun _ _ => 4, Cuf := fun _ _ => 4, S := fun _ _ => 1, lw := fun _ _ => 0,
    lCu := fun _ _ => 0, lCuf := fun _ _ => 0, lCt := fun _ _ => 0, offFlux := fun _ => 0,
    onFlux := fun _ => 0, offConst := fun _ => 0, onConst := fun _ => 0 }

/-- The concentrations 0, 2, 3, 3 solve the system of the example. -/
theorem steadyLine_solves : steadyLine.Solves ⟨"constant", "uniform", "circular"⟩
    ⟨fun _ => 0, fun _ => 0, fun _ => -1, fun _ => 0, false⟩ steadyLineValues
    (fun _ j => if j = 0 then 0 else if j = 1 then 2 else 3) := by
  rw [steady_solves_iff _ _ _ _ _ (by simp [steadyLine]) (by simp [steadyLine])]
  intro i hi j hj
  have : i = 0 := by simp [steadyLine] at hi; exact hi
  subst this
  have : j = 0 ∨ j = 1 ∨ j = 2 ∨ j = 3 := by simp [steadyLine] at hj; omega
  rcases this with rfl | rfl | rfl | rfl <;> decide +kernel

example : (fun _ j => if j = 0 then 0 else if j = 1 then 2 else 3 : ℕ → ℕ → ℚ) 0 2 =
    4 - (4 - 0) * ((1 / 1) / (1 / 1 + 1 / 1)) ^ 2 :=
  C107_saturation steadyLine ⟨"constant", "uniform", "circular"⟩ (fun _ => 1) (fun _ => 1) _ steadyLineValues
    _ 1 1 4 (by simp [steadyLine]) rfl (by simp [steadyLine]) (by norm_num) (by norm_num) rfl rfl rfl
    (fun _ _ => rfl) (fun _ _ => rfl) (fun _ _ => by simp [steadyLine]) (fun _ _ => by simp [steadyLineValues])
    rfl steadyLine_solves 2 (by simp [steadyLine])

example : ∃ A, steadyLine.matrix ⟨fun _ => 0, fun _ => 0, fun _ => -1, fun _ => 0, false⟩ = .ok A ∧
    ∀ y, ∃! X, A.mulVec X = y :=
  C107_unique_solution steadyLine ⟨"constant", "uniform", "circular"⟩ (fun _ => 1) (fun _ => 1) _
    steadyLine_onshore rfl (by simp)

example : steadyWeights (ι := Unit) (nf := 2) true (some [(1 / 2 : ℚ), 1 / 2]) (fun _ _ => 1 / 2) =
    .error .valueError := (C107_first_step _ _).1 (by simp)

example : (∃ bc, steadyBoundaries (K := ℚ) ⟨"flux", "gradient", "circular"⟩ (fun _ => 1) (fun _ => 1) = .ok bc) ∧
    ¬ ∃ bc, steadyBoundaries (K := ℚ) ⟨"flux", "noflux", "circular"⟩ (fun _ => 1) (fun _ => 1) = .ok bc :=
  ⟨(C107_accepted_iff _ _ _).mpr (by decide), fun h => absurd ((C107_accepted_iff _ _ _).mp h) (by decide)⟩

/-- The budget of the line: what is picked up in the two inner cells leaves with the last of them. -/
example : ∑ j ∈ Ico 1 3, (4 - (if j = 0 then 0 else if j = 1 then 2 else 3 : ℚ)) = 3 := by
  have := C107_transect_budget steadyLine ⟨"constant", "uniform", "circular"⟩ (fun _ => 1) (fun _ => 1) _ steadyLineValues _ (by simp [steadyLine]) rfl
    (by simp [steadyLine]) rfl rfl (.inl fun _ _ => by simp [steadyLine]) (fun _ _ => by simp [steadyLine]) (fun _ _ => rfl) rfl steadyLine_solves
  simpa [steadyLine, steadyLineValues] using this

/-- The solution of the line is a fixed point of the time stepping. -/
example : Solver.Solves (steadyLine.inTime 60 1) ⟨"constant", "uniform", "circular"⟩ ⟨fun _ => 0, fun _ => 0, fun _ => -1, fun _ => 0, false⟩
    { steadyLineValues with lCt := fun _ j => if j = 0 then 0 else if j = 1 then 2 else 3 }
    (fun _ j => if j = 0 then 0 else if j = 1 then 2 else 3) :=
  (C107_fixed_point steadyLine ⟨"constant", "uniform", "circular"⟩ (fun _ => 1) (fun _ => 1) _ steadyLineValues _ 60 (by norm_num)
    (by simp [steadyLine]) (by simp [steadyLine]) rfl rfl).mp steadyLine_solves

/-- Right-hand sides that are not negative give concentrations that are not negative. -/
example (A : Matrix (Fin (1 * 4)) (Fin (1 * 4)) ℚ)
    (hA : steadyLine.matrix ⟨fun _ => 0, fun _ => 0, fun _ => -1, fun _ => 0, false⟩ = .ok A) (X : Fin (1 * 4) → ℚ) (hX : ∀ c, 0 ≤ A.mulVec X c)
    (c : Fin (1 * 4)) : 0 ≤ X c :=
  C107_nonneg steadyLine ⟨"constant", "uniform", "circular"⟩ (fun _ => 1) (fun _ => 1) _ steadyLine_onshore rfl (by simp) A hA X hX c (.inr (by decide))

example : 0 ≤ steadyLine.rhs ⟨"constant", "uniform", "circular"⟩ steadyLineValues 0 1 :=
  C107_rhs_nonneg _ _ _ (by norm_num [steadyLine]) 0 1 (by norm_num [steadyLineValues]) (by norm_num [steadyLineValues])
    (by norm_num [steadyLineValues]) (by norm_num [steadyLineValues]) le_rfl le_rfl le_rfl le_rfl

end Aeolis.Props
