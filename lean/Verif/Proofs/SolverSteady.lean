import Verif.Spec.SolverSteady
import Verif.Proofs.SolverSolution
import Mathlib.Tactic.LinearCombination

/-! The system of the steady solver related to that of the solver in time. -/

set_option linter.unusedSectionVars false

namespace Aeolis.Solver

open Finset

variable {K : Type*} [Field K] [LinearOrder K] [IsStrictOrderedRing K]

theorem steady_shaped (a : Steady K) (bc : BcRows K) (hn : a.nx ≠ 0) : (a.bands bc).Shaped := by
  refine ⟨fun i => ?_, fun i => ?_, fun i j h => ?_, fun i j h => ?_⟩
  · change a.Am1 bc i 0 = 0
    unfold Steady.Am1
    rw [if_neg (Ne.symm hn), if_pos rfl]; split <;> rfl
  · change a.Ap1 bc i a.nx = 0
    unfold Steady.Ap1
    rw [if_neg hn, if_pos rfl]; split <;> rfl
  · exact if_neg h
  · exact if_neg h

/-- Left hand side of the equation of a cell. -/
def Steady.lhs (a : Steady K) (bc : BcRows K) (x : ℕ → ℕ → K) (i j : ℕ) : K :=
  (a.bands bc).rowPart x i j + (a.bands bc).acrossPart x i j

/-- The matrix of the steady solver exists exactly when that of the solver in time does. -/
theorem steady_matrix_ok (a : Steady K) (bc : BcRows K) (hn : 2 ≤ a.nx) (hy : a.ny ≠ 1) :
    a.matrix bc = .ok fun r c => diagsEntry (a.bands bc).diagonals r c := by
  unfold Steady.matrix Bands.matrix
  exact if_pos ((a.bands bc).nodup_offsets hn hy)

theorem steady_mulVec (a : Steady K) (bc : BcRows K) (hn : 2 ≤ a.nx)
    (A : Matrix (Fin ((a.ny + 1) * (a.nx + 1))) (Fin ((a.ny + 1) * (a.nx + 1))) K)
    (hA : a.matrix bc = .ok A) (x : ℕ → ℕ → K) {i j : ℕ} (hi : i ≤ a.ny) (hj : j ≤ a.nx) :
    A.mulVec (fun c => vec a.nx x c) ⟨i * (a.nx + 1) + j, index_lt (a.inTime 1 1) hi hj⟩ = a.lhs bc x i j := by
  unfold Steady.matrix Bands.matrix at hA
  split at hA
  · cases hA
    have h := (a.bands bc).apply x i j (steady_shaped a bc (by omega)) hn hi hj
    unfold Steady.lhs
    rw [← h, ← Fin.sum_univ_eq_sum_range
      (fun c => diagsEntry (a.bands bc).diagonals (i * ((a.bands bc).nx + 1) + j) c * vec (a.bands bc).nx x c)]
    rfl
  · cases hA

theorem steady_solves_iff (a : Steady K) (b : Bounds) (bc : BcRows K) (v : Rhs K) (x : ℕ → ℕ → K)
    (hn : 2 ≤ a.nx) (hy : a.ny ≠ 1) :
    a.Solves b bc v x ↔ ∀ i ≤ a.ny, ∀ j ≤ a.nx, a.lhs bc x i j = a.rhs b v i j := by
  have hA := steady_matrix_ok a bc hn hy
  constructor
  · rintro ⟨A, hA', h⟩ i hi j hj
    rw [← steady_mulVec a bc hn A hA' x hi hj]
    have := congrFun h ⟨i * (a.nx + 1) + j, index_lt (a.inTime 1 1) hi hj⟩
    unfold vec
    rw [this]
    exact vec_at a.nx (a.rhs b v) i j hj
  · intro h
    refine ⟨_, hA, ?_⟩
    funext c
    obtain ⟨i, j, hi, hj, rfl⟩ := index_cases (a.inTime 1 1) c
    refine (steady_mulVec a bc hn _ hA x hi hj).trans ?_
    rw [h i hi j hj]
    exact (vec_at a.nx (a.rhs b v) i j hj).symm

theorem solves_iff (a : Adv K) (b : Bounds) (bc : BcRows K) (v : Rhs K) (x : ℕ → ℕ → K)
    (hn : 2 ≤ a.nx) (hy : a.ny ≠ 1) :
    Solves a b bc v x ↔
      ∀ i ≤ a.ny, ∀ j ≤ a.nx, rowPart a bc x i j + acrossPart a bc x i j = a.rhs b v i j := by
  have hA := matrix_ok a bc hn hy
  constructor
  · rintro ⟨A, hA', h⟩ i hi j hj
    rw [← mulVec_cell a bc hn A hA' x hi hj]
    have := congrFun h ⟨i * (a.nx + 1) + j, index_lt a hi hj⟩
    unfold vec
    rw [this]
    exact vec_at a.nx (a.rhs b v) i j hj
  · intro h
    refine ⟨_, hA, ?_⟩
    funext c
    obtain ⟨i, j, hi, hj, rfl⟩ := index_cases a c
    refine (mulVec_cell a bc hn _ hA x hi hj).trans ?_
    rw [h i hi j hj]
    exact (vec_at a.nx (a.rhs b v) i j hj).symm

section coefficients

variable (a : Steady K) (bc : BcRows K) (dt T : K)

theorem inTime_ixs (i j : ℕ) : (a.inTime dt T).ixs i j = a.ixs i j := by
  unfold Adv.ixs Steady.ixs Steady.inTime; simp

theorem inTime_ixn (i j : ℕ) : (a.inTime dt T).ixn i j = a.ixn i j := by
  unfold Adv.ixn Steady.ixn Steady.inTime; simp

theorem inTime_sgs (i j : ℕ) : (a.inTime dt T).sgs i j = a.sgs i j := by
  unfold Adv.sgs Steady.sgs
  rw [if_pos (by simp [Steady.inTime]), inTime_ixs]

theorem inTime_sgn (i j : ℕ) : (a.inTime dt T).sgn i j = a.sgn i j := by
  unfold Adv.sgn Steady.sgn
  rw [if_pos (by simp [Steady.inTime]), inTime_ixn]

/-- Left hand side in a cell between the first and last column, in a row that is no unit row. -/
theorem inTime_inner (x : ℕ → ℕ → K) (i j : ℕ) (hi : i ≤ a.ny) (hj : 1 ≤ j) (hj' : j < a.nx)
    (hl : bc.latUnit = false ∨ (¬ a.latRow bc i ∧ (0 < a.ny → ∀ i ≤ a.ny, 0 ≤ a.un i j))) :
    rowPart (a.inTime dt T) bc x i j + acrossPart (a.inTime dt T) bc x i j =
      x i j + dt * a.lhs bc x i j + (dt / T - dt * a.Ti) * x i j := by
  have h0 : ¬ j = 0 := by omega
  have h1 : ¬ j = a.nx := by omega
  have hl0 : ¬ a.latRow bc i := by
    rcases hl with hl | hl
    · rintro ⟨h, -⟩; rw [hl] at h; cases h
    · exact hl.1
  have hl0' : ¬ (a.inTime dt T).latRow bc i := hl0
  have hc : ¬ (j = 0 ∨ j = a.nx) := fun h => h.elim h0 h1
  have h1' : ¬ j = (a.inTime dt T).nx := h1
  have hc' : ¬ (j = 0 ∨ j = (a.inTime dt T).nx) := hc
  have e0 : (a.inTime dt T).A0 bc i j = 1 + dt * (a.A0 bc i j - a.Ti) + dt / T := by
    unfold Adv.A0 Steady.A0
    rw [if_neg hl0, if_neg hl0', if_neg hc, if_neg hc', inTime_sgs, inTime_sgn]
    simp only [Adv.facS, Adv.facN, Adv.Ti, Steady.inTime]
    ring
  have e1 : (a.inTime dt T).Am1 bc i j = dt * a.Am1 bc i j := by
    unfold Adv.Am1 Steady.Am1
    rw [if_neg hl0, if_neg hl0', if_neg h1, if_neg h1', if_neg h0, if_neg h0, inTime_ixs]
    simp only [Adv.facS, Steady.inTime, Adv.usPlus, Steady.usPlus]
    ring
  have e2 : (a.inTime dt T).Ap1 bc i j = dt * a.Ap1 bc i j := by
    unfold Adv.Ap1 Steady.Ap1
    rw [if_neg hl0, if_neg hl0', if_neg h0, if_neg h1, if_neg h0, if_neg h1', inTime_ixs,
      show (a.inTime dt T).usMin i j = a.usMin i j from rfl]
    simp only [Adv.facS, Steady.inTime]
    ring
  have e3 : (a.inTime dt T).Am2 bc i j = dt * a.Am2 bc i j := by
    unfold Adv.Am2 Steady.Am2
    rw [if_neg h1, if_neg h1', mul_zero]
  have e4 : (a.inTime dt T).Ap2 bc i j = dt * a.Ap2 bc i j := by
    unfold Adv.Ap2 Steady.Ap2
    rw [if_neg h0, mul_zero]
  have e5 : (a.inTime dt T).Amx bc i j = dt * a.Amx bc i j := by
    unfold Adv.Amx Steady.Amx
    rw [if_neg hl0, if_neg hl0', if_neg hc, if_neg hc', inTime_ixn]
    simp only [Adv.facN, Steady.inTime, Adv.unPlus, Steady.unPlus]
    ring
  have e6 : ∀ (hy : 0 < a.ny), (a.inTime dt T).Apx bc (nextRow a.ny i) j = dt * a.Apx bc (nextRow a.ny i) j := by
    intro hy
    unfold Adv.Apx Steady.Apx
    by_cases hn : a.latRow bc (nextRow a.ny i)
    · rw [if_pos hn, if_pos (show (a.inTime dt T).latRow bc (nextRow a.ny i) from hn), mul_zero]
    · rw [if_neg hn, if_neg (show ¬ (a.inTime dt T).latRow bc (nextRow a.ny i) from hn), if_neg hc, if_neg hc',
        inTime_ixn]
      rw [show (a.inTime dt T).unMin (nextRow a.ny i) j = a.unMin (nextRow a.ny i) j from rfl]
      simp only [Adv.facN, Steady.inTime]
      ring
  unfold rowPart acrossPart Steady.lhs Bands.rowPart Bands.acrossPart
  rw [e0, e1, e2, e3, e4, e5]
  by_cases hy : 0 < a.ny
  · rw [if_pos (show 0 < (a.inTime dt T).ny from hy), if_pos (show 0 < (a.bands bc).ny from hy)]
    have := e6 hy
    simp only [Steady.inTime, Steady.bands] at this ⊢
    rw [this]
    ring
  · rw [if_neg (show ¬ 0 < (a.inTime dt T).ny from hy), if_neg (show ¬ 0 < (a.bands bc).ny from hy)]
    simp only [Steady.bands]
    ring

/-- Left hand side in the first and last column, and in unit rows without transport towards lower rows. -/
theorem inTime_outer (x : ℕ → ℕ → K) (i j : ℕ) (hi : i ≤ a.ny)
    (h : (j = 0 ∨ j = a.nx) ∨ (a.latRow bc i ∧ (0 < a.ny → ∀ i ≤ a.ny, 0 ≤ a.un i j))) :
    rowPart (a.inTime dt T) bc x i j + acrossPart (a.inTime dt T) bc x i j = a.lhs bc x i j := by
  have e0 : (a.inTime dt T).A0 bc i j = a.A0 bc i j := by
    unfold Adv.A0 Steady.A0
    by_cases hl : a.latRow bc i
    · rw [if_pos hl, if_pos (show (a.inTime dt T).latRow bc i from hl)]
    · have hc : j = 0 ∨ j = a.nx := h.resolve_right fun h => hl h.1
      rw [if_neg hl, if_neg (show ¬ (a.inTime dt T).latRow bc i from hl), if_pos hc,
        if_pos (show j = 0 ∨ j = (a.inTime dt T).nx from hc)]
  have e1 : (a.inTime dt T).Am1 bc i j = a.Am1 bc i j := by
    unfold Adv.Am1 Steady.Am1
    by_cases hl : a.latRow bc i
    · rw [if_pos hl, if_pos (show (a.inTime dt T).latRow bc i from hl)]
    · rw [if_neg hl, if_neg (show ¬ (a.inTime dt T).latRow bc i from hl)]
      by_cases h1 : j = a.nx
      · rw [if_pos h1, if_pos (show j = (a.inTime dt T).nx from h1)]
      · have hc : j = 0 := (h.resolve_right fun h => hl h.1).resolve_right h1
        rw [if_neg h1, if_pos hc, if_neg (show ¬ j = (a.inTime dt T).nx from h1), if_pos hc]
  have e2 : (a.inTime dt T).Ap1 bc i j = a.Ap1 bc i j := by
    unfold Adv.Ap1 Steady.Ap1
    by_cases hl : a.latRow bc i
    · rw [if_pos hl, if_pos (show (a.inTime dt T).latRow bc i from hl)]
    · rw [if_neg hl, if_neg (show ¬ (a.inTime dt T).latRow bc i from hl)]
      by_cases h1 : j = 0
      · rw [if_pos h1, if_pos h1]
      · have hc : j = a.nx := (h.resolve_right fun h => hl h.1).resolve_left h1
        rw [if_neg h1, if_pos hc, if_neg h1, if_pos (show j = (a.inTime dt T).nx from hc)]
  have e5 : (a.inTime dt T).Amx bc i j = a.Amx bc i j := by
    unfold Adv.Amx Steady.Amx
    by_cases hl : a.latRow bc i
    · rw [if_pos hl, if_pos (show (a.inTime dt T).latRow bc i from hl)]
    · have hc : j = 0 ∨ j = a.nx := h.resolve_right fun h => hl h.1
      rw [if_neg hl, if_neg (show ¬ (a.inTime dt T).latRow bc i from hl), if_pos hc,
        if_pos (show j = 0 ∨ j = (a.inTime dt T).nx from hc)]
  have e6 : 0 < a.ny → (a.inTime dt T).Apx bc (nextRow a.ny i) j = a.Apx bc (nextRow a.ny i) j := by
    intro hy
    have hne : nextRow a.ny i ≤ a.ny := by unfold nextRow; split <;> omega
    unfold Adv.Apx Steady.Apx
    by_cases hl : a.latRow bc (nextRow a.ny i)
    · rw [if_pos hl, if_pos (show (a.inTime dt T).latRow bc (nextRow a.ny i) from hl)]
    · rw [if_neg hl, if_neg (show ¬ (a.inTime dt T).latRow bc (nextRow a.ny i) from hl)]
      by_cases hc : j = 0 ∨ j = a.nx
      · rw [if_pos hc, if_pos (show j = 0 ∨ j = (a.inTime dt T).nx from hc)]
      · have hu := (h.resolve_left hc).2 hy _ hne
        rw [if_neg hc, if_neg (show ¬ (j = 0 ∨ j = (a.inTime dt T).nx) from hc), inTime_ixn]
        unfold Steady.ixn
        rw [if_pos hu]; ring
  unfold rowPart acrossPart Steady.lhs Bands.rowPart Bands.acrossPart
  rw [e0, e1, e2, e5]
  by_cases hy : 0 < a.ny
  · rw [if_pos (show 0 < (a.inTime dt T).ny from hy), if_pos (show 0 < (a.bands bc).ny from hy)]
    have := e6 hy
    simp only [Steady.inTime, Steady.bands] at this ⊢
    rw [this]
    rfl
  · rw [if_neg (show ¬ 0 < (a.inTime dt T).ny from hy), if_neg (show ¬ 0 < (a.bands bc).ny from hy)]
    rfl

end coefficients

/-- The step in time used to study the steady system. -/
theorem inTime_onshore (a : Steady K) (h : a.Onshore) : Onshore (a.inTime (2 * a.T) (2 * a.T)) :=
  ⟨h.nx, h.ny, by have := h.T; simp only [Steady.inTime]; linarith,
    by have := h.T; simp only [Steady.inTime]; linarith, by simp [Steady.inTime], by simp [Steady.inTime],
    h.ds, h.dn, h.dsdni, h.us, h.un, h.wrap, h.cells⟩

/-- Factor between the equations of the steady system and those of the step in time. -/
def Steady.factor (a : Steady K) (bc : BcRows K) (i j : ℕ) : K :=
  if a.latRow bc i ∨ j = 0 ∨ j = a.nx then 1 else 2 * a.T

theorem factor_pos (a : Steady K) (h : a.Onshore) (bc : BcRows K) (i j : ℕ) : 0 < a.factor bc i j := by
  unfold Steady.factor
  split
  · exact one_pos
  · have := h.T; linarith

theorem inTime_scaled (a : Steady K) (h : a.Onshore) (bc : BcRows K) (x : ℕ → ℕ → K) (i j : ℕ)
    (hi : i ≤ a.ny) (hj : j ≤ a.nx) :
    rowPart (a.inTime (2 * a.T) (2 * a.T)) bc x i j + acrossPart (a.inTime (2 * a.T) (2 * a.T)) bc x i j =
      a.factor bc i j * a.lhs bc x i j := by
  have hT := h.T.ne'
  unfold Steady.factor
  by_cases hc : j = 0 ∨ j = a.nx
  · rw [if_pos (Or.inr hc), one_mul]
    exact inTime_outer a bc _ _ x i j hi (Or.inl hc)
  · by_cases hl : a.latRow bc i
    · rw [if_pos (Or.inl hl), one_mul]
      exact inTime_outer a bc _ _ x i j hi (Or.inr ⟨hl, fun hy i hi => h.un hy i hi j hj⟩)
    · rw [if_neg (by simp [hl, hc]), inTime_inner a bc _ _ x i j hi (by omega) (by omega)
        (Or.inr ⟨hl, fun hy i hi => h.un hy i hi j hj⟩)]
      unfold Steady.Ti
      have h2 : (2 : K) * a.T ≠ 0 := mul_ne_zero two_ne_zero hT
      rw [div_self h2]
      field_simp
      ring

/-- The rows of the two matrices differ by a positive factor. -/
theorem steady_rows (a : Steady K) (h : a.Onshore) (bc : BcRows K)
    (A : Matrix (Fin ((a.ny + 1) * (a.nx + 1))) (Fin ((a.ny + 1) * (a.nx + 1))) K) (hA : a.matrix bc = .ok A)
    (A' : Matrix (Fin ((a.ny + 1) * (a.nx + 1))) (Fin ((a.ny + 1) * (a.nx + 1))) K)
    (hA' : (a.inTime (2 * a.T) (2 * a.T)).matrix bc = .ok A')
    (X : Fin ((a.ny + 1) * (a.nx + 1)) → K) (c : Fin ((a.ny + 1) * (a.nx + 1))) :
    ∃ q, 0 < q ∧ A'.mulVec X c = q * A.mulVec X c := by
  obtain ⟨i, j, hi, hj, rfl⟩ := index_cases (a.inTime (2 * a.T) (2 * a.T)) c
  refine ⟨a.factor bc i j, factor_pos a h bc i j, ?_⟩
  have e1 := mulVec_gridOf (a.inTime (2 * a.T) (2 * a.T)) bc h.nx A' hA' X hi hj
  have e2 := steady_mulVec a bc h.nx A hA (gridOf (a.inTime (2 * a.T) (2 * a.T)) X) hi hj
  rw [inTime_scaled a h bc _ i j hi hj, ← e2] at e1
  refine e1.trans ?_
  congr 2
  funext c
  exact gridOf_eq (a.inTime (2 * a.T) (2 * a.T)) X c

end Aeolis.Solver
