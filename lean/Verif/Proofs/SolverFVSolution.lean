import Verif.Proofs.SolverFVForm

/-!
Solutions of the linear system of the finite-volume solvers.
-/

set_option linter.unusedSectionVars false

namespace Aeolis.Solver.FV

open Finset

variable {K : Type*} [Field K] [LinearOrder K] [IsStrictOrderedRing K]

theorem at'_pos {P : Prop} [Decidable P] (h : P) (x : K) : at' P x = x := if_pos h
theorem at'_neg {P : Prop} [Decidable P] (h : ¬ P) (x : K) : at' P x = 0 := if_neg h
theorem at'_nonneg {P : Prop} [Decidable P] {x : K} (h : P → 0 ≤ x) : 0 ≤ at' P x := by
  unfold at'; split
  · rename_i hp; exact h hp
  · exact le_rfl
theorem at'_nonpos {P : Prop} [Decidable P] {x : K} (h : P → x ≤ 0) : at' P x ≤ 0 := by
  unfold at'; split
  · rename_i hp; exact h hp
  · exact le_rfl

/-- Sum of the entries of the equations of columns `Q` that multiply cell `(i,j)`. -/
def colSum (a : FV K) (D : Diags K) (Q : ℕ → Prop) [DecidablePred Q] (i j : ℕ) : K :=
  D.A0 i j + at' (j < a.nx ∧ Q (j + 1)) (D.Am1 i (j + 1)) + at' (1 ≤ j ∧ Q (j - 1)) (D.Ap1 i (j - 1))
    + at' (0 < a.ny) (D.Amx (nextRow a.ny i) j + D.Apx i j)

theorem next_le (ny i : ℕ) (h : i ≤ ny) : nextRow ny i ≤ ny := by unfold nextRow; split <;> omega
theorem prev_le (ny i : ℕ) (h : i ≤ ny) : prevRow ny i ≤ ny := by unfold prevRow; split <;> omega
theorem next_prev (ny i : ℕ) (h : i ≤ ny) : nextRow ny (prevRow ny i) = i := by
  unfold prevRow nextRow
  by_cases h0 : i = 0
  · simp [h0]
  · rw [if_neg h0, if_neg (by omega)]; omega
theorem prev_next (ny i : ℕ) (h : i ≤ ny) : prevRow ny (nextRow ny i) = i := by
  unfold prevRow nextRow
  by_cases h0 : i = ny
  · simp [h0]
  · rw [if_neg h0, if_neg (by omega)]; omega

theorem sum_prev (ny : ℕ) (f : ℕ → ℕ → K) :
    ∑ i ∈ range (ny + 1), f i (prevRow ny i) = ∑ i ∈ range (ny + 1), f (nextRow ny i) i := by
  refine sum_bij' (fun i _ => prevRow ny i) (fun i _ => nextRow ny i) ?_ ?_ ?_ ?_ ?_
  · intro i hi; rw [mem_range] at *; have := prev_le ny i (by omega); omega
  · intro i hi; rw [mem_range] at *; have := next_le ny i (by omega); omega
  · intro i hi; rw [mem_range] at hi; exact next_prev ny i (by omega)
  · intro i hi; rw [mem_range] at hi; exact prev_next ny i (by omega)
  · intro i hi; rw [mem_range] at hi; simp only [next_prev ny i (by omega)]

theorem sum_next (ny : ℕ) (f : ℕ → K) :
    ∑ i ∈ range (ny + 1), f (nextRow ny i) = ∑ i ∈ range (ny + 1), f i :=
  (sum_prev ny fun i _ => f i).symm

/-- Columns `Q` of a solution are non-negative if their equations have non-positive couplings, involve
no other columns except non-negative ones, and have positive column sums. -/
theorem grid_nonneg (a : FV K) (D : Diags K) (x : ℕ → ℕ → K) (Q : ℕ → Prop) [DecidablePred Q]
    (hC : Closed a D)
    (hrow : ∀ i ≤ a.ny, ∀ j ≤ a.nx, Q j → 0 ≤ rowPart D x i j + acrossPart a D x i j)
    (h1 : ∀ i ≤ a.ny, ∀ j ≤ a.nx, D.Am1 i j ≤ 0) (h2 : ∀ i ≤ a.ny, ∀ j ≤ a.nx, D.Ap1 i j ≤ 0)
    (h3 : 0 < a.ny → ∀ i ≤ a.ny, ∀ j ≤ a.nx, D.Amx i j ≤ 0)
    (h4 : 0 < a.ny → ∀ i ≤ a.ny, ∀ j ≤ a.nx, D.Apx i j ≤ 0)
    (d1 : ∀ i ≤ a.ny, ∀ j ≤ a.nx, Q j → 1 ≤ j → D.Am1 i j = 0 ∨ Q (j - 1) ∨ 0 ≤ x i (j - 1))
    (d2 : ∀ i ≤ a.ny, ∀ j ≤ a.nx, Q j → j < a.nx → D.Ap1 i j = 0 ∨ Q (j + 1) ∨ 0 ≤ x i (j + 1))
    (hcol : ∀ i ≤ a.ny, ∀ j ≤ a.nx, Q j → 0 ≤ x i j ∨ 0 < colSum a D Q i j) :
    ∀ i ≤ a.ny, ∀ j ≤ a.nx, Q j → 0 ≤ x i j := by
  obtain ⟨v, hv⟩ : ∃ v : ℕ → ℕ → K, ∀ i j, v i j = at' (Q j) (max (-x i j) 0) := ⟨_, fun _ _ => rfl⟩
  have v0 : ∀ i j, 0 ≤ v i j := fun i j => by
    rw [hv]; exact at'_nonneg fun _ => le_max_right _ _
  have vsum : ∀ i j, Q j → 0 ≤ x i j + v i j := fun i j hq => by
    rw [hv, at'_pos hq]; linarith [le_max_left (-x i j) 0]
  have vout : ∀ i j, ¬ Q j → v i j = 0 := fun i j hq => by rw [hv, at'_neg hq]
  -- the equation of one cell
  have cell : ∀ i ≤ a.ny, ∀ j ≤ a.nx, Q j → rowPart D v i j + acrossPart a D v i j ≤ 0 := by
    intro i hi j hj hq
    have k1 : D.Am1 i j * v i (j - 1) ≤ 0 := mul_nonpos_of_nonpos_of_nonneg (h1 i hi j hj) (v0 _ _)
    have k2 : D.Ap1 i j * v i (j + 1) ≤ 0 := mul_nonpos_of_nonpos_of_nonneg (h2 i hi j hj) (v0 _ _)
    have k3 : acrossPart a D v i j ≤ 0 := by
      unfold acrossPart
      split
      · rename_i hy
        have q1 := mul_nonpos_of_nonpos_of_nonneg (h3 hy i hi j hj) (v0 (prevRow a.ny i) j)
        have q2 := mul_nonpos_of_nonpos_of_nonneg (h4 hy _ (next_le a.ny i hi) j hj) (v0 (nextRow a.ny i) j)
        linarith
      · exact le_rfl
    rcases le_total 0 (x i j) with hx | hx
    · have : v i j = 0 := by rw [hv, at'_pos hq, max_eq_right (by linarith)]
      unfold rowPart
      rw [this]; linarith
    · have hvv : v i j = -x i j := by rw [hv, at'_pos hq, max_eq_left (by linarith)]
      have hr := hrow i hi j hj hq
      have m1 : D.Am1 i j * (x i (j - 1) + v i (j - 1)) ≤ 0 := by
        by_cases hj1 : 1 ≤ j
        · rcases d1 i hi j hj hq hj1 with h | h | h
          · rw [h, zero_mul]
          · exact mul_nonpos_of_nonpos_of_nonneg (h1 i hi j hj) (vsum _ _ h)
          · exact mul_nonpos_of_nonpos_of_nonneg (h1 i hi j hj) (by linarith [v0 i (j - 1)])
        · have : j = 0 := by omega
          rw [this, (hC i hi).1, zero_mul]
      have m2 : D.Ap1 i j * (x i (j + 1) + v i (j + 1)) ≤ 0 := by
        by_cases hj1 : j < a.nx
        · rcases d2 i hi j hj hq hj1 with h | h | h
          · rw [h, zero_mul]
          · exact mul_nonpos_of_nonpos_of_nonneg (h2 i hi j hj) (vsum _ _ h)
          · exact mul_nonpos_of_nonpos_of_nonneg (h2 i hi j hj) (by linarith [v0 i (j + 1)])
        · have : j = a.nx := by omega
          rw [this, (hC i hi).2, zero_mul]
      have m3 : acrossPart a D x i j + acrossPart a D v i j ≤ 0 := by
        unfold acrossPart
        split
        · rename_i hy
          have q1 := mul_nonpos_of_nonpos_of_nonneg (h3 hy i hi j hj) (vsum (prevRow a.ny i) j hq)
          have q2 := mul_nonpos_of_nonpos_of_nonneg (h4 hy _ (next_le a.ny i hi) j hj)
            (vsum (nextRow a.ny i) j hq)
          linarith
        · rw [add_zero]
      unfold rowPart at hr ⊢
      rw [hvv]
      linarith
  -- sum over the columns `Q`
  have hsum : ∑ i ∈ range (a.ny + 1), ∑ j ∈ range (a.nx + 1),
      at' (Q j) (rowPart D v i j + acrossPart a D v i j)
      = ∑ i ∈ range (a.ny + 1), ∑ j ∈ range (a.nx + 1), colSum a D Q i j * v i j := by
    have e1 : ∀ i ≤ a.ny, ∑ j ∈ range (a.nx + 1), at' (Q j) (D.Am1 i j * v i (j - 1))
        = ∑ j ∈ range (a.nx + 1), at' (j < a.nx ∧ Q (j + 1)) (D.Am1 i (j + 1)) * v i j := by
      intro i hi
      rw [sum_range_succ', (hC i hi).1, sum_range_succ, at'_neg (by simp : ¬(a.nx < a.nx ∧ Q (a.nx + 1)))]
      have : at' (Q 0) (0 * v i (0 - 1)) = 0 := by unfold at'; split <;> simp
      rw [this, add_zero, zero_mul, add_zero]
      refine sum_congr rfl fun j hj => ?_
      rw [mem_range] at hj
      by_cases hq : Q (j + 1)
      · rw [at'_pos hq, at'_pos ⟨hj, hq⟩, Nat.add_sub_cancel]
      · rw [at'_neg hq, at'_neg (fun h => hq h.2), zero_mul]
    have e2 : ∀ i ≤ a.ny, ∑ j ∈ range (a.nx + 1), at' (Q j) (D.Ap1 i j * v i (j + 1))
        = ∑ j ∈ range (a.nx + 1), at' (1 ≤ j ∧ Q (j - 1)) (D.Ap1 i (j - 1)) * v i j := by
      intro i hi
      rw [sum_range_succ, (hC i hi).2, sum_range_succ' (n := a.nx),
        at'_neg (by simp : ¬(1 ≤ 0 ∧ Q (0 - 1)))]
      have : at' (Q a.nx) (0 * v i (a.nx + 1)) = 0 := by unfold at'; split <;> simp
      rw [this, add_zero, zero_mul, add_zero]
      refine sum_congr rfl fun j hj => ?_
      rw [Nat.add_sub_cancel]
      by_cases hq : Q j
      · rw [at'_pos hq, at'_pos ⟨by omega, hq⟩]
      · rw [at'_neg hq, at'_neg (fun h => hq h.2), zero_mul]
    have e3 : ∑ i ∈ range (a.ny + 1), ∑ j ∈ range (a.nx + 1), at' (Q j) (acrossPart a D v i j)
        = ∑ i ∈ range (a.ny + 1), ∑ j ∈ range (a.nx + 1),
            at' (0 < a.ny) (D.Amx (nextRow a.ny i) j + D.Apx i j) * v i j := by
      rw [sum_comm, sum_comm (s := range (a.ny + 1))]
      refine sum_congr rfl fun j _ => ?_
      by_cases hq : Q j
      · by_cases hy : 0 < a.ny
        · have : ∀ i, at' (Q j) (acrossPart a D v i j) = D.Amx i j * v (prevRow a.ny i) j
              + D.Apx (nextRow a.ny i) j * v (nextRow a.ny i) j := fun i => by
            rw [at'_pos hq]; unfold acrossPart; rw [if_pos hy]
          simp only [this, at'_pos hy, sum_add_distrib, add_mul]
          rw [sum_prev a.ny fun i i' => D.Amx i j * v i' j, sum_next a.ny fun i => D.Apx i j * v i j]
        · have : ∀ i, at' (Q j) (acrossPart a D v i j) = 0 := fun i => by
            rw [at'_pos hq]; unfold acrossPart; rw [if_neg hy]
          simp only [this, at'_neg hy, zero_mul]
      · simp only [at'_neg hq, vout _ j hq, mul_zero]
    have hsplit : ∀ i j, at' (Q j) (rowPart D v i j + acrossPart a D v i j)
        = D.A0 i j * v i j + at' (Q j) (D.Am1 i j * v i (j - 1)) + at' (Q j) (D.Ap1 i j * v i (j + 1))
          + at' (Q j) (acrossPart a D v i j) := by
      intro i j
      by_cases hq : Q j
      · simp only [at'_pos hq]; unfold rowPart; ring
      · simp only [at'_neg hq, vout i j hq]; ring
    simp only [hsplit, sum_add_distrib]
    rw [e3, sum_congr rfl fun i hi => e1 i (by rw [mem_range] at hi; omega),
      sum_congr rfl fun i hi => e2 i (by rw [mem_range] at hi; omega)]
    simp only [← sum_add_distrib]
    refine sum_congr rfl fun i _ => sum_congr rfl fun j _ => ?_
    unfold colSum
    ring
  have hle : ∑ i ∈ range (a.ny + 1), ∑ j ∈ range (a.nx + 1), colSum a D Q i j * v i j ≤ 0 := by
    rw [← hsum]
    refine sum_nonpos fun i hi => sum_nonpos fun j hj => ?_
    rw [mem_range] at hi hj
    exact at'_nonpos fun hq => cell i (by omega) j (by omega) hq
  have hnn : ∀ i ≤ a.ny, ∀ j ≤ a.nx, 0 ≤ colSum a D Q i j * v i j := by
    intro i hi j hj
    by_cases hq : Q j
    · rcases hcol i hi j hj hq with h | h
      · rw [hv, at'_pos hq, max_eq_right (by linarith), mul_zero]
      · exact mul_nonneg h.le (v0 _ _)
    · rw [vout i j hq, mul_zero]
  intro i hi j hj hq
  have hrow0 : ∀ i ∈ range (a.ny + 1), 0 ≤ ∑ j ∈ range (a.nx + 1), colSum a D Q i j * v i j := by
    intro i hi
    rw [mem_range] at hi
    exact sum_nonneg fun j hj => hnn i (by omega) j (by rw [mem_range] at hj; omega)
  have z1 := (sum_eq_zero_iff_of_nonneg hrow0).mp (le_antisymm hle (sum_nonneg hrow0)) i
    (mem_range.mpr (by omega))
  have z2 := (sum_eq_zero_iff_of_nonneg fun j hj => hnn i hi j (by rw [mem_range] at hj; omega)).mp z1 j
    (mem_range.mpr (by omega))
  rcases hcol i hi j hj hq with h | h
  · exact h
  · rcases mul_eq_zero.mp z2 with h0 | h0
    · linarith
    · have := vsum i j hq
      rw [h0] at this; linarith

end Aeolis.Solver.FV
