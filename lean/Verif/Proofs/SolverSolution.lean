import Verif.Proofs.SolverMatrix
import Verif.Spec.Solver

/-!
Solutions of the assembled system for transport in onshore direction.
-/

set_option linter.unusedSectionVars false

namespace Aeolis.Solver

open Finset

variable {K : Type*} [Field K] [LinearOrder K] [IsStrictOrderedRing K]

/-- A cyclic bidiagonal system with dominant columns keeps non-negativity. -/
theorem cyclic_nonneg (ny : ℕ) (d a x b : ℕ → K) (ha : ∀ i ≤ ny, 0 ≤ a i)
    (hd : ∀ i ≤ ny, a (nextRow ny i) < d i) (hb : ∀ i ≤ ny, 0 ≤ b i)
    (he : ∀ i ≤ ny, d i * x i = b i + a i * x (prevRow ny i)) : ∀ i ≤ ny, 0 ≤ x i := by
  have hnext : ∀ i ≤ ny, nextRow ny i ≤ ny := by
    intro i hi; unfold nextRow; split <;> omega
  have hprev : ∀ i ≤ ny, prevRow ny i ≤ ny := by
    intro i hi; unfold prevRow; split <;> omega
  have hd0 : ∀ i ≤ ny, 0 < d i := fun i hi => lt_of_le_of_lt (ha _ (hnext i hi)) (hd i hi)
  have hv : ∀ i ≤ ny, d i * max (-x i) 0 ≤ a i * max (-x (prevRow ny i)) 0 := by
    intro i hi
    rcases le_total 0 (x i) with h | h
    · rw [max_eq_right (by linarith), mul_zero]
      exact mul_nonneg (ha i hi) (le_max_right _ _)
    · rw [max_eq_left (by linarith)]
      have h1 : a i * (-x (prevRow ny i)) ≤ a i * max (-x (prevRow ny i)) 0 :=
        mul_le_mul_of_nonneg_left (le_max_left _ _) (ha i hi)
      have := he i hi
      have := hb i hi
      nlinarith
  have hs : ∑ i ∈ range (ny + 1), a i * max (-x (prevRow ny i)) 0
      = ∑ i ∈ range (ny + 1), a (nextRow ny i) * max (-x i) 0 := by
    refine sum_bij' (fun i _ => prevRow ny i) (fun i _ => nextRow ny i) ?_ ?_ ?_ ?_ ?_
    · intro i hi; rw [mem_range] at *; have := hprev i (by omega); omega
    · intro i hi; rw [mem_range] at *; have := hnext i (by omega); omega
    · intro i hi; rw [mem_range] at hi; unfold prevRow nextRow
      by_cases h0 : i = 0
      · simp [h0]
      · rw [if_neg h0, if_neg (by omega)]; omega
    · intro i hi; rw [mem_range] at hi; unfold prevRow nextRow
      by_cases h0 : i = ny
      · simp [h0]
      · rw [if_neg h0, if_neg (by omega)]; omega
    · intro i hi; rw [mem_range] at hi
      have : nextRow ny (prevRow ny i) = i := by
        unfold prevRow nextRow
        by_cases h0 : i = 0
        · simp [h0]
        · rw [if_neg h0, if_neg (by omega)]; omega
      simp only [this]
  have hsum : ∑ i ∈ range (ny + 1), (d i - a (nextRow ny i)) * max (-x i) 0 ≤ 0 := by
    have h1 : ∑ i ∈ range (ny + 1), d i * max (-x i) 0 ≤ ∑ i ∈ range (ny + 1), a i * max (-x (prevRow ny i)) 0 :=
      sum_le_sum fun i hi => hv i (by rw [mem_range] at hi; omega)
    rw [hs] at h1
    have : ∑ i ∈ range (ny + 1), (d i - a (nextRow ny i)) * max (-x i) 0
        = ∑ i ∈ range (ny + 1), d i * max (-x i) 0
          - ∑ i ∈ range (ny + 1), a (nextRow ny i) * max (-x i) 0 := by
      rw [← sum_sub_distrib]; exact sum_congr rfl fun i _ => by ring
    linarith
  have hnn : ∀ i ∈ range (ny + 1), 0 ≤ (d i - a (nextRow ny i)) * max (-x i) 0 := by
    intro i hi
    rw [mem_range] at hi
    exact mul_nonneg (by linarith [hd i (by omega)]) (le_max_right _ _)
  have hz := (sum_eq_zero_iff_of_nonneg hnn).mp (le_antisymm hsum (sum_nonneg hnn))
  intro i hi
  have h1 := hz i (mem_range.mpr (by omega))
  rcases mul_eq_zero.mp h1 with h | h
  · linarith [hd i hi]
  · have := le_max_left (-x i) 0
    rw [h] at this; linarith

/-- A bidiagonal system whose first row is decoupled keeps non-negativity. -/
theorem march_nonneg (ny : ℕ) (d a x b : ℕ → K) (ha : ∀ i ≤ ny, 0 ≤ a i) (h0 : a 0 = 0)
    (hd : ∀ i ≤ ny, 0 < d i) (hb : ∀ i ≤ ny, 0 ≤ b i)
    (he : ∀ i ≤ ny, d i * x i = b i + a i * x (prevRow ny i)) : ∀ i ≤ ny, 0 ≤ x i := by
  intro i
  induction i with
  | zero =>
    intro hi
    have := he 0 hi
    rw [h0, zero_mul, add_zero] at this
    exact nonneg_of_mul_nonneg_right (by rw [this]; exact hb 0 hi) (hd 0 hi)
  | succ i ih =>
    intro hi
    have h1 := ih (by omega)
    have h2 := he (i + 1) hi
    have hp : prevRow ny (i + 1) = i := by unfold prevRow; simp
    rw [hp] at h2
    exact nonneg_of_mul_nonneg_right
      (by rw [h2]; exact add_nonneg (hb _ hi) (mul_nonneg (ha _ hi) h1)) (hd _ hi)

theorem facS_nonneg (a : Adv K) (h : Onshore a) {i j : ℕ} (hi : i ≤ a.ny) (hj : j ≤ a.nx) :
    0 ≤ a.facS i j := mul_nonneg (mul_nonneg h.dt (h.dn i hi j hj)) (h.dsdni i hi j hj)

theorem facN_nonneg (a : Adv K) (h : Onshore a) {i j : ℕ} (hi : i ≤ a.ny) (hj : j ≤ a.nx) :
    0 ≤ a.facN i j := mul_nonneg (mul_nonneg h.dt (h.ds i hi j hj)) (h.dsdni i hi j hj)

theorem facN_row (a : Adv K) (h : Onshore a) (hy : 0 < a.ny) {i j : ℕ} (hi : i ≤ a.ny)
    (hj : j ≤ a.nx) : a.facN i j = a.facN 0 j := by
  unfold Adv.facN
  rw [mul_assoc, mul_assoc, h.cells hy i hi j hj]

theorem sgn_mul_nonneg (a : Adv K) (i j : ℕ) (f : K) (hf : 0 ≤ f) (hb : 1 ≤ |a.beta|) :
    0 ≤ a.sgn i j * (f * a.un i j) := by
  unfold Adv.sgn Adv.ixn
  rw [if_pos hb, if_pos hb]
  split
  · rename_i h; nlinarith [mul_nonneg hf h]
  · rename_i h; nlinarith [mul_nonneg hf (le_of_lt (neg_pos.mpr (not_le.mp h)))]

/-- Non-negativity propagates through the columns, as far as the right hand sides are not negative. -/
theorem onshore_columns_upTo (a : Adv K) (bc : BcRows K) (h : Onshore a) (x : ℕ → ℕ → K)
    (h1 : ∀ i ≤ a.ny, bc.offP1 i = 0) (h2 : ∀ i ≤ a.ny, bc.offP2 i = 0) (J : ℕ) (hJ : J ≤ a.nx)
    (hr : ∀ i ≤ a.ny, ∀ j < J, 0 ≤ rowPart a bc x i j + acrossPart a bc x i j) :
    ∀ j < J, ∀ i ≤ a.ny, 0 ≤ x i j := by
  have hnx := h.nx
  intro j
  induction j with
  | zero =>
    intro hpos i hi
    have := hr i hi 0 hpos
    unfold rowPart acrossPart Adv.A0 Adv.Am1 Adv.Ap1 Adv.Am2 Adv.Ap2 Adv.Amx Adv.Apx at this
    have hne : ¬ 0 = a.nx := by omega
    rw [h1 i hi, h2 i hi] at this
    simpa [hne] using this
  | succ j ih =>
    intro hj
    have hx := ih (by omega)
    have hA0 : ∀ i ≤ a.ny, ¬ a.latRow bc i → a.A0 bc i (j + 1) = 1 + (a.facS i (j+1) * a.us i (j+1)
        + a.sgn i (j+1) * (a.facN i (j+1) * a.un i (j+1)) + a.Ti) * a.alpha := by
      intro i hi hl
      unfold Adv.A0
      rw [if_neg hl, if_neg (by omega)]
      unfold Adv.sgs Adv.ixs
      rw [if_pos h.beta, if_pos h.beta, if_pos (h.us i hi (j+1) (by omega))]
      ring
    have hTi : 0 ≤ a.Ti := div_nonneg h.dt h.T
    have hrow : ∀ i ≤ a.ny, rowPart a bc x i (j + 1) = a.A0 bc i (j + 1) * x i (j + 1)
        + a.Am1 bc i (j + 1) * x i j := by
      intro i hi
      have e1 : a.Ap1 bc i (j + 1) = 0 := by
        unfold Adv.Ap1 Adv.ixs
        rw [if_neg (by omega : ¬ j + 1 = 0), if_neg (by omega : ¬ j + 1 = a.nx), if_pos h.beta,
          if_pos (h.us i hi (j+1) (by omega))]
        split <;> ring
      have e2 : a.Am2 bc i (j + 1) = 0 := by unfold Adv.Am2; rw [if_neg (by omega)]
      have e3 : a.Ap2 bc i (j + 1) = 0 := by unfold Adv.Ap2; rw [if_neg (by omega)]
      unfold rowPart
      rw [e1, e2, e3, Nat.add_sub_cancel]; ring
    have hAm1 : ∀ i ≤ a.ny, a.Am1 bc i (j + 1) ≤ 0 := by
      intro i hi
      unfold Adv.Am1 Adv.ixs
      rw [if_neg (by omega : ¬ j + 1 = 0), if_neg (by omega : ¬ j + 1 = a.nx), if_pos h.beta,
          if_pos (h.us i hi (j+1) (by omega))]
      split
      · exact le_rfl
      · have : a.usPlus i (j + 1) = a.us i j := by unfold Adv.usPlus; simp
        rw [this]
        have := mul_nonneg (mul_nonneg (facS_nonneg a h hi (by omega : j + 1 ≤ a.nx))
          (h.us i hi j (by omega))) h.alpha
        linarith
    by_cases hy : 0 < a.ny
    · -- the column is a cyclic system
      have hixn : ∀ i ≤ a.ny, a.ixn i (j + 1) = 1 := by
        intro i hi; unfold Adv.ixn; rw [if_pos h.beta, if_pos (h.un hy i hi (j+1) (by omega))]
      have hsgn : ∀ i ≤ a.ny, a.sgn i (j + 1) = 1 := by
        intro i hi; unfold Adv.sgn; rw [if_pos h.beta, hixn i hi]; ring
      have hacross : ∀ i ≤ a.ny, acrossPart a bc x i (j + 1)
          = a.Amx bc i (j + 1) * x (prevRow a.ny i) (j + 1) := by
        intro i hi
        have hn : nextRow a.ny i ≤ a.ny := by unfold nextRow; split <;> omega
        have : a.Apx bc (nextRow a.ny i) (j + 1) = 0 := by
          unfold Adv.Apx
          rw [hixn _ hn]
          split
          · rfl
          · split
            · rfl
            · ring
        unfold acrossPart
        rw [if_pos hy, this]; ring
      have hAmx : ∀ i ≤ a.ny, ¬ a.latRow bc i →
          -a.Amx bc i (j + 1) = a.facN 0 (j+1) * a.unPlus i (j+1) * a.alpha := by
        intro i hi hl
        unfold Adv.Amx
        rw [if_neg hl, if_neg (by omega), hixn i hi, facN_row a h hy hi (by omega)]; ring
      have hunPlus : ∀ i ≤ a.ny, 0 ≤ a.unPlus i (j + 1) := by
        intro i hi; unfold Adv.unPlus; split
        · exact h.un hy 0 (by omega) _ (by omega)
        · exact h.un hy _ (by omega) _ (by omega)
      have hAmxLat : ∀ i, a.latRow bc i → a.Amx bc i (j + 1) = 0 := by
        intro i hl; unfold Adv.Amx; rw [if_pos hl]
      have hcoef : ∀ i ≤ a.ny, 0 ≤ -a.Amx bc i (j + 1) := by
        intro i hi
        by_cases hl : a.latRow bc i
        · rw [hAmxLat i hl, neg_zero]
        · rw [hAmx i hi hl]
          exact mul_nonneg (mul_nonneg (facN_nonneg a h (by omega) (by omega)) (hunPlus i hi)) h.alpha
      have heq : ∀ i ≤ a.ny, a.A0 bc i (j + 1) * x i (j + 1)
          = ((rowPart a bc x i (j + 1) + acrossPart a bc x i (j + 1)) - a.Am1 bc i (j + 1) * x i j)
            + (-a.Amx bc i (j + 1)) * x (prevRow a.ny i) (j + 1) := by
        intro i hi
        rw [hrow i hi, hacross i hi]; ring
      have hb : ∀ i ≤ a.ny, 0 ≤ (rowPart a bc x i (j + 1) + acrossPart a bc x i (j + 1))
          - a.Am1 bc i (j + 1) * x i j := by
        intro i hi
        have := hr i hi (j + 1) hj
        have := mul_nonneg (neg_nonneg.mpr (hAm1 i hi)) (hx i hi)
        linarith
      have hpos : ∀ i ≤ a.ny, 0 < a.A0 bc i (j + 1) := by
        intro i hi
        by_cases hl : a.latRow bc i
        · unfold Adv.A0; rw [if_pos hl]; exact one_pos
        · rw [hA0 i hi hl]
          have e1 := mul_nonneg (facS_nonneg a h hi (by omega : j + 1 ≤ a.nx)) (h.us i hi (j+1) (by omega))
          have e2 := sgn_mul_nonneg a i (j+1) (a.facN i (j+1)) (facN_nonneg a h hi (by omega)) h.beta
          have := mul_nonneg (add_nonneg (add_nonneg e1 e2) hTi) h.alpha
          linarith
      by_cases hl : bc.latUnit = true
      · exact march_nonneg a.ny (fun i => a.A0 bc i (j+1)) (fun i => -a.Amx bc i (j+1))
          (fun i => x i (j+1)) _ hcoef (by rw [hAmxLat 0 ⟨hl, Or.inl rfl⟩, neg_zero]) hpos hb heq
      · have hl' : ∀ i, ¬ a.latRow bc i := fun i hi => hl hi.1
        refine cyclic_nonneg a.ny (fun i => a.A0 bc i (j+1)) (fun i => -a.Amx bc i (j+1))
          (fun i => x i (j+1)) _ hcoef ?_ hb heq
        intro i hi
        have hn : nextRow a.ny i ≤ a.ny := by unfold nextRow; split <;> omega
        rw [hAmx _ hn (hl' _), hA0 i hi (hl' _), hsgn i hi, facN_row a h hy hi (by omega)]
        have hle : a.unPlus (nextRow a.ny i) (j + 1) ≤ a.un i (j + 1) := by
          unfold nextRow Adv.unPlus
          by_cases hi' : i = a.ny
          · rw [if_pos hi', if_pos rfl, hi']; exact h.wrap hy _ (by omega)
          · rw [if_neg hi', if_neg (by omega)]; simp
        have e1 := mul_nonneg (facS_nonneg a h hi (by omega : j + 1 ≤ a.nx)) (h.us i hi (j+1) (by omega))
        have e2 := mul_le_mul_of_nonneg_right (mul_le_mul_of_nonneg_left hle
          (facN_nonneg a h (by omega : 0 ≤ a.ny) (by omega : j + 1 ≤ a.nx))) h.alpha
        have e3 := mul_nonneg (add_nonneg e1 hTi) h.alpha
        nlinarith
    · intro i hi
      have hac : acrossPart a bc x i (j + 1) = 0 := by unfold acrossPart; rw [if_neg hy]
      have := hr i hi (j + 1) hj
      rw [hac, hrow i hi, add_zero] at this
      have hm := mul_nonneg (neg_nonneg.mpr (hAm1 i hi)) (hx i hi)
      have hpos : 0 < a.A0 bc i (j + 1) := by
        by_cases hl : a.latRow bc i
        · unfold Adv.A0; rw [if_pos hl]; exact one_pos
        · rw [hA0 i hi hl]
          have e1 := mul_nonneg (facS_nonneg a h hi (by omega : j + 1 ≤ a.nx)) (h.us i hi (j+1) (by omega))
          have e2 := sgn_mul_nonneg a i (j+1) (a.facN i (j+1)) (facN_nonneg a h hi (by omega)) h.beta
          have := mul_nonneg (add_nonneg (add_nonneg e1 e2) hTi) h.alpha
          linarith
      exact nonneg_of_mul_nonneg_right (by linarith) hpos

/-- Non-negativity propagates through the columns. -/
theorem onshore_columns (a : Adv K) (bc : BcRows K) (h : Onshore a) (x : ℕ → ℕ → K)
    (h1 : ∀ i ≤ a.ny, bc.offP1 i = 0) (h2 : ∀ i ≤ a.ny, bc.offP2 i = 0)
    (hr : ∀ i ≤ a.ny, ∀ j < a.nx, 0 ≤ rowPart a bc x i j + acrossPart a bc x i j) :
    ∀ j < a.nx, ∀ i ≤ a.ny, 0 ≤ x i j :=
  onshore_columns_upTo a bc h x h1 h2 a.nx le_rfl hr

/-- The equation of a cell in the last column. -/
theorem last_column (a : Adv K) (bc : BcRows K) (hn : 2 ≤ a.nx) (x : ℕ → ℕ → K) (i : ℕ) :
    rowPart a bc x i a.nx + acrossPart a bc x i a.nx
      = x i a.nx + (if a.latRow bc i then 0 else bc.onM1 i) * x i (a.nx - 1)
        + bc.onM2 i * x i (a.nx - 2) := by
  unfold rowPart acrossPart Adv.A0 Adv.Am1 Adv.Ap1 Adv.Am2 Adv.Ap2 Adv.Amx Adv.Apx
  have h0 : ¬ a.nx = 0 := by omega
  simp only [h0, or_true, if_true, if_false]
  split <;> split <;> simp

theorem Bands.nodup_offsets (a : Bands K) (hn : 2 ≤ a.nx) (hy : a.ny ≠ 1) :
    (a.diagonals.map Prod.fst).Nodup := by
  unfold Bands.diagonals
  simp only
  split
  · rename_i h
    have h2 : (a.nx + 1) * 2 ≤ (a.nx + 1) * a.ny := Nat.mul_le_mul_left _ (by omega)
    simp only [List.map_append, List.map_cons, List.map_nil, List.cons_append, List.nil_append,
      List.nodup_cons, List.mem_cons, List.not_mem_nil, List.nodup_nil, not_or]
    generalize hM : (a.nx + 1) * a.ny = M at *
    refine ⟨?_, ?_, ?_, ?_, ?_, ?_, ?_, ?_, ?_⟩ <;> (try refine ⟨?_, ?_⟩) <;>
      (try simp) <;> omega
  · simp

theorem nodup_offsets (a : Adv K) (bc : BcRows K) (hn : 2 ≤ a.nx) (hy : a.ny ≠ 1) :
    ((a.diagonals bc).map Prod.fst).Nodup := (a.bands bc).nodup_offsets hn hy

/-- A vector as a grid. -/
def gridOf (a : Adv K) (X : Fin ((a.ny + 1) * (a.nx + 1)) → K) (i j : ℕ) : K :=
  if h : i * (a.nx + 1) + j < (a.ny + 1) * (a.nx + 1) then X ⟨_, h⟩ else 0

theorem index_lt (a : Adv K) {i j : ℕ} (hi : i ≤ a.ny) (hj : j ≤ a.nx) :
    i * (a.nx + 1) + j < (a.ny + 1) * (a.nx + 1) := by
  have : i * (a.nx + 1) + (a.nx + 1) ≤ (a.ny + 1) * (a.nx + 1) := by
    rw [← Nat.succ_mul]; exact Nat.mul_le_mul_right _ (by omega)
  omega

theorem gridOf_eq (a : Adv K) (X : Fin ((a.ny + 1) * (a.nx + 1)) → K)
    (c : Fin ((a.ny + 1) * (a.nx + 1))) : vec a.nx (gridOf a X) c = X c := by
  unfold vec gridOf
  have h : (c : ℕ) / (a.nx + 1) * (a.nx + 1) + (c : ℕ) % (a.nx + 1) = c := by
    rw [mul_comm]; exact Nat.div_add_mod _ _
  rw [dif_pos (by rw [h]; exact c.2)]
  congr 1
  exact Fin.ext h

theorem matrix_ok (a : Adv K) (bc : BcRows K) (hn : 2 ≤ a.nx) (hy : a.ny ≠ 1) :
    a.matrix bc = .ok fun r c => diagsEntry (a.diagonals bc) r c := by
  unfold Adv.matrix Bands.matrix
  exact if_pos (nodup_offsets a bc hn hy)

theorem mulVec_cell (a : Adv K) (bc : BcRows K) (hn : 2 ≤ a.nx)
    (A : Matrix (Fin ((a.ny + 1) * (a.nx + 1))) (Fin ((a.ny + 1) * (a.nx + 1))) K)
    (hA : a.matrix bc = .ok A) (x : ℕ → ℕ → K) {i j : ℕ} (hi : i ≤ a.ny) (hj : j ≤ a.nx) :
    A.mulVec (fun c => vec a.nx x c) ⟨i * (a.nx + 1) + j, index_lt a hi hj⟩
      = rowPart a bc x i j + acrossPart a bc x i j := by
  unfold Adv.matrix Bands.matrix at hA
  split at hA
  · cases hA
    rw [← matrix_apply a bc x i j hn hi hj, ← Fin.sum_univ_eq_sum_range
      (fun c => diagsEntry (a.diagonals bc) (i * (a.nx + 1) + j) c * vec a.nx x c)]
    rfl
  · cases hA

theorem mulVec_gridOf (a : Adv K) (bc : BcRows K) (hn : 2 ≤ a.nx)
    (A : Matrix (Fin ((a.ny + 1) * (a.nx + 1))) (Fin ((a.ny + 1) * (a.nx + 1))) K)
    (hA : a.matrix bc = .ok A) (X : Fin ((a.ny + 1) * (a.nx + 1)) → K) {i j : ℕ} (hi : i ≤ a.ny)
    (hj : j ≤ a.nx) : A.mulVec X ⟨i * (a.nx + 1) + j, index_lt a hi hj⟩
      = rowPart a bc (gridOf a X) i j + acrossPart a bc (gridOf a X) i j := by
  rw [← mulVec_cell a bc hn A hA _ hi hj]
  congr 1
  funext c
  exact (gridOf_eq a X c).symm

/-- Every index is the index of a cell. -/
theorem index_cases (a : Adv K) (c : Fin ((a.ny + 1) * (a.nx + 1))) :
    ∃ i j, ∃ (hi : i ≤ a.ny) (hj : j ≤ a.nx), c = ⟨i * (a.nx + 1) + j, index_lt a hi hj⟩ := by
  have h : (c : ℕ) / (a.nx + 1) * (a.nx + 1) + (c : ℕ) % (a.nx + 1) = c := by
    rw [mul_comm]; exact Nat.div_add_mod _ _
  refine ⟨c / (a.nx + 1), c % (a.nx + 1), ?_, ?_, Fin.ext h.symm⟩
  · have := (Nat.div_lt_iff_lt_mul (by omega : 0 < a.nx + 1)).mpr c.2
    omega
  · have := Nat.mod_lt (c : ℕ) (by omega : 0 < a.nx + 1)
    omega

theorem gridOf_at (a : Adv K) (X : Fin ((a.ny + 1) * (a.nx + 1)) → K) {i j : ℕ} (hi : i ≤ a.ny)
    (hj : j ≤ a.nx) : gridOf a X i j = X ⟨i * (a.nx + 1) + j, index_lt a hi hj⟩ := by
  unfold gridOf; rw [dif_pos (index_lt a hi hj)]

/-- Columns before the last of a solution are non-negative. -/
theorem onshore_nonneg (a : Adv K) (bc : BcRows K) (h : Onshore a)
    (A : Matrix (Fin ((a.ny + 1) * (a.nx + 1))) (Fin ((a.ny + 1) * (a.nx + 1))) K)
    (hA : a.matrix bc = .ok A) (h1 : ∀ i, bc.offP1 i = 0) (h2 : ∀ i, bc.offP2 i = 0)
    (X : Fin ((a.ny + 1) * (a.nx + 1)) → K) (hX : ∀ c, 0 ≤ A.mulVec X c) :
    ∀ j < a.nx, ∀ i ≤ a.ny, 0 ≤ gridOf a X i j :=
  onshore_columns a bc h (gridOf a X) (fun i _ => h1 i) (fun i _ => h2 i) fun i hi j hj => by
    rw [← mulVec_gridOf a bc h.nx A hA X hi hj.le]; exact hX _

theorem onshore_injective (a : Adv K) (bc : BcRows K) (h : Onshore a)
    (A : Matrix (Fin ((a.ny + 1) * (a.nx + 1))) (Fin ((a.ny + 1) * (a.nx + 1))) K)
    (hA : a.matrix bc = .ok A) (h1 : ∀ i, bc.offP1 i = 0) (h2 : ∀ i, bc.offP2 i = 0)
    (X : Fin ((a.ny + 1) * (a.nx + 1)) → K) (hX : A.mulVec X = 0) : X = 0 := by
  have hn := h.nx
  have p1 := onshore_nonneg a bc h A hA h1 h2 X (fun c => by rw [hX]; exact le_rfl)
  have p2 := onshore_nonneg a bc h A hA h1 h2 (-X) (fun c => by
    rw [Matrix.mulVec_neg, hX]; simp)
  have hz : ∀ j < a.nx, ∀ i ≤ a.ny, gridOf a X i j = 0 := by
    intro j hj i hi
    have q1 := p1 j hj i hi
    have q2 := p2 j hj i hi
    rw [gridOf_at a _ hi hj.le] at q1 q2 ⊢
    simp only [Pi.neg_apply] at q2
    linarith
  funext c
  obtain ⟨i, j, hi, hj, rfl⟩ := index_cases a c
  rw [← gridOf_at a X hi hj]
  rcases Nat.lt_or_ge j a.nx with hlt | hge
  · exact hz j hlt i hi
  · obtain rfl : j = a.nx := by omega
    have := mulVec_gridOf a bc hn A hA X hi le_rfl
    rw [last_column a bc hn, hX, hz (a.nx - 1) (by omega) i hi, hz (a.nx - 2) (by omega) i hi] at this
    simpa using this.symm

end Aeolis.Solver
