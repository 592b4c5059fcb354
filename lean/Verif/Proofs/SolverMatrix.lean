import Verif.Proofs.Solver
import Mathlib.Tactic.FieldSimp
import Mathlib.Tactic.Ring
import Mathlib.LinearAlgebra.Matrix.NonsingularInverse
import Mathlib.LinearAlgebra.Matrix.ToLin

/-!
Decoding of the sparse matrix: the entries of `A x` written as the equation of one grid cell.
-/

set_option linter.unusedSectionVars false

namespace Aeolis.Solver

open Finset

variable {K : Type*} [Field K] [LinearOrder K] [IsStrictOrderedRing K]

/-- One diagonal applied to a vector. -/
theorem sum_diag (N r : ℕ) (k : ℤ) (g X : ℕ → K) :
    (∑ c ∈ range N, (if (c : ℤ) - r = k then g (min r c) else 0) * X c) =
      if 0 ≤ (r : ℤ) + k ∧ (r : ℤ) + k < N then
        g (min r ((r : ℤ) + k).toNat) * X ((r : ℤ) + k).toNat else 0 := by
  by_cases h : 0 ≤ (r : ℤ) + k ∧ (r : ℤ) + k < N
  · rw [if_pos h, sum_eq_single ((r : ℤ) + k).toNat]
    · rw [if_pos (by omega)]
    · intro c _ hc
      rw [if_neg (by omega), zero_mul]
    · intro hc
      exact absurd (mem_range.mpr (by omega)) hc
  · rw [if_neg h]
    refine sum_eq_zero fun c hc => ?_
    have := mem_range.mp hc
    rw [if_neg (by omega), zero_mul]

/-- All diagonals applied to a vector. -/
theorem sum_diags (N r : ℕ) (D : List (ℤ × (ℕ → K))) (X : ℕ → K) :
    (∑ c ∈ range N, diagsEntry D r c * X c) =
      (D.map fun d => if 0 ≤ (r : ℤ) + d.1 ∧ (r : ℤ) + d.1 < N then
        d.2 (min r ((r : ℤ) + d.1).toNat) * X ((r : ℤ) + d.1).toNat else 0).sum := by
  induction D with
  | nil => simp [diagsEntry]
  | cons d D ih =>
    simp only [diagsEntry, List.map_cons, List.sum_cons] at *
    rw [← ih, ← sum_diag, ← sum_add_distrib]
    refine sum_congr rfl fun c _ => ?_
    ring

theorem flat_at (B : Bands K) (g : ℕ → ℕ → K) (i j : ℕ) (hj : j ≤ B.nx) :
    B.flat g (i * (B.nx + 1) + j) = g i j := by
  unfold Bands.flat
  rw [show i * (B.nx + 1) + j = j + (B.nx + 1) * i by ring, Nat.add_mul_div_left _ _ (by omega),
    Nat.add_mul_mod_self_left, Nat.div_eq_of_lt (by omega), Nat.mod_eq_of_lt (by omega), zero_add]

/-- A grid as a function of the flat index (`reshape`). -/
def vec (nx : ℕ) (x : ℕ → ℕ → K) (c : ℕ) : K := x (c / (nx + 1)) (c % (nx + 1))

theorem vec_at (nx : ℕ) (x : ℕ → ℕ → K) (i j : ℕ) (hj : j ≤ nx) :
    vec nx x (i * (nx + 1) + j) = x i j := by
  unfold vec
  rw [show i * (nx + 1) + j = j + (nx + 1) * i by ring, Nat.add_mul_div_left _ _ (by omega),
    Nat.add_mul_mod_self_left, Nat.div_eq_of_lt (by omega), Nat.mod_eq_of_lt (by omega), zero_add]

/-- The part of the cell equation along the row. -/
def Bands.rowPart (B : Bands K) (x : ℕ → ℕ → K) (i j : ℕ) : K :=
  B.A0 i j * x i j + B.Am1 i j * x i (j - 1) + B.Ap1 i j * x i (j + 1)
    + B.Am2 i j * x i (j - 2) + B.Ap2 i j * x i (j + 2)

/-- The part of the cell equation across the rows. -/
def Bands.acrossPart (B : Bands K) (x : ℕ → ℕ → K) (i j : ℕ) : K :=
  if 0 < B.ny then
    B.Amx i j * x (prevRow B.ny i) j + B.Apx (nextRow B.ny i) j * x (nextRow B.ny i) j
  else 0

/-- Coefficients that would reach outside their row are zero. -/
structure Bands.Shaped (B : Bands K) : Prop where
  am1 : ∀ i, B.Am1 i 0 = 0
  ap1 : ∀ i, B.Ap1 i B.nx = 0
  am2 : ∀ i j, j ≠ B.nx → B.Am2 i j = 0
  ap2 : ∀ i j, j ≠ 0 → B.Ap2 i j = 0

theorem core_sum (B : Bands K) (x : ℕ → ℕ → K) (i j : ℕ) (hB : B.Shaped) (hn : 2 ≤ B.nx)
    (hi : i ≤ B.ny) (hj : j ≤ B.nx) (D : List (ℤ × (ℕ → K)))
    (hD : D = [(-2, fun m => B.flat B.Am2 (m + 2)),
     (-1, fun m => B.flat B.Am1 (m + 1)),
     (0, fun m => B.flat B.A0 m),
     (1, fun m => B.flat B.Ap1 m),
     (2, fun m => B.flat B.Ap2 m)]) :
    (D.map fun d => if 0 ≤ ((i * (B.nx + 1) + j : ℕ) : ℤ) + d.1 ∧
        ((i * (B.nx + 1) + j : ℕ) : ℤ) + d.1 < (((B.ny + 1) * (B.nx + 1) : ℕ) : ℤ) then
        d.2 (min (i * (B.nx + 1) + j) (((i * (B.nx + 1) + j : ℕ) : ℤ) + d.1).toNat)
          * vec B.nx x (((i * (B.nx + 1) + j : ℕ) : ℤ) + d.1).toNat else 0).sum
      = B.rowPart x i j := by
  have hle : i * (B.nx + 1) + (B.nx + 1) ≤ (B.ny + 1) * (B.nx + 1) := by
    rw [← Nat.succ_mul]; exact Nat.mul_le_mul_right _ (by omega)
  obtain ⟨r, hr⟩ : ∃ r, r = i * (B.nx + 1) + j := ⟨_, rfl⟩
  have hfl : ∀ g, B.flat g r = g i j := fun g => by rw [hr]; exact flat_at B g i j hj
  have e0 : (if 0 ≤ ((r : ℕ) : ℤ) + 0 ∧ ((r : ℕ) : ℤ) + 0 < (((B.ny + 1) * (B.nx + 1) : ℕ) : ℤ) then
      B.flat B.A0 (min r ((r : ℤ) + 0).toNat) * vec B.nx x ((r : ℤ) + 0).toNat else 0)
      = B.A0 i j * x i j := by
    rw [if_pos (by omega)]
    have : ((r : ℤ) + 0).toNat = r := by omega
    rw [this, min_self, hfl, hr, vec_at _ _ _ _ hj]
  have em1 : (if 0 ≤ ((r : ℕ) : ℤ) + (-1) ∧ ((r : ℕ) : ℤ) + (-1) < (((B.ny + 1) * (B.nx + 1) : ℕ) : ℤ) then
      B.flat B.Am1 (min r ((r : ℤ) + (-1)).toNat + 1) * vec B.nx x ((r : ℤ) + (-1)).toNat else 0)
      = B.Am1 i j * x i (j - 1) := by
    by_cases h : 1 ≤ r
    · rw [if_pos (by omega)]
      have h1 : ((r : ℤ) + (-1)).toNat = r - 1 := by omega
      rw [h1, show min r (r - 1) + 1 = r by omega, hfl]
      by_cases h0 : j = 0
      · have : B.Am1 i j = 0 := by
          rw [h0]; exact hB.am1 i
        rw [this]; ring
      · rw [hr, show i * (B.nx + 1) + j - 1 = i * (B.nx + 1) + (j - 1) by omega,
          vec_at _ _ _ _ (by omega)]
    · rw [if_neg (by omega)]
      have h0 : j = 0 := by omega
      have : B.Am1 i j = 0 := by
        rw [h0]; exact hB.am1 i
      rw [this]; ring
  have em2 : (if 0 ≤ ((r : ℕ) : ℤ) + (-2) ∧ ((r : ℕ) : ℤ) + (-2) < (((B.ny + 1) * (B.nx + 1) : ℕ) : ℤ) then
      B.flat B.Am2 (min r ((r : ℤ) + (-2)).toNat + 2) * vec B.nx x ((r : ℤ) + (-2)).toNat else 0)
      = B.Am2 i j * x i (j - 2) := by
    by_cases hx : j = B.nx
    · rw [if_pos (by omega)]
      have h1 : ((r : ℤ) + (-2)).toNat = r - 2 := by omega
      rw [h1, show min r (r - 2) + 2 = r by omega, hfl, hr,
        show i * (B.nx + 1) + j - 2 = i * (B.nx + 1) + (j - 2) by omega, vec_at _ _ _ _ (by omega)]
    · have : B.Am2 i j = 0 := by exact hB.am2 i j hx
      rw [this, zero_mul]
      split
      · have h1 : ((r : ℤ) + (-2)).toNat = r - 2 := by omega
        rw [h1, show min r (r - 2) + 2 = r by omega, hfl, this, zero_mul]
      · rfl
  have ep1 : (if 0 ≤ ((r : ℕ) : ℤ) + 1 ∧ ((r : ℕ) : ℤ) + 1 < (((B.ny + 1) * (B.nx + 1) : ℕ) : ℤ) then
      B.flat B.Ap1 (min r ((r : ℤ) + 1).toNat) * vec B.nx x ((r : ℤ) + 1).toNat else 0)
      = B.Ap1 i j * x i (j + 1) := by
    have h1 : ((r : ℤ) + 1).toNat = r + 1 := by omega
    rw [h1, show min r (r + 1) = r by omega, hfl]
    by_cases hx : j = B.nx
    · have : B.Ap1 i j = 0 := by
        rw [hx]; exact hB.ap1 i
      rw [this]; simp
    · rw [if_pos (by omega), hr, show i * (B.nx + 1) + j + 1 = i * (B.nx + 1) + (j + 1) by omega,
        vec_at _ _ _ _ (by omega)]
  have ep2 : (if 0 ≤ ((r : ℕ) : ℤ) + 2 ∧ ((r : ℕ) : ℤ) + 2 < (((B.ny + 1) * (B.nx + 1) : ℕ) : ℤ) then
      B.flat B.Ap2 (min r ((r : ℤ) + 2).toNat) * vec B.nx x ((r : ℤ) + 2).toNat else 0)
      = B.Ap2 i j * x i (j + 2) := by
    have h1 : ((r : ℤ) + 2).toNat = r + 2 := by omega
    rw [h1, show min r (r + 2) = r by omega, hfl]
    by_cases hx : j = 0
    · rw [if_pos (by omega), hr, show i * (B.nx + 1) + j + 2 = i * (B.nx + 1) + (j + 2) by omega,
        vec_at _ _ _ _ (by omega)]
    · have : B.Ap2 i j = 0 := by exact hB.ap2 i j hx
      rw [this]; simp
  subst hD
  simp only [List.map_cons, List.map_nil, List.sum_cons, List.sum_nil, ← hr]
  rw [e0, em1, em2, ep1, ep2]
  unfold Bands.rowPart
  ring

/-- `A x` in cell `(i,j)`. -/
theorem Bands.apply (B : Bands K) (x : ℕ → ℕ → K) (i j : ℕ) (hB : B.Shaped) (hn : 2 ≤ B.nx)
    (hi : i ≤ B.ny) (hj : j ≤ B.nx) :
    (∑ c ∈ range ((B.ny + 1) * (B.nx + 1)),
      diagsEntry B.diagonals (i * (B.nx + 1) + j) c * vec B.nx x c)
      = B.rowPart x i j + B.acrossPart x i j := by
  rw [sum_diags]
  have hle : i * (B.nx + 1) + (B.nx + 1) ≤ (B.ny + 1) * (B.nx + 1) := by
    rw [← Nat.succ_mul]; exact Nat.mul_le_mul_right _ (by omega)
  unfold Bands.diagonals Bands.acrossPart
  simp only
  by_cases hy : 0 < B.ny
  · rw [if_pos hy, if_pos hy, List.map_append, List.map_append, List.sum_append, List.sum_append,
      core_sum B x i j hB hn hi hj _ rfl]
    simp only [List.map_cons, List.map_nil, List.sum_cons, List.sum_nil]
    obtain ⟨n, hnn⟩ : ∃ n, n = B.nx + 1 := ⟨_, rfl⟩
    have hexp : (B.ny + 1) * n = n * B.ny + n := by ring
    rw [← hnn] at hle ⊢
    have hfl : ∀ g i', B.flat g (i' * n + j) = g i' j :=
      fun g i' => by rw [hnn]; exact flat_at B g i' j hj
    have hv : ∀ i', vec B.nx x (i' * n + j) = x i' j :=
      fun i' => by rw [hnn]; exact vec_at _ _ _ _ hj
    have hin : i < B.ny → i * n + n ≤ n * B.ny := fun h => by
      have := Nat.mul_le_mul_left n (show i + 1 ≤ B.ny by omega)
      linarith [mul_comm i n, Nat.mul_succ n i]
    have hi0 : i ≠ 0 → n ≤ i * n := fun h => Nat.le_mul_of_pos_left n (by omega)
    have hpos : 0 < n := by omega
    have hny : n ≤ n * B.ny := Nat.le_mul_of_pos_right n hy
    -- four outer diagonals
    have E1 : (if 0 ≤ ((i * n + j : ℕ) : ℤ) + -((n * B.ny : ℕ) : ℤ) ∧
          ((i * n + j : ℕ) : ℤ) + -((n * B.ny : ℕ) : ℤ) < (((B.ny + 1) * n : ℕ) : ℤ) then
        B.flat B.Apx (min (i * n + j) (((i * n + j : ℕ) : ℤ) + -((n * B.ny : ℕ) : ℤ)).toNat)
          * vec B.nx x (((i * n + j : ℕ) : ℤ) + -((n * B.ny : ℕ) : ℤ)).toNat else 0)
        = if i = B.ny then B.Apx 0 j * x 0 j else 0 := by
      by_cases h : i = B.ny
      · have hm : i * n = n * B.ny := by rw [h, mul_comm]
        rw [if_pos h, if_pos (by omega)]
        have ht : (((i * n + j : ℕ) : ℤ) + -((n * B.ny : ℕ) : ℤ)).toNat = 0 * n + j := by omega
        rw [ht, show min (i * n + j) (0 * n + j) = 0 * n + j by omega, hfl, hv]
      · have := hin (by omega)
        rw [if_neg h, if_neg (by omega)]
    have E2 : (if 0 ≤ ((i * n + j : ℕ) : ℤ) + -((n : ℕ) : ℤ) ∧
          ((i * n + j : ℕ) : ℤ) + -((n : ℕ) : ℤ) < (((B.ny + 1) * n : ℕ) : ℤ) then
        B.flat B.Amx (min (i * n + j) (((i * n + j : ℕ) : ℤ) + -((n : ℕ) : ℤ)).toNat + n)
          * vec B.nx x (((i * n + j : ℕ) : ℤ) + -((n : ℕ) : ℤ)).toNat else 0)
        = if i = 0 then 0 else B.Amx i j * x (i - 1) j := by
      by_cases h : i = 0
      · rw [if_pos h, if_neg (by subst h; omega)]
      · have h1 := hi0 h
        have hm : i * n = (i - 1) * n + n := by
          rw [← Nat.succ_mul]; congr 1; omega
        rw [if_neg h, if_pos (by omega)]
        have ht : (((i * n + j : ℕ) : ℤ) + -((n : ℕ) : ℤ)).toNat = (i - 1) * n + j := by omega
        rw [ht, show min (i * n + j) ((i - 1) * n + j) + n = i * n + j by omega, hfl, hv]
    have E3 : (if 0 ≤ ((i * n + j : ℕ) : ℤ) + ((n : ℕ) : ℤ) ∧
          ((i * n + j : ℕ) : ℤ) + ((n : ℕ) : ℤ) < (((B.ny + 1) * n : ℕ) : ℤ) then
        B.flat B.Apx (min (i * n + j) (((i * n + j : ℕ) : ℤ) + ((n : ℕ) : ℤ)).toNat + n)
          * vec B.nx x (((i * n + j : ℕ) : ℤ) + ((n : ℕ) : ℤ)).toNat else 0)
        = if i = B.ny then 0 else B.Apx (i + 1) j * x (i + 1) j := by
      by_cases h : i = B.ny
      · have hm : i * n = n * B.ny := by rw [h, mul_comm]
        rw [if_pos h, if_neg (by omega)]
      · have h1 := hin (by omega)
        rw [if_neg h, if_pos (by omega)]
        have hm : (i + 1) * n = i * n + n := Nat.succ_mul _ _
        have ht : (((i * n + j : ℕ) : ℤ) + ((n : ℕ) : ℤ)).toNat = (i + 1) * n + j := by omega
        rw [ht, show min (i * n + j) ((i + 1) * n + j) + n = (i + 1) * n + j by omega, hfl, hv]
    have E4 : (if 0 ≤ ((i * n + j : ℕ) : ℤ) + ((n * B.ny : ℕ) : ℤ) ∧
          ((i * n + j : ℕ) : ℤ) + ((n * B.ny : ℕ) : ℤ) < (((B.ny + 1) * n : ℕ) : ℤ) then
        B.flat B.Amx (min (i * n + j) (((i * n + j : ℕ) : ℤ) + ((n * B.ny : ℕ) : ℤ)).toNat)
          * vec B.nx x (((i * n + j : ℕ) : ℤ) + ((n * B.ny : ℕ) : ℤ)).toNat else 0)
        = if i = 0 then B.Amx i j * x B.ny j else 0 := by
      by_cases h : i = 0
      · have h0 : i * n = 0 := by rw [h, zero_mul]
        rw [if_pos h, if_pos (by omega)]
        have ht : (((i * n + j : ℕ) : ℤ) + ((n * B.ny : ℕ) : ℤ)).toNat = B.ny * n + j := by
          rw [mul_comm B.ny n]; omega
        rw [ht, hv, show min (i * n + j) (B.ny * n + j) = i * n + j from min_eq_left (by
          rw [h0, mul_comm B.ny n]; omega), hfl]
      · have h1 := hi0 h
        rw [if_neg h, if_neg (by omega)]
    rw [E1, E2, E3, E4]
    unfold prevRow nextRow
    by_cases h0 : i = 0 <;> by_cases h1 : i = B.ny <;> simp only [h0, h1, if_true, if_false]
      <;> first | omega | (split <;> first | omega | ring) | ring
  · rw [if_neg hy, if_neg hy, core_sum B x i j hB hn hi hj _ rfl, add_zero]

/-- The part of the cell equation along the row. -/
def rowPart (a : Adv K) (bc : BcRows K) (x : ℕ → ℕ → K) (i j : ℕ) : K :=
  a.A0 bc i j * x i j + a.Am1 bc i j * x i (j - 1) + a.Ap1 bc i j * x i (j + 1)
    + a.Am2 bc i j * x i (j - 2) + a.Ap2 bc i j * x i (j + 2)

/-- The part of the cell equation across the rows. -/
def acrossPart (a : Adv K) (bc : BcRows K) (x : ℕ → ℕ → K) (i j : ℕ) : K :=
  if 0 < a.ny then
    a.Amx bc i j * x (prevRow a.ny i) j + a.Apx bc (nextRow a.ny i) j * x (nextRow a.ny i) j
  else 0

theorem bands_shaped (a : Adv K) (bc : BcRows K) (hn : a.nx ≠ 0) : (a.bands bc).Shaped := by
  refine ⟨fun i => ?_, fun i => ?_, fun i j h => ?_, fun i j h => ?_⟩
  · change a.Am1 bc i 0 = 0
    unfold Adv.Am1
    rw [if_neg (Ne.symm hn), if_pos rfl]; split <;> rfl
  · change a.Ap1 bc i a.nx = 0
    unfold Adv.Ap1
    rw [if_neg hn, if_pos rfl]; split <;> rfl
  · exact if_neg h
  · exact if_neg h

/-- `A x` in cell `(i,j)`. -/
theorem matrix_apply (a : Adv K) (bc : BcRows K) (x : ℕ → ℕ → K) (i j : ℕ) (hn : 2 ≤ a.nx)
    (hi : i ≤ a.ny) (hj : j ≤ a.nx) :
    (∑ c ∈ range ((a.ny + 1) * (a.nx + 1)),
      diagsEntry (a.diagonals bc) (i * (a.nx + 1) + j) c * vec a.nx x c)
      = rowPart a bc x i j + acrossPart a bc x i j :=
  (a.bands bc).apply x i j (bands_shaped a bc (by omega)) hn hi hj

end Aeolis.Solver
