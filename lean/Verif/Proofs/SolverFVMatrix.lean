import Verif.Model.SolverFV
import Verif.Proofs.SolverMatrix

/-!
Decoding of the sparse matrix of the finite-volume solvers, and a criterion for non-negative solutions.
-/

set_option linter.unusedSectionVars false

namespace Aeolis.Solver

open Finset

variable {K : Type*} [Field K] [LinearOrder K] [IsStrictOrderedRing K]

namespace FV

theorem flat_at (a : FV K) (g : ℕ → ℕ → K) (i j : ℕ) (hj : j ≤ a.nx) :
    a.flat g (i * (a.nx + 1) + j) = g i j := by
  unfold FV.flat
  rw [show i * (a.nx + 1) + j = j + (a.nx + 1) * i by ring, Nat.add_mul_div_left _ _ (by omega),
    Nat.add_mul_mod_self_left, Nat.div_eq_of_lt (by omega), Nat.mod_eq_of_lt (by omega), zero_add]

/-- The part of a cell equation along the row. -/
def rowPart (D : Diags K) (x : ℕ → ℕ → K) (i j : ℕ) : K :=
  D.A0 i j * x i j + D.Am1 i j * x i (j - 1) + D.Ap1 i j * x i (j + 1)

/-- The part of a cell equation across the rows. -/
def acrossPart (a : FV K) (D : Diags K) (x : ℕ → ℕ → K) (i j : ℕ) : K :=
  if 0 < a.ny then
    D.Amx i j * x (prevRow a.ny i) j + D.Apx (nextRow a.ny i) j * x (nextRow a.ny i) j
  else 0

/-- No coupling beyond the ends of the rows. -/
def Closed (a : FV K) (D : Diags K) : Prop :=
  ∀ i ≤ a.ny, D.Am1 i 0 = 0 ∧ D.Ap1 i a.nx = 0

theorem index_lt (a : FV K) {i j : ℕ} (hi : i ≤ a.ny) (hj : j ≤ a.nx) :
    i * (a.nx + 1) + j < a.cells := by
  have : i * (a.nx + 1) + (a.nx + 1) ≤ (a.ny + 1) * (a.nx + 1) := by
    rw [← Nat.succ_mul]; exact Nat.mul_le_mul_right _ (by omega)
  unfold cells
  omega

/-- The three diagonals along the rows. -/
theorem core_sum (a : FV K) (D : Diags K) (x : ℕ → ℕ → K) (i j : ℕ) (hD : Closed a D)
    (hi : i ≤ a.ny) (hj : j ≤ a.nx) (L : List (ℤ × (ℕ → K)))
    (hL : L = [(-1, fun m => a.flat D.Am1 (m + 1)), (0, fun m => a.flat D.A0 m),
      (1, fun m => a.flat D.Ap1 m)]) :
    (L.map fun d => if 0 ≤ ((i * (a.nx + 1) + j : ℕ) : ℤ) + d.1 ∧
        ((i * (a.nx + 1) + j : ℕ) : ℤ) + d.1 < ((a.cells : ℕ) : ℤ) then
        d.2 (min (i * (a.nx + 1) + j) (((i * (a.nx + 1) + j : ℕ) : ℤ) + d.1).toNat)
          * vec a.nx x (((i * (a.nx + 1) + j : ℕ) : ℤ) + d.1).toNat else 0).sum
      = rowPart D x i j := by
  have hle : i * (a.nx + 1) + (a.nx + 1) ≤ a.cells := by
    unfold cells
    rw [← Nat.succ_mul]; exact Nat.mul_le_mul_right _ (by omega)
  obtain ⟨r, hr⟩ : ∃ r, r = i * (a.nx + 1) + j := ⟨_, rfl⟩
  have hfl : ∀ g, a.flat g r = g i j := fun g => by rw [hr]; exact flat_at a g i j hj
  have e0 : (if 0 ≤ ((r : ℕ) : ℤ) + 0 ∧ ((r : ℕ) : ℤ) + 0 < ((a.cells : ℕ) : ℤ) then
      a.flat D.A0 (min r ((r : ℤ) + 0).toNat) * vec a.nx x ((r : ℤ) + 0).toNat else 0)
      = D.A0 i j * x i j := by
    rw [if_pos (by omega)]
    have : ((r : ℤ) + 0).toNat = r := by omega
    rw [this, min_self, hfl, hr, vec_at _ _ _ _ hj]
  have em1 : (if 0 ≤ ((r : ℕ) : ℤ) + (-1) ∧ ((r : ℕ) : ℤ) + (-1) < ((a.cells : ℕ) : ℤ) then
      a.flat D.Am1 (min r ((r : ℤ) + (-1)).toNat + 1) * vec a.nx x ((r : ℤ) + (-1)).toNat else 0)
      = D.Am1 i j * x i (j - 1) := by
    by_cases h : 1 ≤ r
    · rw [if_pos (by omega)]
      have h1 : ((r : ℤ) + (-1)).toNat = r - 1 := by omega
      rw [h1, show min r (r - 1) + 1 = r by omega, hfl]
      by_cases h0 : j = 0
      · rw [h0, (hD i hi).1]; ring
      · rw [hr, show i * (a.nx + 1) + j - 1 = i * (a.nx + 1) + (j - 1) by omega,
          vec_at _ _ _ _ (by omega)]
    · rw [if_neg (by omega)]
      have h0 : j = 0 := by omega
      rw [h0, (hD i hi).1]; ring
  have ep1 : (if 0 ≤ ((r : ℕ) : ℤ) + 1 ∧ ((r : ℕ) : ℤ) + 1 < ((a.cells : ℕ) : ℤ) then
      a.flat D.Ap1 (min r ((r : ℤ) + 1).toNat) * vec a.nx x ((r : ℤ) + 1).toNat else 0)
      = D.Ap1 i j * x i (j + 1) := by
    have h1 : ((r : ℤ) + 1).toNat = r + 1 := by omega
    rw [h1, show min r (r + 1) = r by omega, hfl]
    by_cases hx : j = a.nx
    · rw [hx, (hD i hi).2]; simp
    · rw [if_pos (by omega), hr, show i * (a.nx + 1) + j + 1 = i * (a.nx + 1) + (j + 1) by omega,
        vec_at _ _ _ _ (by omega)]
  subst hL
  simp only [List.map_cons, List.map_nil, List.sum_cons, List.sum_nil, ← hr]
  rw [e0, em1, ep1]
  unfold rowPart
  ring

/-- `A x` in cell `(i,j)`. -/
theorem matrix_apply (a : FV K) (D : Diags K) (x : ℕ → ℕ → K) (i j : ℕ) (hD : Closed a D)
    (hi : i ≤ a.ny) (hj : j ≤ a.nx) :
    (∑ c ∈ range a.cells, diagsEntry (a.diagonals D) (i * (a.nx + 1) + j) c * vec a.nx x c)
      = rowPart D x i j + acrossPart a D x i j := by
  rw [sum_diags, ← core_sum a D x i j hD hi hj _ rfl]
  have hle : i * (a.nx + 1) + (a.nx + 1) ≤ (a.ny + 1) * (a.nx + 1) := by
    rw [← Nat.succ_mul]; exact Nat.mul_le_mul_right _ (by omega)
  unfold FV.diagonals acrossPart
  simp only
  by_cases hy : 0 < a.ny
  · rw [if_pos hy, if_pos hy]
    simp only [List.map_cons, List.map_nil, List.sum_cons, List.sum_nil, cells]
    obtain ⟨n, hnn⟩ : ∃ n, n = a.nx + 1 := ⟨_, rfl⟩
    have hexp : (a.ny + 1) * n = n * a.ny + n := by ring
    rw [← hnn] at hle ⊢
    have hfl : ∀ g i', a.flat g (i' * n + j) = g i' j :=
      fun g i' => by rw [hnn]; exact flat_at a g i' j hj
    have hv : ∀ i', vec a.nx x (i' * n + j) = x i' j :=
      fun i' => by rw [hnn]; exact vec_at _ _ _ _ hj
    have hin : i < a.ny → i * n + n ≤ n * a.ny := fun h => by
      have := Nat.mul_le_mul_left n (show i + 1 ≤ a.ny by omega)
      linarith [mul_comm i n, Nat.mul_succ n i]
    have hi0 : i ≠ 0 → n ≤ i * n := fun h => Nat.le_mul_of_pos_left n (by omega)
    have hpos : 0 < n := by omega
    have hny : n ≤ n * a.ny := Nat.le_mul_of_pos_right n hy
    have E1 : (if 0 ≤ ((i * n + j : ℕ) : ℤ) + -((n * a.ny : ℕ) : ℤ) ∧
          ((i * n + j : ℕ) : ℤ) + -((n * a.ny : ℕ) : ℤ) < (((a.ny + 1) * n : ℕ) : ℤ) then
        a.flat D.Apx (min (i * n + j) (((i * n + j : ℕ) : ℤ) + -((n * a.ny : ℕ) : ℤ)).toNat)
          * vec a.nx x (((i * n + j : ℕ) : ℤ) + -((n * a.ny : ℕ) : ℤ)).toNat else 0)
        = if i = a.ny then D.Apx 0 j * x 0 j else 0 := by
      by_cases h : i = a.ny
      · have hm : i * n = n * a.ny := by rw [h, mul_comm]
        rw [if_pos h, if_pos (by omega)]
        have ht : (((i * n + j : ℕ) : ℤ) + -((n * a.ny : ℕ) : ℤ)).toNat = 0 * n + j := by omega
        rw [ht, show min (i * n + j) (0 * n + j) = 0 * n + j by omega, hfl, hv]
      · have := hin (by omega)
        rw [if_neg h, if_neg (by omega)]
    have E2 : (if 0 ≤ ((i * n + j : ℕ) : ℤ) + -((n : ℕ) : ℤ) ∧
          ((i * n + j : ℕ) : ℤ) + -((n : ℕ) : ℤ) < (((a.ny + 1) * n : ℕ) : ℤ) then
        a.flat D.Amx (min (i * n + j) (((i * n + j : ℕ) : ℤ) + -((n : ℕ) : ℤ)).toNat + n)
          * vec a.nx x (((i * n + j : ℕ) : ℤ) + -((n : ℕ) : ℤ)).toNat else 0)
        = if i = 0 then 0 else D.Amx i j * x (i - 1) j := by
      by_cases h : i = 0
      · rw [if_pos h, if_neg (by subst h; omega)]
      · have h1 := hi0 h
        have hm : i * n = (i - 1) * n + n := by
          rw [← Nat.succ_mul]; congr 1; omega
        rw [if_neg h, if_pos (by omega)]
        have ht : (((i * n + j : ℕ) : ℤ) + -((n : ℕ) : ℤ)).toNat = (i - 1) * n + j := by omega
        rw [ht, show min (i * n + j) ((i - 1) * n + j) + n = i * n + j by omega, hfl, hv]
    have E3 : (if 0 ≤ ((i * n + j : ℕ) : ℤ) + ((n : ℕ) : ℤ) ∧
          ((i * n + j : ℕ) : ℤ) + ((n : ℕ) : ℤ) < (((a.ny + 1) * n : ℕ) : ℤ) then
        a.flat D.Apx (min (i * n + j) (((i * n + j : ℕ) : ℤ) + ((n : ℕ) : ℤ)).toNat + n)
          * vec a.nx x (((i * n + j : ℕ) : ℤ) + ((n : ℕ) : ℤ)).toNat else 0)
        = if i = a.ny then 0 else D.Apx (i + 1) j * x (i + 1) j := by
      by_cases h : i = a.ny
      · have hm : i * n = n * a.ny := by rw [h, mul_comm]
        rw [if_pos h, if_neg (by omega)]
      · have h1 := hin (by omega)
        rw [if_neg h, if_pos (by omega)]
        have hm : (i + 1) * n = i * n + n := Nat.succ_mul _ _
        have ht : (((i * n + j : ℕ) : ℤ) + ((n : ℕ) : ℤ)).toNat = (i + 1) * n + j := by omega
        rw [ht, show min (i * n + j) ((i + 1) * n + j) + n = (i + 1) * n + j by omega, hfl, hv]
    have E4 : (if 0 ≤ ((i * n + j : ℕ) : ℤ) + ((n * a.ny : ℕ) : ℤ) ∧
          ((i * n + j : ℕ) : ℤ) + ((n * a.ny : ℕ) : ℤ) < (((a.ny + 1) * n : ℕ) : ℤ) then
        a.flat D.Amx (min (i * n + j) (((i * n + j : ℕ) : ℤ) + ((n * a.ny : ℕ) : ℤ)).toNat)
          * vec a.nx x (((i * n + j : ℕ) : ℤ) + ((n * a.ny : ℕ) : ℤ)).toNat else 0)
        = if i = 0 then D.Amx i j * x a.ny j else 0 := by
      by_cases h : i = 0
      · have h0 : i * n = 0 := by rw [h, zero_mul]
        rw [if_pos h, if_pos (by omega)]
        have ht : (((i * n + j : ℕ) : ℤ) + ((n * a.ny : ℕ) : ℤ)).toNat = a.ny * n + j := by
          rw [mul_comm a.ny n]; omega
        rw [ht, hv, show min (i * n + j) (a.ny * n + j) = i * n + j from min_eq_left (by
          rw [h0, mul_comm a.ny n]; omega), hfl]
      · have h1 := hi0 h
        rw [if_neg h, if_neg (by omega)]
    rw [E1, E2, E3, E4]
    unfold prevRow nextRow
    by_cases h0 : i = 0 <;> by_cases h1 : i = a.ny <;> simp only [h0, h1, if_true, if_false]
      <;> first | omega | (split <;> first | omega | ring) | ring
  · rw [if_neg hy, if_neg hy, add_zero]

theorem nodup_offsets (a : FV K) (D : Diags K) (hn : 1 ≤ a.nx) (hy : a.ny ≠ 1) :
    ((a.diagonals D).map Prod.fst).Nodup := by
  unfold FV.diagonals
  simp only
  split
  · rename_i h
    have h2 : (a.nx + 1) * 2 ≤ (a.nx + 1) * a.ny := Nat.mul_le_mul_left _ (by omega)
    simp only [List.map_cons, List.map_nil,
      List.nodup_cons, List.mem_cons, List.not_mem_nil, List.nodup_nil, not_or]
    generalize hM : (a.nx + 1) * a.ny = M at *
    refine ⟨?_, ?_, ?_, ?_, ?_, ?_, ?_⟩ <;> (try refine ⟨?_, ?_⟩) <;>
      (try simp) <;> omega
  · simp

/-- A vector as a grid. -/
def gridOf (a : FV K) (X : Fin a.cells → K) (i j : ℕ) : K :=
  if h : i * (a.nx + 1) + j < a.cells then X ⟨_, h⟩ else 0

theorem gridOf_eq (a : FV K) (X : Fin a.cells → K) (c : Fin a.cells) :
    vec a.nx (gridOf a X) c = X c := by
  unfold vec gridOf
  have h : (c : ℕ) / (a.nx + 1) * (a.nx + 1) + (c : ℕ) % (a.nx + 1) = c := by
    rw [mul_comm]; exact Nat.div_add_mod _ _
  rw [dif_pos (by rw [h]; exact c.2)]
  congr 1
  exact Fin.ext h

theorem gridOf_at (a : FV K) (X : Fin a.cells → K) {i j : ℕ} (hi : i ≤ a.ny) (hj : j ≤ a.nx) :
    gridOf a X i j = X ⟨i * (a.nx + 1) + j, index_lt a hi hj⟩ := by
  unfold gridOf; rw [dif_pos (index_lt a hi hj)]

/-- Every index is the index of a cell. -/
theorem index_cases (a : FV K) (c : Fin a.cells) :
    ∃ i j, ∃ (hi : i ≤ a.ny) (hj : j ≤ a.nx), c = ⟨i * (a.nx + 1) + j, index_lt a hi hj⟩ := by
  have h : (c : ℕ) / (a.nx + 1) * (a.nx + 1) + (c : ℕ) % (a.nx + 1) = c := by
    rw [mul_comm]; exact Nat.div_add_mod _ _
  refine ⟨c / (a.nx + 1), c % (a.nx + 1), ?_, ?_, Fin.ext h.symm⟩
  · have := (Nat.div_lt_iff_lt_mul (by omega : 0 < a.nx + 1)).mpr c.2
    omega
  · have := Nat.mod_lt (c : ℕ) (by omega : 0 < a.nx + 1)
    omega

/-- The matrix of given entries. -/
def assembled (a : FV K) (D : Diags K) : Matrix (Fin a.cells) (Fin a.cells) K :=
  fun r c => diagsEntry (a.diagonals D) r c

/-- A matrix that was assembled belongs to entries, and is `diags` of them. -/
theorem matrix_entries (a : FV K) (b : Bounds) (A : Matrix (Fin a.cells) (Fin a.cells) K)
    (hA : a.matrix b = .ok A) :
    ∃ D, a.entries b = .ok D ∧ A = assembled a D := by
  unfold FV.matrix at hA
  cases hD : a.entries b with
  | error e => rw [hD] at hA; cases hA
  | ok D =>
    rw [hD] at hA
    simp only at hA
    split at hA
    · cases hA; exact ⟨D, rfl, rfl⟩
    · cases hA

theorem matrix_of_entries (a : FV K) (b : Bounds) (D : Diags K) (hn : 1 ≤ a.nx) (hy : a.ny ≠ 1)
    (hD : a.entries b = .ok D) : a.matrix b = .ok (assembled a D) := by
  unfold FV.matrix
  rw [hD]
  simp only
  rw [if_pos (nodup_offsets a D hn hy)]
  rfl

theorem mulVec_gridOf (a : FV K) (D : Diags K) (hD : Closed a D) (X : Fin a.cells → K) {i j : ℕ}
    (hi : i ≤ a.ny) (hj : j ≤ a.nx) :
    (assembled a D).mulVec X ⟨i * (a.nx + 1) + j, index_lt a hi hj⟩
      = rowPart D (gridOf a X) i j + acrossPart a D (gridOf a X) i j := by
  rw [← matrix_apply a D (gridOf a X) i j hD hi hj, ← Fin.sum_univ_eq_sum_range
      (fun c => diagsEntry (a.diagonals D) (i * (a.nx + 1) + j) c * vec a.nx (gridOf a X) c)]
  unfold Matrix.mulVec dotProduct
  refine sum_congr rfl fun c _ => ?_
  rw [gridOf_eq]
  rfl

/-- The entries do not couple the ends of neighbouring rows. -/
theorem entries_closed (a : FV K) (b : Bounds) (D : Diags K) (hn : 1 ≤ a.nx)
    (hD : a.entries b = .ok D) : Closed a D := by
  have h0 : Closed a (a.core b.lat) := by
    intro i _
    constructor
    · simp [core, at']
    · simp [core, at']
  have hoff : ∀ D D', Closed a D → a.offshoreRows b.off D = .ok D' → Closed a D' := by
    intro D D' h hd i hi
    obtain ⟨q1, q2⟩ := h i hi
    unfold offshoreRows at hd
    split_ifs at hd
    · cases hd; exact ⟨q1, q2⟩
    · cases hd; simp [Diags.unit, q2]
    · cases hd; refine ⟨q1, ?_⟩; simp [at', q2]; omega
  have hon : ∀ D D', Closed a D → a.onshoreRows b.on D = .ok D' → Closed a D' := by
    intro D D' h hd i hi
    obtain ⟨q1, q2⟩ := h i hi
    unfold onshoreRows at hd
    split_ifs at hd
    · cases hd; exact ⟨q1, q2⟩
    · cases hd; simp [Diags.unit, q1]
    · cases hd; refine ⟨?_, q2⟩; simp [at', q1]; omega
  have hlat : ∀ D D', Closed a D → a.lateralRows b.lat D = .ok D' → Closed a D' := by
    intro D D' h hd i hi
    obtain ⟨q1, q2⟩ := h i hi
    unfold lateralRows at hd
    split_ifs at hd
    · cases hd; exact ⟨q1, q2⟩
    · cases hd; simp [Diags.unit, q1, q2]
    · cases hd; exact ⟨q1, q2⟩
    · cases hd; exact ⟨q1, q2⟩
  unfold entries at hD
  cases h1 : a.offshoreRows b.off (a.core b.lat) with
  | error e => rw [h1] at hD; cases hD
  | ok D1 =>
    rw [h1] at hD
    simp only at hD
    cases h2 : a.onshoreRows b.on D1 with
    | error e => rw [h2] at hD; cases hD
    | ok D2 =>
      rw [h2] at hD
      exact hlat _ _ (hon _ _ (hoff _ _ h0 h1) h2) hD

end FV

end Aeolis.Solver
