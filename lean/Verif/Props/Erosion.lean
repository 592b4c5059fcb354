import Verif.Model.Erosion
import Mathlib.Algebra.Order.BigOperators.Group.Finset
import Mathlib.Algebra.BigOperators.Intervals
import Mathlib.Algebra.BigOperators.Ring.Finset
import Mathlib.Tactic.Linarith
import Mathlib.Tactic.Positivity
import Mathlib.Tactic.NormNum

/-! Dune erosion: C77. -/

set_option linter.unusedSectionVars false

namespace Aeolis.Props

open Aeolis.Erosion Finset

variable {K : Type*} [Field K] [LinearOrder K] [IsStrictOrderedRing K]

theorem argmin_le (f : ℕ → K) (n : ℕ) : argmin f n ≤ n := by
  induction n with
  | zero => exact le_refl _
  | succ n ih =>
    rw [argmin]
    split_ifs <;> omega

theorem argmin_min (f : ℕ → K) (n : ℕ) : ∀ k ≤ n, f (argmin f n) ≤ f k := by
  induction n with
  | zero => intro k hk; rw [Nat.le_zero.mp hk, argmin]
  | succ n ih =>
    intro k hk
    rw [argmin]
    split_ifs with h
    · rcases Nat.lt_or_ge n k with h1 | h1
      · rw [show k = n + 1 by omega]
      · exact le_trans h.le (ih k h1)
    · rcases Nat.lt_or_ge n k with h1 | h1
      · rw [show k = n + 1 by omega]
        exact not_lt.mp h
      · exact ih k h1

theorem argmin_first (f : ℕ → K) (n : ℕ) : ∀ k < argmin f n, f (argmin f n) < f k := by
  induction n with
  | zero => intro k hk; exact absurd hk (Nat.not_lt_zero k)
  | succ n ih =>
    intro k hk
    rw [argmin] at hk ⊢
    split_ifs at hk ⊢ with h
    · exact lt_of_lt_of_le h (argmin_min f n k (by omega))
    · exact ih k hk

/-- C77. Nothing changes where the total water level does not exceed the dune toe. -/
theorem C77_below_toe (nx : ℕ) (p : Params K) (f : Forcing K) (x zb : ℕ → K)
    (h : f.runup * 1.26 + f.level ≤ p.toe) : row nx p f x zb = .ok zb := by
  rw [row, if_neg (show ¬ twl f > p.toe from not_lt.mpr h)]

/-- C77. The dune is eroded from the cell with the level closest to the toe (the first such), over a number of cells, down
to the line through the toe with 0.54 times the beach slope as far as it is below the bed. All other cells are unchanged.
The last of these cells is chosen such that the volume above the line is closest to the demanded volume (the first
such). -/
theorem C77_window (nx : ℕ) (p : Params K) (f : Forcing K) (x zb zb' : ℕ → K) (h : row nx p f x zb = .ok zb')
    (ht : p.toe < f.runup * 1.26 + f.level) :
    ∃ st0 st, st0 ≤ st ∧ st ≤ nx ∧ (∀ i ≤ nx, |zb st0 - p.toe| ≤ |zb i - p.toe|) ∧
      (∀ i < st0, |zb st0 - p.toe| < |zb i - p.toe|) ∧
      (∀ i, i < st0 ∨ st ≤ i → zb' i = zb i) ∧
      (∀ i, st0 ≤ i → i < st → zb' i = min (zb i) (p.slope * 0.54 * (x i - x st0) + p.toe)) ∧
      (let v := fun k => ∑ i ∈ Ico (st0 + 1) (k + 1),
          |x 1 - x 0| * (zb i - min (zb i) (p.slope * 0.54 * (x i - x st0) + p.toe))
       let d := 4 * p.cs * (f.runup * 1.26 + f.level - p.toe) ^ 2 * f.collisions
       (d < 0 → st = st0) ∧
        (0 ≤ d → (∀ k, st0 ≤ k → k ≤ nx → |v st - d| ≤ |v k - d|) ∧ ∀ k, st0 ≤ k → k < st → |v st - d| < |v k - d|)) := by
  rw [row, if_pos (show twl f > p.toe from ht)] at h
  by_cases hnx : nx = 0
  · rw [if_pos hnx] at h; cases h
  rw [if_neg hnx] at h
  cases h
  have htr : ∀ st0 i, trajectory p x zb st0 i = min (zb i) (p.slope * 0.54 * (x i - x st0) + p.toe) := by
    intro st0 i
    unfold trajectory
    dsimp only
    split_ifs with hz
    · exact (min_eq_left hz.le).symm
    · exact (min_eq_right (not_lt.mp hz)).symm
  have hb : base nx p zb ≤ nx := argmin_le _ _
  have hd : demand p f = 4 * p.cs * (f.runup * 1.26 + f.level - p.toe) ^ 2 * f.collisions := rfl
  have hv : ∀ k, volume |x 1 - x 0| p x zb (base nx p zb) k =
      ∑ i ∈ Ico (base nx p zb + 1) (base nx p zb + k + 1),
        |x 1 - x 0| * (zb i - min (zb i) (p.slope * 0.54 * (x i - x (base nx p zb)) + p.toe)) := by
    intro k
    unfold volume
    rw [Finset.sum_range_succ', Finset.sum_range_one, add_sub_cancel_right]
    rw [Finset.sum_Ico_eq_sum_range]
    rw [show base nx p zb + k + 1 - (base nx p zb + 1) = k by omega]
    refine Finset.sum_congr rfl (fun i _ => ?_)
    rw [htr, show base nx p zb + 1 + i = base nx p zb + (i + 1) by omega]
  refine ⟨base nx p zb, base nx p zb + eroded nx p f x zb, by omega, ?_, argmin_min (fun i => |zb i - p.toe|) nx,
    argmin_first (fun i => |zb i - p.toe|) nx, ?_, ?_, ?_⟩
  · unfold eroded
    dsimp only
    split_ifs
    · omega
    · have := argmin_le (fun k => |volume |x 1 - x 0| p x zb (base nx p zb) k - demand p f|) (nx - base nx p zb)
      omega
  · intro i hi
    dsimp only
    rw [if_neg (by omega)]
  · intro i h1 h2
    dsimp only
    rw [if_pos ⟨h1, h2⟩, htr]
  · intro v d
    constructor
    · intro hneg
      unfold eroded
      dsimp only
      rw [if_pos (by rw [hd]; exact hneg)]
      rfl
    · intro hpos
      have he : eroded nx p f x zb =
          argmin (fun k => |volume |x 1 - x 0| p x zb (base nx p zb) k - demand p f|) (nx - base nx p zb) := by
        unfold eroded
        dsimp only
        rw [if_neg (by rw [hd]; exact not_lt.mpr hpos)]
      have hvv : ∀ k, v (base nx p zb + k) = volume |x 1 - x 0| p x zb (base nx p zb) k := fun k => (hv k).symm
      have hst : v (base nx p zb + eroded nx p f x zb) - d =
          volume |x 1 - x 0| p x zb (base nx p zb) (eroded nx p f x zb) - demand p f := by rw [hvv, hd]
      constructor
      · intro k hk1 hk2
        obtain ⟨m, rfl⟩ : ∃ m, k = base nx p zb + m := ⟨k - base nx p zb, by omega⟩
        rw [hst, hvv, show d = demand p f from hd.symm]
        have := argmin_min (fun k => |volume |x 1 - x 0| p x zb (base nx p zb) k - demand p f|) (nx - base nx p zb) m (by omega)
        rw [← he] at this
        exact this
      · intro k hk1 hk2
        obtain ⟨m, rfl⟩ : ∃ m, k = base nx p zb + m := ⟨k - base nx p zb, by omega⟩
        rw [hst, hvv, show d = demand p f from hd.symm]
        have := argmin_first (fun k => |volume |x 1 - x 0| p x zb (base nx p zb) k - demand p f|) (nx - base nx p zb) m
          (by rw [← he]; omega)
        rw [← he] at this
        exact this

/-- C77. No bed level is raised, whatever the conditions. -/
theorem C77_never_raised (nx : ℕ) (p : Params K) (f : Forcing K) (x zb zb' : ℕ → K) (h : row nx p f x zb = .ok zb')
    (i : ℕ) : zb' i ≤ zb i := by
  rcases le_or_gt (f.runup * 1.26 + f.level) p.toe with ht | ht
  · rw [C77_below_toe nx p f x zb ht] at h
    cases h
    exact le_refl _
  · obtain ⟨st0, st, -, -, -, -, h1, h2, -⟩ := C77_window nx p f x zb zb' h ht
    by_cases hi : st0 ≤ i ∧ i < st
    · rw [h2 i hi.1 hi.2]
      exact min_le_left _ _
    · rw [h1 i (by omega)]

/-- C77. Sand is not conserved: the volume of the row decreases by the volume above the line in the eroded cells, and none
of it is put elsewhere; it remains the same only if no bed level changes. -/
theorem C77_sand_is_lost (nx : ℕ) (p : Params K) (f : Forcing K) (x zb zb' : ℕ → K) (h : row nx p f x zb = .ok zb') :
    ∑ i ∈ range (nx + 1), zb' i ≤ ∑ i ∈ range (nx + 1), zb i ∧
      (∑ i ∈ range (nx + 1), zb' i = ∑ i ∈ range (nx + 1), zb i ↔ ∀ i ≤ nx, zb' i = zb i) := by
  have hle := C77_never_raised nx p f x zb zb' h
  refine ⟨Finset.sum_le_sum (fun i _ => hle i), ?_, ?_⟩
  · intro e i hi
    exact (Finset.sum_eq_sum_iff_of_le (fun i _ => hle i)).mp e i (Finset.mem_range.mpr (by omega))
  · intro e
    exact Finset.sum_congr rfl (fun i hi => e i (by have := Finset.mem_range.mp hi; omega))

/-- C77. More collisions erode at least as much, cell by cell. -/
theorem C77_more_collisions (nx : ℕ) (p : Params K) (f : Forcing K) (more : K) (x zb a b : ℕ → K) (hc : 0 ≤ p.cs)
    (hm : f.collisions ≤ more) (ha : row nx p f x zb = .ok a) (hb : row nx p { f with collisions := more } x zb = .ok b)
    (i : ℕ) : b i ≤ a i := by
  rcases le_or_gt (f.runup * 1.26 + f.level) p.toe with ht | ht
  · rw [C77_below_toe nx p f x zb ht] at ha
    rw [C77_below_toe nx p { f with collisions := more } x zb ht] at hb
    cases ha; cases hb
    exact le_refl _
  obtain ⟨s0, s, hs, hsn, hs1, hs2, hs3, hs4, hs5⟩ := C77_window nx p f x zb a ha ht
  obtain ⟨t0, t, ht', htn, ht1, ht2, ht3, ht4, ht5⟩ := C77_window nx p { f with collisions := more } x zb b hb ht
  have e0 : s0 = t0 := by
    rcases lt_trichotomy s0 t0 with h | h | h
    · exact absurd (ht2 s0 h) (not_lt.mpr (hs1 t0 (by omega)))
    · exact h
    · exact absurd (hs2 t0 h) (not_lt.mpr (ht1 s0 (by omega)))
  subst e0
  dsimp only at hs5 ht5
  set v := fun k => ∑ i ∈ Ico (s0 + 1) (k + 1),
          |x 1 - x 0| * (zb i - min (zb i) (p.slope * 0.54 * (x i - x s0) + p.toe)) with hv
  have vmono : ∀ j k, j ≤ k → v j ≤ v k := by
    intro j k hjk
    rw [hv]
    apply Finset.sum_le_sum_of_subset_of_nonneg
    · exact Finset.Ico_subset_Ico_right (by omega)
    · intro l _ _
      exact mul_nonneg (abs_nonneg _) (sub_nonneg.mpr (min_le_left _ _))
  have hst : s ≤ t := by
    set d := 4 * p.cs * (f.runup * 1.26 + f.level - p.toe) ^ 2 * f.collisions with hd
    set d' := 4 * p.cs * (f.runup * 1.26 + f.level - p.toe) ^ 2 * more with hd'
    have hdd : d ≤ d' := mul_le_mul_of_nonneg_left hm (by positivity)
    rcases lt_or_ge d 0 with h0 | h0
    · rw [hs5.1 h0]; exact ht'
    · by_contra hlt
      have hlt := not_le.mp hlt
      have h1 := (hs5.2 h0).2 t ht' hlt
      have h2 := (ht5.2 (le_trans h0 hdd)).1 s hs hsn
      have h3 := vmono t s hlt.le
      change |v s - d| < |v t - d| at h1
      change |v t - d'| ≤ |v s - d'| at h2
      rcases abs_cases (v s - d) with ⟨e1, _⟩ | ⟨e1, _⟩ <;> rcases abs_cases (v t - d) with ⟨e2, _⟩ | ⟨e2, _⟩ <;>
        rcases abs_cases (v s - d') with ⟨e3, _⟩ | ⟨e3, _⟩ <;> rcases abs_cases (v t - d') with ⟨e4, _⟩ | ⟨e4, _⟩ <;>
        rw [e1, e2] at h1 <;> rw [e3, e4] at h2 <;> linarith
  by_cases hi : s0 ≤ i ∧ i < s
  · rw [hs4 i hi.1 hi.2, ht4 i hi.1 (by omega)]
  · rw [hs3 i (by omega)]
    exact C77_never_raised nx p _ x zb b hb i

/-- C77. Rows do not influence each other: the result of a row is that of the row alone. -/
theorem C77_rows (nx : ℕ) (p : Params K) (rows : List (Forcing K × (ℕ → K) × (ℕ → K))) (out : List (ℕ → K))
    (h : run nx p rows = .ok out) :
    List.Forall₂ (fun r z => row nx p r.1 r.2.1 r.2.2 = .ok z) rows out := by
  unfold run at h
  induction rows generalizing out with
  | nil =>
    rw [List.mapM_nil] at h
    cases h
    exact List.Forall₂.nil
  | cons r rest ih =>
    rw [List.mapM_cons] at h
    cases hr : row nx p r.1 r.2.1 r.2.2 with
    | error e => rw [hr] at h; cases h
    | ok z =>
      rw [hr] at h
      cases hrest : List.mapM (fun r => row nx p r.1 r.2.1 r.2.2) rest with
      | error e =>
        simp only [hrest] at h
        cases h
      | ok zs =>
        simp only [hrest] at h
        cases h
        exact List.Forall₂.cons hr (ih zs hrest)

/-- A dune of five cells whose toe lies in the second one. -/
def smallDune : ℕ → ℚ := fun i => if i = 0 then 0 else if i = 1 then 3 else if i ≤ 4 then 6 else 0

example : row 4 ⟨3, 1 / 10, 1⟩ ⟨1, 2, 15⟩ (fun i => (i : ℚ)) smallDune =
    .ok (fun i => if 1 ≤ i ∧ i < 1 + 1 then
      trajectory ⟨3, 1 / 10, 1⟩ (fun i => (i : ℚ)) smallDune 1 i else smallDune i) := by
  have h0 : base 4 ⟨3, 1 / 10, 1⟩ smallDune = 1 := by decide +kernel
  have h1 : eroded 4 ⟨3, 1 / 10, 1⟩ ⟨1, 2, 15⟩ (fun i => (i : ℚ)) smallDune = 1 := by decide +kernel
  rw [row, if_pos (by decide +kernel), if_neg (by decide)]
  simp only [h0, h1]

/-- Water that stays below the toe leaves the dune as it is. -/
example : row 4 ⟨3, 1 / 10, 1⟩ ⟨1, 1 / 2, 15⟩ (fun i => (i : ℚ)) smallDune = .ok smallDune :=
  C77_below_toe _ _ _ _ _ (by decide +kernel)

theorem smallDune_eroded (n : ℚ) : ∃ z, row 4 ⟨3, 1 / 10, 1⟩ ⟨1, 2, n⟩ (fun i => (i : ℚ)) smallDune = .ok z := by
  rw [row, if_pos (by norm_num [twl]), if_neg (by decide)]
  exact ⟨_, rfl⟩

/-- The eroded dune: nowhere higher, no more sand, lower still after more collisions, and lowered from the toe on. -/
example : ∃ z z', row 4 ⟨3, 1 / 10, 1⟩ ⟨1, 2, 15⟩ (fun i => (i : ℚ)) smallDune = .ok z ∧
    row 4 ⟨3, 1 / 10, 1⟩ ⟨1, 2, 40⟩ (fun i => (i : ℚ)) smallDune = .ok z' ∧
    (∀ i, z i ≤ smallDune i) ∧ (∀ i, z' i ≤ z i) ∧ ∑ i ∈ range 5, z i ≤ ∑ i ∈ range 5, smallDune i ∧
    ∃ st0 st, st0 ≤ st ∧ st ≤ 4 ∧ ∀ i, i < st0 ∨ st ≤ i → z i = smallDune i := by
  obtain ⟨z, hz⟩ := smallDune_eroded 15
  obtain ⟨z', hz'⟩ := smallDune_eroded 40
  obtain ⟨st0, st, h1, h2, -, -, h3, -⟩ := C77_window _ _ _ _ _ _ hz (by norm_num)
  exact ⟨z, z', hz, hz', C77_never_raised _ _ _ _ _ _ hz,
    C77_more_collisions _ _ _ 40 _ _ _ _ (by norm_num) (by norm_num) hz hz', (C77_sand_is_lost _ _ _ _ _ _ hz).1, st0, st, h1, h2, h3⟩

/-- Two rows, one of them below the toe. -/
example : ∃ z, run 4 ⟨3, 1 / 10, 1⟩ [(⟨1, 2, 15⟩, (fun i : ℕ => (i : ℚ)), smallDune), (⟨1, 1 / 2, 15⟩, (fun i : ℕ => (i : ℚ)), smallDune)] = .ok [z, smallDune] ∧
    List.Forall₂ (fun r z => row 4 ⟨3, 1 / 10, 1⟩ r.1 r.2.1 r.2.2 = .ok z)
      [(⟨1, 2, 15⟩, (fun i : ℕ => (i : ℚ)), smallDune), (⟨1, 1 / 2, 15⟩, (fun i : ℕ => (i : ℚ)), smallDune)] [z, smallDune] := by
  obtain ⟨z, hz⟩ := smallDune_eroded 15
  have h2 : row 4 ⟨3, 1 / 10, 1⟩ ⟨1, 1 / 2, 15⟩ (fun i => (i : ℚ)) smallDune = .ok smallDune :=
    C77_below_toe _ _ _ _ _ (by norm_num)
  have h : run 4 ⟨3, 1 / 10, 1⟩ [(⟨1, 2, 15⟩, (fun i : ℕ => (i : ℚ)), smallDune), (⟨1, 1 / 2, 15⟩, (fun i : ℕ => (i : ℚ)), smallDune)] = .ok [z, smallDune] := by
    simp only [run, List.mapM_cons, List.mapM_nil, hz, h2]
    rfl
  exact ⟨z, h, C77_rows _ _ _ _ h⟩

end Aeolis.Props
