import Mathlib.Analysis.Complex.ExponentialBounds
import Verif.Proofs.Fence2d

/-!
C115: fences on two-dimensional grids.

A wind from direction `u` (degrees, nautical) blows towards `(-sin u, -cos u)`; the components are those across and along the
shore.
-/

set_option linter.unusedSectionVars false

namespace Aeolis.Props

open Aeolis.Lee Aeolis.Resample Aeolis.Shear Aeolis.Spec

noncomputable section

open Classical

/-- The same case with another shear velocity. -/
def withShear (F : FenceIn) (us un : ℕ → ℕ → ℝ) : FenceIn := { F with ustars := us, ustarn := un }

/-- Whatever the fences, the shear velocity that comes out is at right angles to the wind: its component along the wind vanishes
at every node.  Wind directions along the rows are turned a hundred-thousandth of a degree by the code. -/
theorem C115_right_angle (F : FenceIn) (h0 : 0 < F.udir) (h1 : F.udir < 360) (h2 : F.udir ≠ 180) (j i : ℕ) :
    F.outS j i * -Real.sin (F.udir / 180 * Real.pi) + F.outN j i * -Real.cos (F.udir / 180 * Real.pi) = 0 := by
  obtain ⟨j', i', hs, hn, -⟩ := out_eq F j i
  have hu : F.u = F.udir := fenceTurn_id F.udir h0 h1 h2
  rw [hs, hn, hu]
  ring

/-- The direction used: the given one brought to one turn, never along the rows of the grid; those are turned by a hundred-thousandth of
a degree. -/
theorem fenceTurn_spec (udir : ℝ) :
    ∃ (u : ℝ) (k : ℤ), fenceTurn udir = u ∧ 0 < u ∧ u < 360 ∧ u ≠ 180 ∧
      ((u = udir + 360 * k ∧ ∀ n : ℤ, udir ≠ 180 * n) ∨ (u = udir + 360 * k + 0.00001 ∧ ∃ n : ℤ, udir = 180 * n)) := by
  set w := if udir < 0 then udir + 360 else udir with hw
  obtain ⟨k0, hk0⟩ : ∃ k0 : ℤ, w = udir + 360 * k0 := by
    rw [hw]; split_ifs
    · exact ⟨1, by push_cast; ring⟩
    · exact ⟨0, by push_cast; ring⟩
  set v := w - ⌊w / 360⌋ * 360 with hv
  have hv0 : 0 ≤ v := by
    have := Int.floor_le (w / 360)
    rw [le_div_iff₀ (by norm_num)] at this
    linarith
  have hv1 : v < 360 := by
    have := Int.lt_floor_add_one (w / 360)
    rw [div_lt_iff₀ (by norm_num)] at this
    linarith
  have hvk : v = udir + 360 * ((k0 - ⌊w / 360⌋ : ℤ) : ℝ) := by rw [hv, hk0]; push_cast; ring
  have hdef : fenceTurn udir = if v = 0 ∨ v = 360 ∨ v = -360 ∨ v = -180 ∨ v = 180 then v + 0.00001 else v := rfl
  by_cases hrow : v = 0 ∨ v = 180
  · refine ⟨v + 0.00001, k0 - ⌊w / 360⌋, ?_, ?_, ?_, ?_, .inr ⟨by rw [← hvk], ?_⟩⟩
    · rw [hdef, if_pos (by tauto)]
    · linarith
    · rcases hrow with h | h <;> rw [h] <;> norm_num
    · rcases hrow with h | h <;> rw [h] <;> norm_num
    · rcases hrow with h | h
      · exact ⟨-2 * (k0 - ⌊w / 360⌋), by push_cast at hvk ⊢; linarith⟩
      · exact ⟨1 - 2 * (k0 - ⌊w / 360⌋), by push_cast at hvk ⊢; linarith⟩
  · push Not at hrow
    refine ⟨v, k0 - ⌊w / 360⌋, ?_, lt_of_le_of_ne hv0 (Ne.symm hrow.1), hv1, hrow.2, .inl ⟨hvk, ?_⟩⟩
    · rw [hdef, if_neg]
      rintro (h | h | h | h | h)
      · exact hrow.1 h
      · linarith
      · linarith
      · linarith
      · exact hrow.2 h
    · intro n hn
      rw [hn] at hvk
      have e : v = ((180 * (n + 2 * (k0 - ⌊w / 360⌋)) : ℤ) : ℝ) := by rw [hvk]; push_cast; ring
      set m := n + 2 * (k0 - ⌊w / 360⌋)
      have m0 : 0 ≤ m := by
        have : (0:ℝ) ≤ ((180 * m : ℤ) : ℝ) := e ▸ hv0
        have := Int.cast_nonneg_iff.mp this
        omega
      have m1 : m < 2 := by
        have : ((180 * m : ℤ) : ℝ) < ((360 : ℤ) : ℝ) := by rw [← e]; exact_mod_cast hv1
        have := Int.cast_lt.mp this
        omega
      rcases (show m = 0 ∨ m = 1 by omega) with h | h
      · exact hrow.1 (by rw [e, h]; norm_num)
      · exact hrow.2 (by rw [e, h]; norm_num)

/-- The same for every wind direction: the result is at right angles to a direction that is the given one up to whole turns, except that
directions along the rows are turned by a hundred-thousandth of a degree. -/
theorem C115_any_direction (F : FenceIn) :
    ∃ (u : ℝ) (k : ℤ), 0 < u ∧ u < 360 ∧ u ≠ 180 ∧
      ((u = F.udir + 360 * k ∧ ∀ n : ℤ, F.udir ≠ 180 * n) ∨ (u = F.udir + 360 * k + 0.00001 ∧ ∃ n : ℤ, F.udir = 180 * n)) ∧
      ∀ j i, F.outS j i * -Real.sin (u / 180 * Real.pi) + F.outN j i * -Real.cos (u / 180 * Real.pi) = 0 := by
  obtain ⟨u, k, hu, h1, h2, h3, h4⟩ := fenceTurn_spec F.udir
  refine ⟨u, k, h1, h2, h3, h4, fun j i => ?_⟩
  obtain ⟨j', i', hs, hn, -⟩ := out_eq F j i
  have hu : F.u = u := hu
  rw [hs, hn, hu]
  ring

/-- The component along the shore that goes in has no influence. -/
theorem C115_ignores (F : FenceIn) (un : ℕ → ℕ → ℝ) (j i : ℕ) :
    (withShear F F.ustars un).outS j i = F.outS j i ∧ (withShear F F.ustars un).outN j i = F.outN j i ∧
      (withShear F F.ustars un).out j i = F.out j i := ⟨rfl, rfl, rfl⟩

theorem speed_scale (F : FenceIn) (un : ℕ → ℕ → ℝ) (c : ℝ) (j i : ℕ) :
    (withShear F (fun j i => c * F.ustars j i) un).speed j i = c * F.speed j i := by
  have hon : ∀ q p, (withShear F (fun j i => c * F.ustars j i) un).onGrid (fun j i => c * F.ustars j i) q p =
      c * F.onGrid F.ustars q p := by
    intro q p
    exact regular_smul F.R F.C (fun j => (F.g j 0).2) (fun i => (F.g 0 i).1) F.ustars c (F.gc q p).2 (F.gc q p).1
  unfold FenceIn.speed
  rw [← regular_smul]
  show regular F.grid.rows F.grid.cols _ _ (fun q p => (withShear F (fun j i => c * F.ustars j i) un).onGrid
    (fun j i => c * F.ustars j i) q p * F.factor q p) 0 _ _ = _
  simp only [hon, mul_assoc]
  rfl

/-- The result is proportional to the component across the shore that goes in. -/
theorem C115_proportional (F : FenceIn) (un : ℕ → ℕ → ℝ) (c : ℝ) (j i : ℕ) :
    (withShear F (fun j i => c * F.ustars j i) un).outS j i = c * F.outS j i ∧
      (withShear F (fun j i => c * F.ustars j i) un).outN j i = c * F.outN j i ∧
      (withShear F (fun j i => c * F.ustars j i) un).out j i = |c| * F.out j i := by
  have hS : (withShear F (fun j i => c * F.ustars j i) un).outS j i = c * F.outS j i := by
    obtain ⟨j', i', h⟩ := copyEdges_some F.R F.C j i
    unfold FenceIn.outS
    show copyEdges F.R F.C _ j i = _
    rw [h, h, inner_eq, inner_eq, speed_scale]
    show _ = c * (F.speed j' i' * Real.cos (F.u / 180 * Real.pi))
    rw [← mul_assoc]
    rfl
  have hN : (withShear F (fun j i => c * F.ustars j i) un).outN j i = c * F.outN j i := by
    obtain ⟨j', i', h⟩ := copyEdges_some F.R F.C j i
    unfold FenceIn.outN
    show copyEdges F.R F.C _ j i = _
    rw [h, h, inner_eq, inner_eq, speed_scale]
    show _ = c * -(F.speed j' i' * Real.sin (F.u / 180 * Real.pi))
    rw [mul_neg, ← mul_assoc]
    rfl
  refine ⟨hS, hN, ?_⟩
  unfold FenceIn.out
  rw [hS, hN, mul_pow, mul_pow, ← mul_add, Real.sqrt_mul (sq_nonneg c), Real.sqrt_sq_eq_abs]

/-- Hence a wind along the shore disappears, with fences or without. -/
theorem C115_alongshore_lost (F : FenceIn) (hs : ∀ j i, F.ustars j i = 0) (j i : ℕ) :
    F.outS j i = 0 ∧ F.outN j i = 0 ∧ F.out j i = 0 := by
  have h := C115_proportional F F.ustarn 0 j i
  have e : withShear F (fun j i => 0 * F.ustars j i) F.ustarn = F := by
    have : (fun j i => 0 * F.ustars j i) = F.ustars := by funext j i; rw [hs, mul_zero]
    rw [this]; rfl
  rw [e] at h
  simpa using h

/-- No more than what goes in: fences never make the shear velocity exceed the largest component across the shore. -/
theorem C115_no_more (F : FenceIn) (hR : 2 ≤ F.R) (hC : 2 ≤ F.C) (hy : StrictMono fun j => (F.g j 0).2)
    (hx : StrictMono fun i => (F.g 0 i).1) (hgr : 2 ≤ F.grid.rows) (hgc : 2 ≤ F.grid.cols) (M : ℝ) (hM : 0 ≤ M)
    (hs : ∀ j < F.R, ∀ i < F.C, 0 ≤ F.ustars j i ∧ F.ustars j i ≤ M) (j i : ℕ) : F.out j i ≤ M := by
  obtain ⟨j', i', -, -, ho⟩ := out_eq F j i
  have hd : 0 < max (F.dx / 2) 0.25 := lt_of_lt_of_le (by norm_num) (le_max_right _ _)
  have h := regular_between F.grid.rows F.grid.cols hgr hgc (axisNode F.grid.ylo F.grid.dy) (axisNode F.grid.xlo F.grid.dx)
    (axisNode_mono _ _ hd) (axisNode_mono _ _ hd) (fun q p => F.onGrid F.ustars q p * F.factor q p) M
    (rotatePt (-(F.u + 90)) F.grid.origin (F.g j' i')).2 (rotatePt (-(F.u + 90)) F.grid.origin (F.g j' i')).1 hM (by
      intro q _ p _
      have a := regular_between F.R F.C hR hC _ _ hy hx F.ustars M (F.gc q p).2 (F.gc q p).1 hM hs
      have b := fenceFactor_range F.c1 F.intercept F.u F.grid.rows F.grid.cols (fun q p => (F.gc q p).1) (F.onGrid F.height) q p
      exact ⟨mul_nonneg a.1 b.1, (mul_le_of_le_one_right a.1 b.2).trans a.2⟩)
  rw [ho]
  unfold FenceIn.speed
  rw [abs_of_nonneg h.1]
  exact h.2

/-- Without fences the size of a uniform wind across the shore is kept, but its direction is turned by ninety degrees: on a
rectangular grid, with cells that are at least one and a half times those of the computational grid, every node gets
`(U cos u, -U sin u)`. -/
theorem C115_no_fence_turned (F : FenceIn) (hR : 3 ≤ F.R) (hC : 3 ≤ F.C) (ox oy hx hy U : ℝ)
    (hg : ∀ j i, F.g j i = (ox + i * hx, oy + j * hy)) (hhx : 1.5 * max (F.dx / 2) 0.25 ≤ hx)
    (hhy : 1.5 * max (F.dx / 2) 0.25 ≤ hy) (hd : F.dx ≤ 200) (hh : ∀ j < F.R, ∀ i < F.C, F.height j i = 0)
    (hU : ∀ j < F.R, ∀ i < F.C, F.ustars j i = U) (h0 : 0 < F.udir) (h1 : F.udir < 360) (h2 : F.udir ≠ 180) (j i : ℕ)
    (hj : j < F.R) (hi : i < F.C) :
    F.outS j i = U * Real.cos (F.udir / 180 * Real.pi) ∧ F.outN j i = -(U * Real.sin (F.udir / 180 * Real.pi)) ∧
      F.out j i = |U| := by
  have hg' : F.g = lattice ox oy hx 0 0 hy := by
    funext j i
    rw [hg]
    simp [lattice]
  have hu : F.u = F.udir := fenceTurn_id F.udir h0 h1 h2
  obtain ⟨j', i', a1, a2, a3, a4, h⟩ := copyEdges_at F.R F.C hR hC j i hj hi
  have hsp := speed_uniform F ox oy hx hy U hg' hhx hhy hd hh hU j' i' a1 a2 a3 a4
  have hS : F.outS j i = U * Real.cos (F.udir / 180 * Real.pi) := by
    unfold FenceIn.outS; rw [h, inner_eq, hsp, hu]
  have hN : F.outN j i = -(U * Real.sin (F.udir / 180 * Real.pi)) := by
    unfold FenceIn.outN; rw [h, inner_eq, hsp, hu]
  refine ⟨hS, hN, ?_⟩
  unfold FenceIn.out
  rw [hS, hN, show (U * Real.cos (F.udir / 180 * Real.pi)) ^ 2 + (-(U * Real.sin (F.udir / 180 * Real.pi))) ^ 2 = U ^ 2 by
    have := Real.cos_sq_add_sin_sq (F.udir / 180 * Real.pi); linear_combination U ^ 2 * this, Real.sqrt_sq_eq_abs]

/-- In particular an onshore wind (from 270 degrees) comes out as a wind along the shore. -/
theorem C115_onshore_becomes_alongshore (F : FenceIn) (hR : 3 ≤ F.R) (hC : 3 ≤ F.C) (ox oy hx hy U : ℝ)
    (hg : ∀ j i, F.g j i = (ox + i * hx, oy + j * hy)) (hhx : 1.5 * max (F.dx / 2) 0.25 ≤ hx)
    (hhy : 1.5 * max (F.dx / 2) 0.25 ≤ hy) (hd : F.dx ≤ 200) (hh : ∀ j < F.R, ∀ i < F.C, F.height j i = 0)
    (hU : ∀ j < F.R, ∀ i < F.C, F.ustars j i = U) (h0 : F.udir = 270) (j i : ℕ) (hj : j < F.R) (hi : i < F.C) :
    F.outS j i = 0 ∧ F.outN j i = U := by
  obtain ⟨a, b, -⟩ := C115_no_fence_turned F hR hC ox oy hx hy U hg hhx hhy hd hh hU (by rw [h0]; norm_num) (by rw [h0]; norm_num)
    (by rw [h0]; norm_num) j i hj hi
  have e : F.udir / 180 * Real.pi = Real.pi / 2 + Real.pi := by rw [h0]; ring
  rw [a, b, e, Real.cos_add_pi, Real.sin_add_pi, Real.cos_pi_div_two, Real.sin_pi_div_two]
  constructor <;> ring

/-- The factor on the computational grid lies between zero and one, is one at the edges, and is one in a cell unless the row of
the computational grid holds a fence that is in front of the cell, closer than twenty times its height. -/
theorem C115_factor (F : FenceIn) (q p : ℕ) :
    (0 ≤ F.factor q p ∧ F.factor q p ≤ 1) ∧
    (q = 0 ∨ p = 0 ∨ q + 1 = F.grid.rows ∨ p + 1 = F.grid.cols → F.factor q p = 1) ∧
    (F.factor q p ≠ 1 → ∃ k < F.grid.cols, 0 < F.onGrid F.height q k ∧
      0 ≤ fenceAhead F.u (F.gc q k).1 (F.gc q p).1 ∧
      fenceAhead F.u (F.gc q k).1 (F.gc q p).1 < 20 * F.onGrid F.height q k) := by
  refine ⟨fenceFactor_range _ _ _ _ _ _ _ _ _, fun h => ?_, fun h => ?_⟩
  · unfold FenceIn.factor fenceFactor
    rw [if_pos h]
  · by_contra hc
    push Not at hc
    apply h
    apply fenceFactor_one
    intro k hk hpos
    by_cases h0 : 0 ≤ fenceAhead F.u (F.gc q k).1 (F.gc q p).1
    · exact Or.inr (hc k hk hpos h0)
    · exact Or.inl (not_le.mp h0)

/-- A single fence in the row, with the cell next to nothing else: the factor is that of Okin's model, with the reduction
set to zero below a hundred-thousandth. -/
theorem C115_one_fence (F : FenceIn) (q p k : ℕ) (hk : k < F.grid.cols) (hq : 0 < q) (hp : 0 < p) (hq' : q + 1 < F.grid.rows)
    (hp' : p + 1 < F.grid.cols) (hpos : 0 < F.onGrid F.height q k)
    (hother : ∀ k' < F.grid.cols, k' ≠ k → F.onGrid F.height q k' ≤ 0) (x : ℝ)
    (hx : fenceAhead F.u (F.gc q k).1 (F.gc q p).1 = x) (hx0 : 0 ≤ x) (hx20 : x < 20 * F.onGrid F.height q k)
    (h1 : F.intercept + (1 - F.intercept) * (1 - Real.exp (-x * F.c1 / F.onGrid F.height q k)) ≤ 0.99999)
    (h2 : 0 ≤ F.intercept + (1 - F.intercept) * (1 - Real.exp (-x * F.c1 / F.onGrid F.height q k))) :
    F.factor q p = F.intercept + (1 - F.intercept) * (1 - Real.exp (-x * F.c1 / F.onGrid F.height q k)) := by
  unfold FenceIn.factor fenceFactor
  rw [if_neg (by omega), fenceReduction_eq, Finset.sum_eq_single k]
  · rw [if_pos hpos, hx]
    have hred : reduction F.c1 F.intercept (F.onGrid F.height q k) x =
        1 - (F.intercept + (1 - F.intercept) * (1 - Real.exp (-x * F.c1 / F.onGrid F.height q k))) := by
      unfold reduction
      have h20 : x / F.onGrid F.height q k < 20 := (div_lt_iff₀ hpos).mpr hx20
      dsimp only
      rw [if_pos (show 0 ≤ x ∧ x / F.onGrid F.height q k < 20 from ⟨hx0, h20⟩)]
      generalize F.intercept + (1 - F.intercept) * (1 - Real.exp (-x * F.c1 / F.onGrid F.height q k)) = m at h1 h2 ⊢
      split_ifs <;> norm_num at * <;> linarith
    rw [hred, min_eq_right (by linarith)]
    ring
  · intro k' hk' hne
    rw [if_neg (not_lt.mpr (hother k' (Finset.mem_range.mp hk') hne))]
  · intro h
    exact absurd (Finset.mem_range.mpr hk) h

/-- The distance used is not the distance along the wind: cells `n` apart in a row of the computational grid, `n d` metres apart
along the wind, count as `-n d sin u` apart. -/
theorem C115_distance (F : FenceIn) (h0 : 0 < F.udir) (h1 : F.udir < 360) (h2 : F.udir ≠ 180) (q k p : ℕ) :
    fenceAhead F.u (F.gc q k).1 (F.gc q p).1 =
      ((p : ℝ) - k) * max (F.dx / 2) 0.25 * (if 180 < F.udir then -Real.sin (F.udir / 180 * Real.pi)
        else Real.sin (F.udir / 180 * Real.pi)) := by
  have hu : F.u = F.udir := fenceTurn_id F.udir h0 h1 h2
  have hg : ∀ p, (F.gc q p).1 = F.grid.origin.1 + (axisNode F.grid.xlo F.grid.dx p - F.grid.origin.1) *
      -Real.sin (F.udir / 180 * Real.pi) + (axisNode F.grid.ylo F.grid.dy q - F.grid.origin.2) * Real.cos (F.udir / 180 * Real.pi) := by
    intro p
    unfold FenceIn.gc
    rw [rotatePt_fst, hu, show (F.udir + 90) / 180 * Real.pi = F.udir / 180 * Real.pi + Real.pi / 2 by ring, Real.cos_add_pi_div_two,
      Real.sin_add_pi_div_two]
    show (axisNode F.grid.xlo F.grid.dx p - F.grid.origin.1) * _ + (axisNode F.grid.ylo F.grid.dy q - F.grid.origin.2) * _ + _ = _
    ring
  have hd : axisNode F.grid.xlo F.grid.dx p - axisNode F.grid.xlo F.grid.dx k = ((p : ℝ) - k) * max (F.dx / 2) 0.25 := by
    show axisNode F.grid.xlo (max (F.dx / 2) 0.25) p - axisNode F.grid.xlo (max (F.dx / 2) 0.25) k = _
    unfold axisNode
    ring
  unfold fenceAhead
  rw [hg, hg, hu]
  by_cases h : 180 < F.udir
  · rw [if_pos (show 180 ≤ F.udir ∧ F.udir ≤ 360 from ⟨h.le, h1.le⟩), if_pos h, ← hd]
    ring
  · rw [if_neg (show ¬ (180 ≤ F.udir ∧ F.udir ≤ 360) from fun h' => h (lt_of_le_of_ne h'.1 (Ne.symm h2))), if_neg h, ← hd]
    ring

/-! ### Cases that meet the conditions -/

/-- A grid of three by three nodes, two metres apart, and a wind from 270 degrees. -/
def smallField (height : ℕ → ℕ → ℝ) : FenceIn :=
  { R := 3, C := 3, g := fun j i => (0 + i * 2, 0 + j * 2), height := height, ustars := fun _ _ => 0.3, ustarn := fun _ _ => 0.1,
    dx := 2, udir := 270, c1 := 0.5, intercept := 0.2 }

example (j i : ℕ) : (smallField fun _ _ => 1).outS j i * -Real.sin (270 / 180 * Real.pi) +
    (smallField fun _ _ => 1).outN j i * -Real.cos (270 / 180 * Real.pi) = 0 :=
  C115_right_angle (smallField fun _ _ => 1) (by norm_num [smallField]) (by norm_num [smallField]) (by norm_num [smallField]) j i

example (j i : ℕ) (hj : j < 3) (hi : i < 3) : (smallField fun _ _ => 0).outS j i = 0 ∧ (smallField fun _ _ => 0).outN j i = 0.3 :=
  C115_onshore_becomes_alongshore (smallField fun _ _ => 0) le_rfl le_rfl 0 0 2 2 0.3 (fun _ _ => rfl)
    (by norm_num [smallField]) (by norm_num [smallField]) (by norm_num [smallField]) (fun _ _ _ _ => rfl) (fun _ _ _ _ => rfl) rfl
    j i hj hi

theorem smallField_grid (h : ℕ → ℕ → ℝ) : 2 ≤ (smallField h).grid.rows ∧ 2 ≤ (smallField h).grid.cols := by
  have := fenceGrid_covers (smallField h) (by norm_num [smallField]) (by norm_num [smallField]) 0 0 2 2 (by norm_num) (by norm_num)
    (by funext j i; simp [smallField, lattice]) (by norm_num [smallField]) 0 0 (by norm_num [smallField]) (by norm_num [smallField])
  exact ⟨this.1, this.2.1⟩

example (h : ℕ → ℕ → ℝ) (j i : ℕ) : (smallField h).out j i ≤ 0.3 := by
  have hm : StrictMono fun i : ℕ => (0 : ℝ) + i * 2 := by
    intro a b hab
    have : (a : ℝ) < b := by exact_mod_cast hab
    beta_reduce
    linarith
  exact C115_no_more (smallField h) (by norm_num [smallField]) (by norm_num [smallField]) hm hm (smallField_grid h).1
    (smallField_grid h).2 0.3 (by norm_num) (fun _ _ _ _ => ⟨by norm_num [smallField], le_rfl⟩) j i

/-- A fence of one metre at the node in the middle; the cells of the computational grid are as large as those of the model. -/
def loneFence : FenceIn := { smallField (fun j i => if j = 1 ∧ i = 1 then 1 else 0) with dx := 4 }

theorem loneFence_extent : 205 ≤ fenceExtent 3 3 loneFence.g ∧ fenceExtent 3 3 loneFence.g ≤ 206 := by
  have h : fenceExtent 3 3 loneFence.g = Real.sqrt 32 + 200 := by
    unfold fenceExtent arrayMax
    simp only [loneFence, smallField, List.range, List.range.loop, List.foldl_cons, List.foldl_nil]
    norm_num
  have h1 : (5 : ℝ) ≤ Real.sqrt 32 := Real.le_sqrt_of_sq_le (by norm_num)
  have h2 : Real.sqrt 32 ≤ 6 := Real.sqrt_le_iff.mpr ⟨by norm_num, by norm_num⟩
  rw [h]
  constructor <;> linarith

theorem loneFence_origin : loneFence.grid.origin = (2, 2) := by
  show centre 3 3 loneFence.g = _
  have : loneFence.g = lattice 0 0 2 0 0 2 := by funext j i; simp [loneFence, smallField, lattice]
  rw [this, centre_lattice 3 3 (by norm_num) (by norm_num)]
  norm_num

theorem loneFence_step : max (loneFence.dx / 2) 0.25 = 2 := by
  show max ((4 : ℝ) / 2) 0.25 = 2
  norm_num

theorem loneFence_axis : axisStart (2 - fenceExtent 3 3 loneFence.g / 2) 2 = -102 ∧
    axisCount (2 - fenceExtent 3 3 loneFence.g / 2) (2 + fenceExtent 3 3 loneFence.g / 2) 2 = 104 := by
  obtain ⟨h1, h2⟩ := loneFence_extent
  have a : ⌊(2 - fenceExtent 3 3 loneFence.g / 2) / 2⌋ = -51 := by
    rw [Int.floor_eq_iff]; push_cast; constructor <;> linarith
  have b : ⌈(2 + fenceExtent 3 3 loneFence.g / 2) / 2⌉ = 53 := by
    rw [Int.ceil_eq_iff]; push_cast; constructor <;> linarith
  constructor
  · unfold axisStart; rw [a]; norm_num
  · rw [axisCount_eq _ _ _ (by norm_num), a, b]; rfl

theorem loneFence_gc (q p : ℕ) : loneFence.gc q p = ((-102 : ℝ) + (p : ℝ) * 2, (-102 : ℝ) + (q : ℝ) * 2) := by
  have hu : loneFence.u = 270 := fenceTurn_id 270 (by norm_num) (by norm_num) (by norm_num)
  have hn : loneFence.grid.node q p = ((-102 : ℝ) + (p : ℝ) * 2, (-102 : ℝ) + (q : ℝ) * 2) := by
    have ho := loneFence_origin
    have o1 : (centre 3 3 loneFence.g) = (2, 2) := ho
    show (axisNode ((centre 3 3 loneFence.g).1 - fenceExtent 3 3 loneFence.g / 2) (max (loneFence.dx / 2) 0.25) p,
      axisNode ((centre 3 3 loneFence.g).2 - fenceExtent 3 3 loneFence.g / 2) (max (loneFence.dx / 2) 0.25) q) = _
    rw [o1, loneFence_step]
    unfold axisNode
    rw [loneFence_axis.1]
  unfold FenceIn.gc
  have e : (270 + 90 : ℝ) / 180 * Real.pi = 2 * Real.pi := by ring
  rw [hu, hn]
  ext
  · rw [rotatePt_fst, e, Real.cos_two_pi, Real.sin_two_pi]; ring
  · rw [rotatePt_snd, e, Real.cos_two_pi, Real.sin_two_pi]; ring

theorem loneFence_size : loneFence.grid.rows = 104 ∧ loneFence.grid.cols = 104 := by
  have o1 : (centre 3 3 loneFence.g) = (2, 2) := loneFence_origin
  constructor
  · show axisCount ((centre 3 3 loneFence.g).2 - fenceExtent 3 3 loneFence.g / 2)
      ((centre 3 3 loneFence.g).2 + fenceExtent 3 3 loneFence.g / 2) (max (loneFence.dx / 2) 0.25) = _
    rw [o1, loneFence_step]; exact loneFence_axis.2
  · show axisCount ((centre 3 3 loneFence.g).1 - fenceExtent 3 3 loneFence.g / 2)
      ((centre 3 3 loneFence.g).1 + fenceExtent 3 3 loneFence.g / 2) (max (loneFence.dx / 2) 0.25) = _
    rw [o1, loneFence_step]; exact loneFence_axis.2

theorem loneFence_height (k : ℕ) : loneFence.onGrid loneFence.height 52 k = if k = 52 then 1 else 0 := by
  have hm : StrictMono fun i : ℕ => (0 : ℝ) + i * 2 := by
    intro a b hab
    have : (a : ℝ) < b := by exact_mod_cast hab
    beta_reduce
    linarith
  show regular 3 3 (fun j : ℕ => (0 : ℝ) + j * 2) (fun i : ℕ => (0 : ℝ) + i * 2) (fun j i => if j = 1 ∧ i = 1 then 1 else 0) 0
    (loneFence.gc 52 k).2 (loneFence.gc 52 k).1 = _
  rw [loneFence_gc]
  by_cases h : k = 51 ∨ k = 52 ∨ k = 53
  · rcases h with rfl | rfl | rfl
    · rw [regular_cell 3 3 _ _ hm hm _ _ _ _ 1 0 (by norm_num) (by norm_num) (by norm_num) (by norm_num) (by norm_num) (by norm_num)]
      norm_num [blend, position]
    · rw [regular_cell 3 3 _ _ hm hm _ _ _ _ 1 1 (by norm_num) (by norm_num) (by norm_num) (by norm_num) (by norm_num) (by norm_num)]
      norm_num [blend, position]
    · rw [regular_cell 3 3 _ _ hm hm _ _ _ _ 1 1 (by norm_num) (by norm_num) (by norm_num) (by norm_num) (by norm_num) (by norm_num)]
      norm_num [blend, position]
  · rw [if_neg (by omega)]
    unfold regular
    rw [if_pos]
    rcases lt_or_gt_of_ne (show k ≠ 52 by omega) with h' | h'
    · have : (k : ℝ) ≤ 50 := by exact_mod_cast (show k ≤ 50 by omega)
      right; right; left
      push_cast
      linarith
    · have : (54 : ℝ) ≤ k := by exact_mod_cast (show 54 ≤ k by omega)
      right; right; right
      push_cast
      linarith

/-- Two metres behind the fence of one metre. -/
example : loneFence.factor 52 53 = 0.2 + (1 - 0.2) * (1 - Real.exp (-2 * 0.5 / 1)) := by
  have hu : loneFence.u = 270 := fenceTurn_id 270 (by norm_num) (by norm_num) (by norm_num)
  have hH : loneFence.onGrid loneFence.height 52 52 = 1 := by rw [loneFence_height, if_pos rfl]
  have he : Real.exp (-2 * 0.5 / 1) = Real.exp (-1) := by norm_num
  have h := C115_one_fence loneFence 52 53 52 (by rw [loneFence_size.2]; norm_num) (by norm_num) (by norm_num)
    (by rw [loneFence_size.1]; norm_num) (by rw [loneFence_size.2]; norm_num) (by rw [hH]; norm_num)
    (fun k' _ hne => by rw [loneFence_height, if_neg hne]) 2
    (by rw [hu, loneFence_gc, loneFence_gc]; unfold fenceAhead; norm_num) (by norm_num) (by rw [hH]; norm_num)
    (by
      rw [hH]
      show (0.2 : ℝ) + (1 - 0.2) * (1 - Real.exp (-2 * 0.5 / 1)) ≤ _
      rw [he]
      have := Real.exp_neg_one_gt_d9
      norm_num at this ⊢
      linarith)
    (by
      rw [hH]
      show _ ≤ (0.2 : ℝ) + (1 - 0.2) * (1 - Real.exp (-2 * 0.5 / 1))
      rw [he]
      have := Real.exp_neg_one_lt_d9
      norm_num at this ⊢
      linarith)
  rw [hH] at h
  exact h

end

/-- With wind along the shore only, all shear is lost. -/
example (j i : ℕ) : (withShear (smallField fun _ _ => 1) (fun _ _ => 0) (fun _ _ => 0.3)).out j i = 0 :=
  (C115_alongshore_lost _ (fun _ _ => rfl) j i).2.2

/-- Without fences the shear of a wind from 300 degrees is turned, not changed in size. -/
example (j i : ℕ) (hj : j < 3) (hi : i < 3) : ({ smallField (fun _ _ => 0) with udir := 300 } : FenceIn).out j i = |0.3| :=
  (C115_no_fence_turned { smallField (fun _ _ => 0) with udir := 300 } le_rfl le_rfl 0 0 2 2 0.3 (fun _ _ => rfl)
    (by norm_num [smallField]) (by norm_num [smallField]) (by norm_num [smallField]) (fun _ _ _ _ => rfl) (fun _ _ _ _ => rfl)
    (by norm_num) (by norm_num) (by norm_num) j i hj hi).2.2

/-- Distances behind a fence on the computational grid of the lone fence: two cells of 2 m. -/
example (q k : ℕ) : fenceAhead loneFence.u (loneFence.gc q k).1 (loneFence.gc q (k + 2)).1 = 4 * -Real.sin (270 / 180 * Real.pi) := by
  rw [C115_distance loneFence (by norm_num [loneFence, smallField]) (by norm_num [loneFence, smallField]) (by norm_num [loneFence, smallField])]
  have : (180 : ℝ) < loneFence.udir := by norm_num [loneFence, smallField]
  rw [if_pos this]
  have h : loneFence.dx = 4 := rfl
  have hu : loneFence.udir = 270 := rfl
  rw [h, hu]
  push_cast
  norm_num

end Aeolis.Props
