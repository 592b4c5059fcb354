import Verif.Model.Avalanche
import Verif.Proofs.Run
import Mathlib.Algebra.BigOperators.Group.Finset.Basic
import Mathlib.Algebra.BigOperators.Intervals
import Mathlib.Analysis.Calculus.Deriv.MeanValue
import Mathlib.Tactic

set_option linter.unusedSectionVars false

namespace Aeolis.Ava

open Finset

/-! ### tanh -/

theorem tanh_sub (x y : ℝ) :
    Real.tanh y - Real.tanh x = Real.sinh (y - x) / (Real.cosh x * Real.cosh y) := by
  have hx := (Real.cosh_pos x).ne'
  have hy := (Real.cosh_pos y).ne'
  rw [Real.tanh_eq_sinh_div_cosh, Real.tanh_eq_sinh_div_cosh, Real.sinh_sub]
  field_simp

theorem tanh_strictMono : StrictMono Real.tanh := by
  intro x y h
  have : 0 < Real.tanh y - Real.tanh x := by
    rw [tanh_sub]
    exact div_pos (Real.sinh_pos_iff.mpr (sub_pos.mpr h))
      (mul_pos (Real.cosh_pos x) (Real.cosh_pos y))
  linarith

theorem tanh_nonneg {x : ℝ} (h : 0 ≤ x) : 0 ≤ Real.tanh x := by
  have := tanh_strictMono.monotone h
  rwa [Real.tanh_zero] at this

theorem tanh_pos {x : ℝ} (h : 0 < x) : 0 < Real.tanh x := by
  have := tanh_strictMono h
  rwa [Real.tanh_zero] at this

theorem tanh_sub_le {x y : ℝ} (h : x ≤ y) : Real.tanh y - Real.tanh x ≤ y - x := by
  have hmono : Monotone (fun x => x - Real.tanh x) := by
    apply monotone_of_deriv_nonneg
    · intro x
      have : DifferentiableAt ℝ (fun x => Real.sinh x / Real.cosh x) x :=
        (Real.differentiable_sinh x).div (Real.differentiable_cosh x) (Real.cosh_pos x).ne'
      have h2 : (fun x => x - Real.tanh x) = fun x => x - Real.sinh x / Real.cosh x := by
        funext x; rw [Real.tanh_eq_sinh_div_cosh]
      rw [h2]
      exact differentiableAt_id.sub this
    · intro x
      have h2 : (fun x => x - Real.tanh x) = fun x => x - Real.sinh x / Real.cosh x := by
        funext x; rw [Real.tanh_eq_sinh_div_cosh]
      rw [h2]
      have hc := Real.cosh_pos x
      have h1 : HasDerivAt (fun x => x - Real.sinh x / Real.cosh x)
          (1 - (Real.cosh x * Real.cosh x - Real.sinh x * Real.sinh x) / Real.cosh x ^ 2) x :=
        (hasDerivAt_id x).sub
          ((Real.hasDerivAt_sinh x).div (Real.hasDerivAt_cosh x) hc.ne')
      rw [h1.deriv]
      have h3 : Real.cosh x * Real.cosh x - Real.sinh x * Real.sinh x = 1 := by
        have := Real.cosh_sq_sub_sinh_sq x; nlinarith
      rw [h3, sub_nonneg, div_le_one (by positivity)]
      nlinarith [Real.one_le_cosh x]
  have := hmono h
  simp only at this
  linarith

/-! ### Gradients -/

theorem downGrad_eq (b c f : ℝ) :
    downGrad b c f = if f > c ∧ b > c then 0 else if f > b then -(c - b) else c - f := rfl

theorem downGrad_abs_le (b c f D : ℝ) (hb : |c - b| ≤ D) (hf : |c - f| ≤ D) :
    |downGrad b c f| ≤ D := by
  have h0 : 0 ≤ D := (abs_nonneg _).trans hb
  rw [downGrad_eq]
  split
  · simpa using h0
  · split
    · rwa [abs_neg]
    · exact hf

/-- Towards a neighbour that is not lower there is no positive gradient. -/
theorem downGrad_nonpos (b c f : ℝ) (h : c ≤ f) : downGrad b c f ≤ 0 := by
  rw [downGrad_eq]
  split
  · exact le_rfl
  · rename_i h1
    split
    · rename_i h2
      by_cases hb : b > c
      · by_cases hf : f > c
        · exact absurd ⟨hf, hb⟩ h1
        · linarith [not_lt.mp hf]
      · linarith [not_lt.mp hb]
    · linarith

/-- Away from a neighbour that is not lower there is no negative gradient. -/
theorem downGrad_nonneg (b c f : ℝ) (h : c ≤ b) : 0 ≤ downGrad b c f := by
  rw [downGrad_eq]
  split
  · exact le_rfl
  · rename_i h1
    split
    · linarith
    · rename_i h2
      by_contra hneg
      push Not at hneg h2
      exact h1 ⟨by linarith, by linarith⟩

theorem gradDown_not_inner (p : Params) (zb : Grid) (k : Fin 4) (i j : ℕ)
    (h : ¬ (1 ≤ j ∧ j < p.mx)) : gradDown p zb k i j = 0 := by
  fin_cases k <;> simp only [gradDown] <;> rw [if_neg]
  · exact fun e => h e.1
  · exact fun e => h e.2
  · exact fun e => h e.1
  · exact fun e => h e.2

theorem gradDown_not_innerRow (p : Params) (zb : Grid) (k : Fin 4) (i j : ℕ) (hm : p.my ≠ 0)
    (h : ¬ (1 ≤ i ∧ i < p.my)) : gradDown p zb k i j = 0 := by
  fin_cases k <;> simp only [gradDown] <;> rw [if_neg]
  · exact fun e => h (e.2.resolve_left hm)
  · exact fun e => h e.1
  · exact fun e => h (e.2.resolve_left hm)
  · exact fun e => h e.1

theorem gradDown_y_transect (p : Params) (zb : Grid) (k : Fin 4) (i j : ℕ) (hm : p.my = 0)
    (hk : k = 1 ∨ k = 3) : gradDown p zb k i j = 0 := by
  rcases hk with rfl | rfl <;> simp only [gradDown] <;> rw [if_neg] <;>
    · rintro ⟨h, -⟩; omega

theorem flux_of_grad_zero (p : Params) (zb : Grid) (k : Fin 4) (i j : ℕ)
    (h : gradDown p zb k i j = 0) : flux p zb k i j = 0 := by
  unfold flux; rw [h]; simp

theorem flux_eq (p : Params) (zb : Grid) (k : Fin 4) (i j : ℕ) :
    flux p zb k i j = if gradH p zb i j ≠ 0 then
      slopeDiff p zb i j * gradDown p zb k i j / gradH p zb i j else 0 := by
  by_cases h : p.my = 0 ∧ (k = 1 ∨ k = 3)
  · rw [flux_of_grad_zero _ _ _ _ _ (gradDown_y_transect p zb k i j h.1 h.2),
      gradDown_y_transect p zb k i j h.1 h.2]
    simp
  · unfold flux; rw [if_neg h]

/-- Sand leaving cell `(i,j)` for the next column, previous column, next row, previous row. -/
noncomputable def toE (p : Params) (zb : Grid) (i j : ℕ) : ℝ :=
  0.5 * (max (flux p zb 0 i j) 0 - min (flux p zb 2 i j) 0)
noncomputable def toW (p : Params) (zb : Grid) (i j : ℕ) : ℝ :=
  0.5 * (max (flux p zb 2 i j) 0 - min (flux p zb 0 i j) 0)
noncomputable def toN (p : Params) (zb : Grid) (i j : ℕ) : ℝ :=
  0.5 * (max (flux p zb 1 i j) 0 - min (flux p zb 3 i j) 0)
noncomputable def toS (p : Params) (zb : Grid) (i j : ℕ) : ℝ :=
  0.5 * (max (flux p zb 3 i j) 0 - min (flux p zb 1 i j) 0)

theorem part_nonneg (x y : ℝ) : 0 ≤ 0.5 * (max x 0 - min y 0) := by
  have := le_max_right x 0
  have := min_le_right y 0
  linarith

theorem abs_eq_parts (x : ℝ) : |x| = max x 0 - min x 0 := by
  rcases le_total 0 x with h | h
  · rw [abs_of_nonneg h, max_eq_left h, min_eq_right h, sub_zero]
  · rw [abs_of_nonpos h, max_eq_right h, min_eq_left h, zero_sub]

theorem qOut_eq (p : Params) (zb : Grid) (i j : ℕ) :
    qOut p zb i j = toE p zb i j + toW p zb i j + toN p zb i j + toS p zb i j := by
  unfold qOut toE toW toN toS
  by_cases h : p.my = 0
  · rw [if_pos h, flux_of_grad_zero p zb 1 i j (gradDown_y_transect p zb 1 i j h (by simp)),
      flux_of_grad_zero p zb 3 i j (gradDown_y_transect p zb 3 i j h (by simp))]
    simp only [abs_eq_parts, max_self, min_self]; ring
  · rw [if_neg h]; simp only [abs_eq_parts]; ring

theorem parts_zero {p : Params} {zb : Grid} {i j : ℕ}
    (h : ∀ k, gradDown p zb k i j = 0) :
    toE p zb i j = 0 ∧ toW p zb i j = 0 ∧ toN p zb i j = 0 ∧ toS p zb i j = 0 := by
  have h' := fun k => flux_of_grad_zero p zb k i j (h k)
  unfold toE toW toN toS
  simp [h']

/-- Inner cells. -/
def inner (p : Params) (i j : ℕ) : Prop :=
  (p.my = 0 ∧ i = 0 ∨ 1 ≤ i ∧ i < p.my) ∧ 1 ≤ j ∧ j < p.mx

open Classical in
theorem qIn_eq (p : Params) (zb : Grid) (i j : ℕ) :
    qIn p zb i j = if inner p i j then
      toE p zb i (j - 1) + toW p zb i (j + 1) + (if p.my = 0 then 0 else
        toN p zb (i - 1) j + toS p zb (i + 1) j) else 0 := by
  unfold qIn inner toE toW toN toS
  by_cases h : p.my = 0
  · by_cases h2 : i = 0 ∧ 1 ≤ j ∧ j < p.mx
    · simp only [h, if_true, h2, true_and, and_self, true_or, add_zero]; ring
    · simp only [h, if_true, h2, if_false]
      rw [if_neg]
      rintro ⟨h3 | h3, h4⟩
      · exact h2 ⟨h3.2, h4⟩
      · omega
  · by_cases h2 : (1 ≤ i ∧ i < p.my) ∧ 1 ≤ j ∧ j < p.mx
    · simp only [h, if_false, h2, and_self, or_true, if_true]; ring
    · simp only [h, if_false, h2, false_and, false_or]

theorem row_sum (m : ℕ) (r l : ℕ → ℝ) (hr : ∀ j, ¬ (1 ≤ j ∧ j < m) → r j = 0)
    (hl : ∀ j, ¬ (1 ≤ j ∧ j < m) → l j = 0) :
    ∑ j ∈ range (m + 1), (if 1 ≤ j ∧ j < m then r (j - 1) + l (j + 1) else 0)
      = ∑ j ∈ range (m + 1), (r j + l j) - (r (m - 1) + l 1) := by
  cases m with
  | zero => simp [hr, hl]
  | succ n =>
    have h1 : ∑ j ∈ range (n + 2), (if 1 ≤ j ∧ j < n + 1 then r (j - 1) + l (j + 1) else 0)
        = ∑ j ∈ range n, (r j + l (j + 2)) := by
      rw [sum_range_succ, sum_range_succ']
      rw [if_neg (by omega), if_neg (by omega), add_zero, add_zero]
      refine sum_congr rfl fun j hj => ?_
      rw [mem_range] at hj
      rw [if_pos (by omega)]
      rfl
    rw [h1, sum_add_distrib, sum_add_distrib, sum_range_succ r (n + 1), sum_range_succ r n,
      sum_range_succ' l (n + 1), sum_range_succ' (fun j => l (j + 1)) n, hr (n + 1) (by omega),
      hl 0 (by omega)]
    simp only [Nat.add_sub_cancel]
    ring

theorem row_sum_guard (m : ℕ) (g : Prop) [Decidable g] (r l : ℕ → ℝ)
    (hr : ∀ j, ¬ (1 ≤ j ∧ j < m) → r j = 0) (hl : ∀ j, ¬ (1 ≤ j ∧ j < m) → l j = 0)
    (hg : ¬ g → ∀ j, r j = 0 ∧ l j = 0) :
    ∑ j ∈ range (m + 1), (if g ∧ 1 ≤ j ∧ j < m then r (j - 1) + l (j + 1) else 0)
      = ∑ j ∈ range (m + 1), (r j + l j) - (r (m - 1) + l 1) := by
  by_cases h : g
  · simp only [h, true_and]; exact row_sum m r l hr hl
  · simp [h, hg h]

/-- The total of a grid. -/
noncomputable def total (p : Params) (zb : Grid) : ℝ :=
  ∑ i ∈ range (p.my + 1), ∑ j ∈ range (p.mx + 1), zb i j

open Classical in
theorem sum_qIn (p : Params) (zb : Grid) :
    total p (qIn p zb) = total p (qOut p zb)
      - (∑ i ∈ range (p.my + 1), (toE p zb i (p.mx - 1) + toW p zb i 1)
        + ∑ j ∈ range (p.mx + 1), (toN p zb (p.my - 1) j + toS p zb 1 j)) := by
  have zc : ∀ i j, ¬ (1 ≤ j ∧ j < p.mx) → toE p zb i j = 0 ∧ toW p zb i j = 0 ∧
      toN p zb i j = 0 ∧ toS p zb i j = 0 :=
    fun i j h => parts_zero fun k => gradDown_not_inner p zb k i j h
  have zr : p.my ≠ 0 → ∀ i j, ¬ (1 ≤ i ∧ i < p.my) → toE p zb i j = 0 ∧ toW p zb i j = 0 ∧
      toN p zb i j = 0 ∧ toS p zb i j = 0 :=
    fun hm i j h => parts_zero fun k => gradDown_not_innerRow p zb k i j hm h
  have zy : p.my = 0 → ∀ i j, toN p zb i j = 0 ∧ toS p zb i j = 0 := by
    intro h i j
    unfold toN toS
    rw [flux_of_grad_zero p zb 1 i j (gradDown_y_transect p zb 1 i j h (by simp)),
      flux_of_grad_zero p zb 3 i j (gradDown_y_transect p zb 3 i j h (by simp))]
    simp
  unfold total
  have e1 : ∑ i ∈ range (p.my + 1), ∑ j ∈ range (p.mx + 1), qIn p zb i j =
      ∑ i ∈ range (p.my + 1), ∑ j ∈ range (p.mx + 1),
        (if (p.my = 0 ∧ i = 0 ∨ 1 ≤ i ∧ i < p.my) ∧ 1 ≤ j ∧ j < p.mx then
          toE p zb i (j - 1) + toW p zb i (j + 1) else 0)
      + ∑ j ∈ range (p.mx + 1), ∑ i ∈ range (p.my + 1),
        (if (1 ≤ j ∧ j < p.mx) ∧ 1 ≤ i ∧ i < p.my then
          toN p zb (i - 1) j + toS p zb (i + 1) j else 0) := by
    rw [sum_comm (s := range (p.mx + 1)), ← sum_add_distrib]
    refine sum_congr rfl fun i _ => ?_
    rw [← sum_add_distrib]
    refine sum_congr rfl fun j _ => ?_
    rw [qIn_eq]
    unfold inner
    by_cases h : p.my = 0
    · have : ¬ (1 ≤ i ∧ i < p.my) := by omega
      simp [h]
    · by_cases h1 : 1 ≤ i ∧ i < p.my <;> by_cases h2 : 1 ≤ j ∧ j < p.mx <;> simp [h, h1, h2]
  have e2 : ∑ i ∈ range (p.my + 1), ∑ j ∈ range (p.mx + 1),
        (if (p.my = 0 ∧ i = 0 ∨ 1 ≤ i ∧ i < p.my) ∧ 1 ≤ j ∧ j < p.mx then
          toE p zb i (j - 1) + toW p zb i (j + 1) else 0)
      = ∑ i ∈ range (p.my + 1), (∑ j ∈ range (p.mx + 1), (toE p zb i j + toW p zb i j)
        - (toE p zb i (p.mx - 1) + toW p zb i 1)) := by
    refine sum_congr rfl fun i hi => ?_
    refine row_sum_guard p.mx _ (fun j => toE p zb i j) (fun j => toW p zb i j)
      (fun j h => (zc i j h).1) (fun j h => (zc i j h).2.1) ?_
    intro hg j
    rw [mem_range] at hi
    have hm : p.my ≠ 0 := by
      intro h0; exact hg (Or.inl ⟨h0, by omega⟩)
    have := zr hm i j (fun e => hg (Or.inr e))
    exact ⟨this.1, this.2.1⟩
  have e3 : ∑ j ∈ range (p.mx + 1), ∑ i ∈ range (p.my + 1),
        (if (1 ≤ j ∧ j < p.mx) ∧ 1 ≤ i ∧ i < p.my then
          toN p zb (i - 1) j + toS p zb (i + 1) j else 0)
      = ∑ j ∈ range (p.mx + 1), (∑ i ∈ range (p.my + 1), (toN p zb i j + toS p zb i j)
        - (toN p zb (p.my - 1) j + toS p zb 1 j)) := by
    refine sum_congr rfl fun j _ => ?_
    refine row_sum_guard p.my _ (fun i => toN p zb i j) (fun i => toS p zb i j) ?_ ?_ ?_
    · intro i h
      by_cases hm : p.my = 0
      · exact (zy hm i j).1
      · exact (zr hm i j h).2.2.1
    · intro i h
      by_cases hm : p.my = 0
      · exact (zy hm i j).2
      · exact (zr hm i j h).2.2.2
    · intro hg i
      exact ⟨(zc i j hg).2.2.1, (zc i j hg).2.2.2⟩
  rw [e1, e2, e3, sum_sub_distrib, sum_sub_distrib,
    sum_comm (s := range (p.mx + 1)) (t := range (p.my + 1))]
  have e4 : ∑ i ∈ range (p.my + 1), ∑ j ∈ range (p.mx + 1), qOut p zb i j =
      ∑ i ∈ range (p.my + 1), ∑ j ∈ range (p.mx + 1), (toE p zb i j + toW p zb i j)
      + ∑ i ∈ range (p.my + 1), ∑ j ∈ range (p.mx + 1), (toN p zb i j + toS p zb i j) := by
    rw [← sum_add_distrib]
    refine sum_congr rfl fun i _ => ?_
    rw [← sum_add_distrib]
    refine sum_congr rfl fun j _ => ?_
    rw [qOut_eq]; ring
  rw [e4]
  ring

theorem total_slide (p : Params) (zb : Grid) :
    total p (slide p zb) = total p zb - 0.2 *
      (∑ i ∈ range (p.my + 1), (toE p zb i (p.mx - 1) + toW p zb i 1)
        + ∑ j ∈ range (p.mx + 1), (toN p zb (p.my - 1) j + toS p zb 1 j)) := by
  have h : total p (slide p zb) = total p zb + 0.2 * (total p (qIn p zb) - total p (qOut p zb)) := by
    unfold total slide
    simp only [sum_add_distrib, ← mul_sum, sum_sub_distrib]
  rw [h, sum_qIn]
  ring

/-! ### Slopes -/

theorem gradH_nonneg (p : Params) (zb : Grid) (i j : ℕ) : 0 ≤ gradH p zb i j := Real.sqrt_nonneg _

theorem half_sum_abs_le (a b c d : ℝ) :
    0.5 * |a| + 0.5 * |b| + 0.5 * |c| + 0.5 * |d| ≤
      Real.sqrt 2 * Real.sqrt (0.5 * a ^ 2 + 0.5 * b ^ 2 + 0.5 * c ^ 2 + 0.5 * d ^ 2) := by
  rw [← Real.sqrt_mul (by norm_num)]
  apply Real.le_sqrt_of_sq_le
  rw [← sq_abs a, ← sq_abs b, ← sq_abs c, ← sq_abs d]
  nlinarith [sq_nonneg (|a| - |b|), sq_nonneg (|a| - |c|), sq_nonneg (|a| - |d|),
    sq_nonneg (|b| - |c|), sq_nonneg (|b| - |d|), sq_nonneg (|c| - |d|)]

theorem qOut_le (p : Params) (zb : Grid) (i j : ℕ) :
    qOut p zb i j ≤ Real.sqrt 2 * |slopeDiff p zb i j| := by
  have hs := abs_nonneg (slopeDiff p zb i j)
  have h2 : (0 : ℝ) ≤ Real.sqrt 2 := Real.sqrt_nonneg _
  have hq : qOut p zb i j = 0.5 * |flux p zb 0 i j| + 0.5 * |flux p zb 1 i j|
      + 0.5 * |flux p zb 2 i j| + 0.5 * |flux p zb 3 i j| := by
    unfold qOut
    by_cases h : p.my = 0
    · rw [if_pos h, flux_of_grad_zero p zb 1 i j (gradDown_y_transect p zb 1 i j h (by simp)),
        flux_of_grad_zero p zb 3 i j (gradDown_y_transect p zb 3 i j h (by simp))]
      simp
    · rw [if_neg h]
  rw [hq]
  simp only [flux_eq]
  by_cases h : gradH p zb i j = 0
  · simp only [h, ne_eq, not_true_eq_false, if_false, abs_zero, mul_zero, add_zero]
    positivity
  · simp only [ne_eq, h, not_false_eq_true, if_true]
    have hpos : 0 < gradH p zb i j := lt_of_le_of_ne (gradH_nonneg p zb i j) (Ne.symm h)
    simp only [abs_div, abs_mul, abs_of_pos hpos]
    have := half_sum_abs_le (gradDown p zb 0 i j) (gradDown p zb 1 i j) (gradDown p zb 2 i j)
      (gradDown p zb 3 i j)
    change _ ≤ Real.sqrt 2 * gradH p zb i j at this
    have e : 0.5 * (|slopeDiff p zb i j| * |gradDown p zb 0 i j| / gradH p zb i j)
        + 0.5 * (|slopeDiff p zb i j| * |gradDown p zb 1 i j| / gradH p zb i j)
        + 0.5 * (|slopeDiff p zb i j| * |gradDown p zb 2 i j| / gradH p zb i j)
        + 0.5 * (|slopeDiff p zb i j| * |gradDown p zb 3 i j| / gradH p zb i j)
        = |slopeDiff p zb i j| * (0.5 * |gradDown p zb 0 i j| + 0.5 * |gradDown p zb 1 i j|
          + 0.5 * |gradDown p zb 2 i j| + 0.5 * |gradDown p zb 3 i j|) / gradH p zb i j := by
      ring
    rw [e, div_le_iff₀ hpos]
    nlinarith

end Aeolis.Ava
