import Verif.Proofs.Utils
import Verif.Model.Rotate

/-! C11 (normalize), C12 (tiny negatives), C13 (masks), C14 (rotation), C15 (mean grain size). -/

set_option linter.unusedSectionVars false

namespace Aeolis.Props

open Finset

section
variable {K : Type*} [Field K] [LinearOrder K] [IsStrictOrderedRing K] {n : ℕ}

/-! ### C11 -/

/-- C11: sums to one iff possible; the fill value everywhere when the sum is zero. -/
theorem C11_normalize_sums_to_one (fill : K) (x : Fin n → K) :
    ((∑ i, x i) ≠ 0 → ∑ i, normalize fill x i = 1) ∧
    ((∑ i, x i) = 0 → ∀ i, normalize fill x i = fill) :=
  ⟨normalize_sum fill x, fun h i => normalize_zero fill x h i⟩

/-- C11: non-negative input with non-zero sum gives values in `[0,1]`. -/
theorem C11_normalize_in_unit_interval (fill : K) (x : Fin n → K) (h : ∀ i, 0 ≤ x i)
    (hs : (∑ i, x i) ≠ 0) (i : Fin n) : 0 ≤ normalize fill x i ∧ normalize fill x i ≤ 1 := by
  have hpos : 0 < ∑ i, x i := lt_of_le_of_ne (Finset.sum_nonneg fun j _ => h j) (Ne.symm hs)
  unfold normalize
  rw [if_pos hs]
  exact ⟨div_nonneg (h i) hpos.le,
    (div_le_one hpos).mpr (Finset.single_le_sum (fun j _ => h j) (Finset.mem_univ i))⟩

/-- C11: ratios are preserved. -/
theorem C11_normalize_keeps_ratios (fill : K) (x : Fin n → K) (hs : (∑ i, x i) ≠ 0) (i j : Fin n) :
    normalize fill x i * x j = normalize fill x j * x i := by
  unfold normalize; rw [if_pos hs, if_pos hs]; ring

/-- C11: normalising twice changes nothing (fill 0). -/
theorem C11_normalize_idempotent (x : Fin n → K) :
    normalize 0 (normalize 0 x) = normalize 0 x := by
  funext i
  by_cases hs : (∑ i, x i) = 0
  · have : normalize 0 x = fun _ => 0 := funext fun i => normalize_zero 0 x hs i
    rw [this]; simp [normalize]
  · have := normalize_sum 0 x hs
    have h2 : normalize 0 (normalize 0 x) i
        = if (∑ j, normalize 0 x j) ≠ 0 then normalize 0 x i / ∑ j, normalize 0 x j else 0 := rfl
    rw [h2, this]; simp

/-- C11: with a reference array. -/
theorem C11_normalize_reference (fill x ref : K) :
    (ref ≠ 0 → normalizeRef fill x ref * ref = x) ∧ (ref = 0 → normalizeRef fill x ref = fill) := by
  unfold normalizeRef
  exact ⟨fun h => by rw [if_pos h]; exact div_mul_cancel₀ x h, fun h => by simp [h]⟩

example : ∑ i, normalize (0 : ℚ) ![1, 3, 4] i = 1 :=
  (C11_normalize_sums_to_one 0 ![1, 3, 4]).1 (by simp [Fin.sum_univ_three]; norm_num)
example : ∀ i, normalize (7 : ℚ) ![1, -1] i = 7 :=
  (C11_normalize_sums_to_one 7 ![1, -1]).2 (by simp)

/-! ### C12 -/

/-- C12: exactly the entries strictly between `-max_error` and 0 are replaced. -/
theorem C12_exact (me r x : K) :
    ((-me < x ∧ x < 0) → preventTinyNegatives me r x = r) ∧
    (¬(-me < x ∧ x < 0) → preventTinyNegatives me r x = x) := by
  unfold preventTinyNegatives
  constructor
  · rintro ⟨h1, h2⟩; rw [if_pos ⟨h2, h1⟩]
  · intro h; rw [if_neg]; rintro ⟨h1, h2⟩; exact h ⟨h2, h1⟩

/-- C12 with replacement 0: idempotent, never decreases, moves by less than `max_error`, and any
remaining negative is at most `-max_error`. -/
theorem C12_zero_replacement (me x : K) (hme : 0 < me) :
    preventTinyNegatives me 0 (preventTinyNegatives me 0 x) = preventTinyNegatives me 0 x ∧
    x ≤ preventTinyNegatives me 0 x ∧
    |preventTinyNegatives me 0 x - x| < me ∧
    (preventTinyNegatives me 0 x < 0 → preventTinyNegatives me 0 x ≤ -me) := by
  unfold preventTinyNegatives
  by_cases h : x < 0 ∧ -me < x
  · simp only [h, and_self, if_true, lt_irrefl, false_and, if_false]
    refine ⟨trivial, h.1.le, ?_, fun h => h.elim⟩
    rw [abs_lt]; constructor <;> linarith [h.1, h.2]
  · simp only [if_neg h]
    refine ⟨trivial, le_rfl, by simpa using hme, fun h1 => ?_⟩
    by_contra h2
    exact h ⟨h1, not_le.mp h2⟩

example : preventTinyNegatives (1/100 : ℚ) 0 (-1/1000) = 0 := (C12_exact _ _ _).1 (by norm_num)
example : preventTinyNegatives (1/100 : ℚ) 0 (-1/100) = -1/100 := (C12_exact _ _ _).2 (by norm_num)

/-! ### C13 -/

/-- C13: real part multiplies, imaginary part is added, repeated over trailing dimensions. -/
theorem C13_mask_formula {C ι : Type*} (mask : C → K × K) (arr : C → ι → K) (c : C) (i : ι) :
    applyMaskArr mask arr c i = (mask c).1 * arr c i + (mask c).2 := by
  unfold applyMaskArr applyMask; ring

/-- C13: mask 1 is the identity; a purely imaginary mask replaces the entry. -/
theorem C13_mask_special (x im : K) : applyMask (1, 0) x = x ∧ applyMask (0, im) x = im := by
  unfold applyMask; constructor <;> simp

/-- C13: two masks in sequence are one mask. -/
theorem C13_masks_compose (m1 m2 : K × K) (x : K) :
    applyMask m2 (applyMask m1 x) = applyMask (m1.1 * m2.1, m1.2 * m2.1 + m2.2) x := by
  unfold applyMask; ring

example : applyMaskArr (C := Fin 2) (ι := Fin 3) (fun c => if c = 0 then ((1/2 : ℚ), 1) else (0, 5))
    (fun _ i => (i : ℚ)) 0 2 = 1/2 * 2 + 1 := by rw [C13_mask_formula]; simp

/-! ### C15 -/

/-- C15: mean grain size exists iff there is mass, and then lies in any interval containing all grain
sizes (in particular between the smallest and the largest). -/
theorem C15_mean_within_sizes (d mass : Fin n → K) (lo hi : K) (hd : ∀ i, lo ≤ d i ∧ d i ≤ hi)
    (hm : ∀ i, 0 ≤ mass i) (hs : ∃ i, mass i ≠ 0) :
    ∃ v, meanGrainSize d mass = some v ∧ lo ≤ v ∧ v ≤ hi := by
  have hpos : 0 < ∑ i, mass i := by
    obtain ⟨i, hi⟩ := hs
    exact Finset.sum_pos' (fun j _ => hm j) ⟨i, Finset.mem_univ i, lt_of_le_of_ne (hm i) (Ne.symm hi)⟩
  refine ⟨_, if_neg hpos.ne', ?_⟩
  have h1 : ∑ i, mass i / ∑ j, mass j = 1 := by rw [← Finset.sum_div, div_self hpos.ne']
  have hw : ∀ i, 0 ≤ mass i / ∑ j, mass j := fun i => div_nonneg (hm i) hpos.le
  constructor
  · calc lo = ∑ i, lo * (mass i / ∑ j, mass j) := by rw [← Finset.mul_sum, h1, mul_one]
      _ ≤ _ := Finset.sum_le_sum fun i _ => mul_le_mul_of_nonneg_right (hd i).1 (hw i)
  · calc _ ≤ ∑ i, hi * (mass i / ∑ j, mass j) :=
          Finset.sum_le_sum fun i _ => mul_le_mul_of_nonneg_right (hd i).2 (hw i)
      _ = hi := by rw [← Finset.mul_sum, h1, mul_one]

/-- C15: only one fraction present. -/
theorem C15_single_fraction (d mass : Fin n → K) (i : Fin n) (hi : mass i ≠ 0)
    (ho : ∀ j, j ≠ i → mass j = 0) : meanGrainSize d mass = some (d i) := by
  have hs : ∑ j, mass j = mass i := by
    rw [Finset.sum_eq_single i (fun j _ hj => ho j hj) (by simp)]
  unfold meanGrainSize
  rw [hs, if_neg hi]
  congr 1
  rw [Finset.sum_eq_single i (fun j _ hj => by rw [ho j hj]; simp) (by simp), div_self hi, mul_one]

/-- C15: scaling all masses changes nothing. -/
theorem C15_scale_invariant (d mass : Fin n → K) (c : K) (hc : c ≠ 0) :
    meanGrainSize d (fun i => c * mass i) = meanGrainSize d mass := by
  unfold meanGrainSize
  rw [← Finset.mul_sum]
  by_cases h : (∑ j, mass j) = 0
  · simp [h]
  · rw [if_neg (mul_ne_zero hc h), if_neg h]
    congr 1
    apply Finset.sum_congr rfl
    intro i _
    rw [mul_div_mul_left _ _ hc]

/-- C15: without mass there is no mean (numpy: nan). -/
theorem C15_no_mass (d mass : Fin n → K) (h : ∀ i, mass i = 0) : meanGrainSize d mass = none := by
  unfold meanGrainSize; simp [h]

example : ∃ v, meanGrainSize ![(1 : ℚ)/4, 1/2] ![3, 1] = some v ∧ 1/4 ≤ v ∧ v ≤ 1/2 :=
  C15_mean_within_sizes _ _ _ _ (by intro i; fin_cases i <;> norm_num)
    (by intro i; fin_cases i <;> norm_num) ⟨0, by norm_num⟩

end

/-! ### C14 -/

/-- C14: rotating back returns the point. -/
theorem C14_rotate_inverse (alpha : ℝ) (o pt : ℝ × ℝ) :
    rotatePt (-alpha) o (rotatePt alpha o pt) = pt := by
  unfold rotatePt
  have h := Real.sin_sq_add_cos_sq (alpha / 180 * Real.pi)
  simp only [neg_div, neg_mul, Real.cos_neg, Real.sin_neg]
  ext
  · simp only; linear_combination (pt.1 - o.1) * h
  · simp only; linear_combination (pt.2 - o.2) * h

/-- C14: distances are preserved. -/
theorem C14_rotate_isometry (alpha : ℝ) (o p q : ℝ × ℝ) :
    ((rotatePt alpha o p).1 - (rotatePt alpha o q).1) ^ 2
        + ((rotatePt alpha o p).2 - (rotatePt alpha o q).2) ^ 2
      = (p.1 - q.1) ^ 2 + (p.2 - q.2) ^ 2 := by
  unfold rotatePt
  have h := Real.sin_sq_add_cos_sq (alpha / 180 * Real.pi)
  simp only
  linear_combination ((p.1 - q.1) ^ 2 + (p.2 - q.2) ^ 2) * h

/-- C14: angles add. -/
theorem C14_rotate_add (a b : ℝ) (o pt : ℝ × ℝ) :
    rotatePt a o (rotatePt b o pt) = rotatePt (a + b) o pt := by
  unfold rotatePt
  simp only [add_div, add_mul, Real.cos_add, Real.sin_add]
  ext <;> simp only <;> ring

/-- C14: the origin is fixed, angle 0 is the identity, 90 degrees turns the y-axis onto the
x-axis. -/
theorem C14_rotate_fixed (alpha : ℝ) (o pt : ℝ × ℝ) :
    rotatePt alpha o o = o ∧ rotatePt 0 o pt = pt ∧ rotatePt 90 (0, 0) (0, 1) = (1, 0) := by
  refine ⟨?_, ?_, ?_⟩
  · unfold rotatePt; ext <;> simp
  · unfold rotatePt; ext <;> simp
  · unfold rotatePt
    rw [show (90 : ℝ) / 180 * Real.pi = Real.pi / 2 by ring]
    ext <;> simp

/-- C14: the mean of a grid moves with the grid. -/
theorem C14_rotate_mean {ι : Type*} [Fintype ι] [Nonempty ι] (alpha : ℝ) (o : ℝ × ℝ)
    (g : ι → ℝ × ℝ) : gridMean (rotateGrid alpha o g) = rotatePt alpha o (gridMean g) := by
  have hN : (Fintype.card ι : ℝ) ≠ 0 := by exact_mod_cast Fintype.card_ne_zero
  unfold gridMean rotateGrid rotatePt
  ext
  · simp only [Finset.sum_add_distrib, ← Finset.sum_mul, Finset.sum_sub_distrib, Finset.sum_const,
      Finset.card_univ, nsmul_eq_mul]
    field_simp
  · simp only [Finset.sum_add_distrib, ← Finset.sum_mul, Finset.sum_sub_distrib, Finset.sum_const,
      Finset.card_univ, nsmul_eq_mul]
    field_simp

example : rotatePt (-30) (1, 2) (rotatePt 30 (1, 2) (5, -3)) = (5, -3) := C14_rotate_inverse 30 _ _

end Aeolis.Props
