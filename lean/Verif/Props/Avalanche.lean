import Verif.Proofs.Avalanche
import Mathlib.Analysis.SpecialFunctions.Trigonometric.Bounds

/-!
Avalanching properties: C41 (when nothing happens), C42 (sand budget), C43 (iteration),
C80 (non-erodible layer).
-/

set_option linter.unusedSectionVars false

namespace Aeolis.Props

open Aeolis.Ava Finset

/-- Tangent of an angle of repose in degrees. -/
noncomputable def repose (angle : ℝ) : ℝ := Real.tan (angle * Real.pi / 180)

/-- Drop towards a neighbour per length, zero if that is higher. -/
noncomputable def drop (z z' d : ℝ) : ℝ := max 0 (z - z') / d

/-- Slope of a bed in a cell inside the grid: the drops towards the lower neighbours in row and column (on a transect: in the row) combined; zero on
the border. -/
noncomputable def steepness (p : Ava.Params) (zb : Grid) (i j : ℕ) : ℝ :=
  open Classical in
  if (1 ≤ j ∧ j < p.mx) ∧ (p.my = 0 ∨ 1 ≤ i ∧ i < p.my) then
    Real.sqrt (drop (zb i j) (min (zb i (j - 1)) (zb i (j + 1))) (p.ds i j) ^ 2 +
      if p.my = 0 then 0 else drop (zb i j) (min (zb (i - 1) j) (zb (i + 1) j)) (p.dn i j) ^ 2)
  else 0

/-- The two differences of a direction combine to the drop towards the lower neighbour. -/
theorem downGrad_sq (b c f : ℝ) : 0.5 * Ava.downGrad b c f ^ 2 + 0.5 * Ava.downGrad f c b ^ 2 = max 0 (c - min b f) ^ 2 := by
  unfold Ava.downGrad
  rcases lt_trichotomy f b with h | h | h
  · rw [min_eq_right h.le]
    by_cases hp : f > c
    · have : b > c := hp.trans h
      simp only [hp, this, and_self, if_true]
      rw [max_eq_left (by linarith)]
      norm_num
    · rw [max_eq_right (by linarith)]
      simp only [hp, h, not_lt.mpr h.le, gt_iff_lt, false_and, and_false, if_false, if_true]
      ring
  · subst h
    rw [min_self]
    by_cases hp : f > c
    · simp only [hp, and_self, if_true]
      rw [max_eq_left (by linarith)]
      norm_num
    · rw [max_eq_right (by linarith)]
      simp only [hp, gt_iff_lt, lt_irrefl, false_and, and_false, if_false, if_true]
      ring
  · rw [min_eq_left h.le]
    by_cases hp : b > c
    · have : f > c := hp.trans h
      simp only [hp, this, and_self, if_true]
      rw [max_eq_left (by linarith)]
      norm_num
    · rw [max_eq_right (by linarith)]
      simp only [hp, h, not_lt.mpr h.le, gt_iff_lt, false_and, and_false, if_false, if_true]
      ring

theorem gradH_eq (p : Ava.Params) (zb : Grid) (i j : ℕ) : gradH p zb i j = steepness p zb i j := by
  unfold steepness
  by_cases hX : p.innerX i j
  · rw [if_pos (show (1 ≤ j ∧ j < p.mx) ∧ (p.my = 0 ∨ 1 ≤ i ∧ i < p.my) from hX)]
    unfold gradH gradDown
    by_cases h0 : p.my = 0
    · have hY : ¬ p.innerY i j := fun h => absurd h.1.2 (by omega)
      simp only [if_pos hX, if_neg hY, if_pos h0]
      congr 1
      unfold drop
      rw [div_pow (max 0 _), ← downGrad_sq]
      ring
    · have hY : p.innerY i j := ⟨hX.2.resolve_left h0, hX.1⟩
      simp only [if_pos hX, if_pos hY, if_neg h0]
      congr 1
      unfold drop
      rw [div_pow (max 0 _), div_pow (max 0 _), ← downGrad_sq, ← downGrad_sq]
      ring
  · have hY : ¬ p.innerY i j := fun h => hX ⟨h.2, Or.inr h.1⟩
    rw [if_neg (show ¬ ((1 ≤ j ∧ j < p.mx) ∧ (p.my = 0 ∨ 1 ≤ i ∧ i < p.my)) from hX)]
    unfold gradH gradDown
    simp only [if_neg hX, if_neg hY]
    norm_num

/-- Cells on the border of the grid (for a transect: its two ends). -/
def OnBorder (p : Ava.Params) (i j : ℕ) : Prop :=
  j = 0 ∨ j = p.mx ∨ (p.my ≠ 0 ∧ (i = 0 ∨ i = p.my))

/-! ### C41 -/

/-- C41: with avalanching off nothing changes. -/
theorem C41_off (p : Ava.Params) (zb : Grid) (h : p.process = false) : avalanche p zb = zb := by
  simp [avalanche, h]

/-- C41: if the bed level differs between neighbouring cells of a row by at most the slope `a`, and
of a column by at most the slope `b`, and the combined slope `√(a²+b²)` does not exceed the tangent
of the static angle of repose, then the bed is unchanged.  For a transect only rows matter. -/
theorem C41_gentle_slopes (p : Ava.Params) (zb : Grid) (a b : ℝ)
    (hds : ∀ i j, 0 < p.ds i j) (hdn : ∀ i j, 0 < p.dn i j)
    (hx : ∀ i j, i ≤ p.my → 1 ≤ j → j < p.mx → |zb i j - zb i (j - 1)| ≤ a * p.ds i j ∧
      |zb i j - zb i (j + 1)| ≤ a * p.ds i j)
    (hy : ∀ i j, 1 ≤ i → i < p.my → j ≤ p.mx → |zb i j - zb (i - 1) j| ≤ b * p.dn i j ∧
      |zb i j - zb (i + 1) j| ≤ b * p.dn i j)
    (h0 : 0 ≤ repose p.thetaStat) (hab : a ^ 2 + (if p.my = 0 then 0 else b ^ 2) ≤ repose p.thetaStat ^ 2) :
    avalanche p zb = zb := by
  rw [show repose p.thetaStat = p.tanStat from rfl] at h0 hab
  unfold avalanche
  split
  · rw [if_neg]
    rw [not_lt]
    obtain ⟨⟨i, j⟩, hij⟩ := exists_gridMax
      (fun c : Fin (p.my + 1) × Fin (p.mx + 1) => gradH p zb c.1 c.2)
    unfold maxGradH
    rw [hij]
    obtain ⟨i, hi⟩ := i
    obtain ⟨j, hj⟩ := j
    simp only
    have sqdiv : ∀ (g d c : ℝ), 0 < d → |g| ≤ c * d → (g / d) ^ 2 ≤ c ^ 2 := by
      intro g d c hd h
      have h1 : |g / d| ≤ c := by
        rw [abs_div, abs_of_pos hd, div_le_iff₀ hd]; exact h
      have := sq_le_sq' (by linarith [neg_abs_le (g / d)]) ((le_abs_self _).trans h1)
      exact this
    have gx : ∀ k : Fin 4, (k = 0 ∨ k = 2) → gradDown p zb k i j ^ 2 ≤ a ^ 2 := by
      intro k hk
      rcases hk with rfl | rfl <;> simp only [gradDown] <;> split
      · rename_i h
        have := hx i j (by omega) h.1.1 h.1.2
        exact sqdiv _ _ _ (hds i j) (downGrad_abs_le _ _ _ _ this.1 this.2)
      · rw [zero_pow two_ne_zero]; positivity
      · rename_i h
        have := hx i j (by omega) h.1.1 h.1.2
        exact sqdiv _ _ _ (hds i j) (downGrad_abs_le _ _ _ _ this.2 this.1)
      · rw [zero_pow two_ne_zero]; positivity
    have gy : ∀ k : Fin 4, (k = 1 ∨ k = 3) → gradDown p zb k i j ^ 2 ≤
        (if p.my = 0 then 0 else b ^ 2) := by
      intro k hk
      by_cases hm : p.my = 0
      · rw [gradDown_y_transect p zb k i j hm hk]; simp [hm]
      · rw [if_neg hm]
        rcases hk with rfl | rfl <;> simp only [gradDown] <;> split
        · rename_i h
          have := hy i j h.1.1 h.1.2 (by omega)
          exact sqdiv _ _ _ (hdn i j) (downGrad_abs_le _ _ _ _ this.1 this.2)
        · rw [zero_pow two_ne_zero]; positivity
        · rename_i h
          have := hy i j h.1.1 h.1.2 (by omega)
          exact sqdiv _ _ _ (hdn i j) (downGrad_abs_le _ _ _ _ this.2 this.1)
        · rw [zero_pow two_ne_zero]; positivity
    unfold gradH
    rw [Real.sqrt_le_left h0]
    have := gx 0 (by simp); have := gx 2 (by simp); have := gy 1 (by simp); have := gy 3 (by simp)
    linarith
  · rfl

theorem slide_border (p : Ava.Params) (zb : Grid) (i j : ℕ) (hi : i ≤ p.my) (hj : j ≤ p.mx)
    (h : OnBorder p i j) : slide p zb i j = zb i j := by
  have hz : ∀ k, gradDown p zb k i j = 0 := by
    intro k
    rcases h with h | h | ⟨hm, h⟩
    · exact gradDown_not_inner p zb k i j (by omega)
    · exact gradDown_not_inner p zb k i j (by omega)
    · exact gradDown_not_innerRow p zb k i j hm (by omega)
  have hi' : ¬ inner p i j := by
    rintro ⟨h1, h2⟩
    rcases h with h | h | ⟨hm, h⟩
    · omega
    · omega
    · rcases h1 with h1 | h1
      · exact hm h1.1
      · omega
  unfold slide
  rw [qOut_eq, qIn_eq, if_neg hi']
  obtain ⟨a, b, c, d⟩ := parts_zero hz
  rw [a, b, c, d]
  simp

/-- C41: avalanching never changes a cell on the border of the grid, whatever the bed. -/
theorem C41_border_fixed (p : Ava.Params) (zb : Grid) (i j : ℕ) (hi : i ≤ p.my) (hj : j ≤ p.mx)
    (h : OnBorder p i j) : avalanche p zb i j = zb i j := by
  have key : ∀ (n : ℕ) (zb : Grid), iterate p n zb i j = zb i j := by
    intro n
    induction n with
    | zero => intro zb; rfl
    | succ n ih =>
      intro zb
      unfold iterate
      split
      · rfl
      · rw [ih]; exact slide_border p zb i j hi hj h
  unfold avalanche
  split
  · split
    · exact key _ _
    · rfl
  · rfl

/-! ### C42 -/

theorem parts_nonneg (p : Ava.Params) (zb : Grid) (i j : ℕ) :
    0 ≤ toE p zb i j ∧ 0 ≤ toW p zb i j ∧ 0 ≤ toN p zb i j ∧ 0 ≤ toS p zb i j :=
  ⟨part_nonneg _ _, part_nonneg _ _, part_nonneg _ _, part_nonneg _ _⟩

/-- C42: every redistribution changes the summed bed level by exactly minus one fifth of the sand
that the outermost inner cells send towards the border (which is discarded).  A cell sends half its
flux in each of four directions to the neighbour the sign points at. -/
theorem C42_budget (p : Ava.Params) (zb : Grid) :
    ∑ i ∈ range (p.my + 1), ∑ j ∈ range (p.mx + 1), slide p zb i j =
    ∑ i ∈ range (p.my + 1), ∑ j ∈ range (p.mx + 1), zb i j - 1 / 5 *
      (∑ i ∈ range (p.my + 1),
        ((max (flux p zb 0 i (p.mx - 1)) 0 + max (-flux p zb 2 i (p.mx - 1)) 0) / 2
          + (max (flux p zb 2 i 1) 0 + max (-flux p zb 0 i 1) 0) / 2)
      + ∑ j ∈ range (p.mx + 1),
        ((max (flux p zb 1 (p.my - 1) j) 0 + max (-flux p zb 3 (p.my - 1) j) 0) / 2
          + (max (flux p zb 3 1 j) 0 + max (-flux p zb 1 1 j) 0) / 2)) := by
  have h := total_slide p zb
  unfold total toE toW toN toS at h
  have hm : ∀ x : ℝ, max (-x) 0 = - min x 0 := by
    intro x; rw [← neg_zero, max_neg_neg, neg_zero]
  simp only [hm]
  rw [h]
  norm_num
  congr 1
  · refine sum_congr rfl fun i _ => ?_; ring
  · refine sum_congr rfl fun i _ => ?_; ring

/-- C42: avalanching never increases the summed bed level, over any number of redistributions. -/
theorem C42_never_gains (p : Ava.Params) (zb : Grid) :
    ∑ i ∈ range (p.my + 1), ∑ j ∈ range (p.mx + 1), avalanche p zb i j ≤
    ∑ i ∈ range (p.my + 1), ∑ j ∈ range (p.mx + 1), zb i j := by
  change total p _ ≤ total p _
  have hs : ∀ zb, total p (slide p zb) ≤ total p zb := by
    intro zb
    rw [total_slide]
    have h1 := sum_nonneg (s := range (p.my + 1))
      (f := fun i => toE p zb i (p.mx - 1) + toW p zb i 1)
      (fun i _ => add_nonneg (parts_nonneg p zb i _).1 (parts_nonneg p zb i _).2.1)
    have h2 := sum_nonneg (s := range (p.mx + 1))
      (f := fun j => toN p zb (p.my - 1) j + toS p zb 1 j)
      (fun j _ => add_nonneg (parts_nonneg p zb _ j).2.2.1 (parts_nonneg p zb _ j).2.2.2)
    linarith
  have key : ∀ (n : ℕ) (zb : Grid), total p (iterate p n zb) ≤ total p zb := by
    intro n
    induction n with
    | zero => intro zb; exact le_rfl
    | succ n ih =>
      intro zb
      unfold iterate
      split
      · exact le_rfl
      · exact (ih _).trans (hs zb)
  unfold avalanche
  split
  · split
    · exact key _ _
    · exact le_rfl
  · exact le_rfl

theorem slopeDiff_nonneg (p : Ava.Params) (zb : Grid) (i j : ℕ) (hd : 0 ≤ p.tanDyn)
    (h : ∀ z, p.zne i j = some z → 0 ≤ (zb i j - z) / p.ds i j) : 0 ≤ slopeDiff p zb i j := by
  unfold slopeDiff
  match hz : p.zne i j with
  | none => exact le_rfl
  | some z =>
    simp only
    split
    · exact tanh_nonneg (h z hz)
    · split
      · rename_i h2
        have : 0.9 * p.tanDyn ≤ gradH p zb i j := by nlinarith [h2.1]
        have := tanh_strictMono.monotone this
        linarith
      · exact le_rfl

theorem flux_sign (p : Ava.Params) (zb : Grid) (k : Fin 4) (i j : ℕ)
    (hs : 0 ≤ slopeDiff p zb i j) :
    (0 ≤ gradDown p zb k i j → 0 ≤ flux p zb k i j) ∧
    (gradDown p zb k i j ≤ 0 → flux p zb k i j ≤ 0) := by
  rw [flux_eq]
  have hg := gradH_nonneg p zb i j
  constructor <;> intro h <;> split
  · exact div_nonneg (mul_nonneg hs h) hg
  · exact le_rfl
  · exact div_nonpos_of_nonpos_of_nonneg (mul_nonpos_of_nonneg_of_nonpos hs h) hg
  · exact le_rfl

/-- C42: a redistribution conserves the summed bed level if the bed is nowhere below the non-erodible
layer and no border cell is lower than its inner neighbour. -/
theorem C42_conserves (p : Ava.Params) (zb : Grid) (hd : 0 ≤ repose p.thetaDyn)
    (hds : ∀ i j, 0 < p.ds i j) (hdn : ∀ i j, 0 < p.dn i j)
    (hne : ∀ i j z, i ≤ p.my → j ≤ p.mx → p.zne i j = some z → z ≤ zb i j)
    (hE : ∀ i, i ≤ p.my → zb i (p.mx - 1) ≤ zb i p.mx ∧ zb i 1 ≤ zb i 0)
    (hN : ∀ j, j ≤ p.mx → zb (p.my - 1) j ≤ zb p.my j ∧ zb 1 j ≤ zb 0 j) :
    ∑ i ∈ range (p.my + 1), ∑ j ∈ range (p.mx + 1), slide p zb i j =
    ∑ i ∈ range (p.my + 1), ∑ j ∈ range (p.mx + 1), zb i j := by
  change total p _ = total p _
  rw [total_slide]
  have zero : ∀ x y : ℝ, x ≤ 0 → 0 ≤ y → 0.5 * (max x 0 - min y 0) = 0 := by
    intro x y hx hy; rw [max_eq_right hx, min_eq_right hy]; ring
  have sd : ∀ i j, i ≤ p.my → j ≤ p.mx → 0 ≤ slopeDiff p zb i j := by
    intro i j hi hj
    exact slopeDiff_nonneg p zb i j hd fun z hz => div_nonneg (sub_nonneg.mpr (hne i j z hi hj hz)) (hds i j).le
  have e1 : ∑ i ∈ range (p.my + 1), (toE p zb i (p.mx - 1) + toW p zb i 1) = 0 := by
    refine sum_eq_zero fun i hi => ?_
    have hi : i ≤ p.my := by rw [mem_range] at hi; omega
    have hE' := hE i hi
    have a : toE p zb i (p.mx - 1) = 0 := by
      by_cases hin : 1 ≤ p.mx - 1 ∧ p.mx - 1 < p.mx
      · have hs := sd i (p.mx - 1) hi (by omega)
        have e : p.mx - 1 + 1 = p.mx := by omega
        refine zero _ _ ((flux_sign p zb 0 _ _ hs).2 ?_) ((flux_sign p zb 2 _ _ hs).1 ?_)
        · simp only [gradDown, e]
          split
          · exact div_nonpos_of_nonpos_of_nonneg (downGrad_nonpos _ _ _ hE'.1) (hds _ _).le
          · exact le_rfl
        · simp only [gradDown, e]
          split
          · exact div_nonneg (downGrad_nonneg _ _ _ hE'.1) (hds _ _).le
          · exact le_rfl
      · exact (parts_zero fun k => gradDown_not_inner p zb k i _ hin).1
    have b : toW p zb i 1 = 0 := by
      by_cases hin : 1 ≤ 1 ∧ 1 < p.mx
      · have hs := sd i 1 hi (by omega)
        refine zero _ _ ((flux_sign p zb 2 _ _ hs).2 ?_) ((flux_sign p zb 0 _ _ hs).1 ?_)
        · simp only [gradDown, Nat.sub_self]
          split
          · exact div_nonpos_of_nonpos_of_nonneg (downGrad_nonpos _ _ _ hE'.2) (hds _ _).le
          · exact le_rfl
        · simp only [gradDown, Nat.sub_self]
          split
          · exact div_nonneg (downGrad_nonneg _ _ _ hE'.2) (hds _ _).le
          · exact le_rfl
      · exact (parts_zero fun k => gradDown_not_inner p zb k i _ hin).2.1
    rw [a, b, add_zero]
  have e2 : ∑ j ∈ range (p.mx + 1), (toN p zb (p.my - 1) j + toS p zb 1 j) = 0 := by
    refine sum_eq_zero fun j hj => ?_
    have hj : j ≤ p.mx := by rw [mem_range] at hj; omega
    have hN' := hN j hj
    by_cases hm : p.my = 0
    · unfold toN toS
      simp only [flux_of_grad_zero p zb 1 _ j (gradDown_y_transect p zb 1 _ j hm (by simp)),
        flux_of_grad_zero p zb 3 _ j (gradDown_y_transect p zb 3 _ j hm (by simp))]
      simp
    have a : toN p zb (p.my - 1) j = 0 := by
      by_cases hin : 1 ≤ p.my - 1 ∧ p.my - 1 < p.my
      · have hs := sd (p.my - 1) j (by omega) hj
        have e : p.my - 1 + 1 = p.my := by omega
        refine zero _ _ ((flux_sign p zb 1 _ _ hs).2 ?_) ((flux_sign p zb 3 _ _ hs).1 ?_)
        · simp only [gradDown, e]
          split
          · exact div_nonpos_of_nonpos_of_nonneg (downGrad_nonpos _ _ _ hN'.1) (hdn _ _).le
          · exact le_rfl
        · simp only [gradDown, e]
          split
          · exact div_nonneg (downGrad_nonneg _ _ _ hN'.1) (hdn _ _).le
          · exact le_rfl
      · exact (parts_zero fun k => gradDown_not_innerRow p zb k _ j hm hin).2.2.1
    have b : toS p zb 1 j = 0 := by
      by_cases hin : 1 ≤ 1 ∧ 1 < p.my
      · have hs := sd 1 j (by omega) hj
        refine zero _ _ ((flux_sign p zb 3 _ _ hs).2 ?_) ((flux_sign p zb 1 _ _ hs).1 ?_)
        · simp only [gradDown, Nat.sub_self]
          split
          · exact div_nonpos_of_nonpos_of_nonneg (downGrad_nonpos _ _ _ hN'.2) (hdn _ _).le
          · exact le_rfl
        · simp only [gradDown, Nat.sub_self]
          split
          · exact div_nonneg (downGrad_nonneg _ _ _ hN'.2) (hdn _ _).le
          · exact le_rfl
      · exact (parts_zero fun k => gradDown_not_innerRow p zb k _ j hm hin).2.2.2
    rw [a, b, add_zero]
  rw [e1, e2]
  simp

/-- A transect of five cells with a pile in the middle, one metre apart, angles 34 and 33 degrees. -/
noncomputable def exAva : Ava.Params :=
  ⟨true, 4, 0, fun _ _ => 1, fun _ _ => 1, fun _ _ => some (-10), 34, 33, 50⟩

theorem exAva_tanDyn : 0 ≤ exAva.tanDyn := by
  unfold Ava.Params.tanDyn exAva
  apply Real.tan_nonneg_of_nonneg_of_le_pi_div_two
  · positivity
  · have := Real.pi_pos; simp only; linarith

/-- The hypotheses of `C42_conserves` hold for the pile 0, 0, 5, 0, 0. -/
example : ∑ i ∈ range (exAva.my + 1), ∑ j ∈ range (exAva.mx + 1),
      slide exAva (fun _ j => if j = 2 then 5 else 0) i j = 5 := by
  rw [C42_conserves exAva _ exAva_tanDyn (by simp [exAva]) (by simp [exAva])]
  · simp [exAva, sum_range_succ]
  · intro i j z _ _ hz
    rw [← Option.some.inj (show some (-10 : ℝ) = some z from hz)]
    change (-10 : ℝ) ≤ if j = 2 then 5 else 0
    split <;> norm_num
  · intro i _; simp [exAva]
  · intro j _; simp [exAva]

/-- C42, where sand is lost: on a transect whose last inner cell is higher than the end of the
transect, is steeper than the dynamic angle of repose, has its landward neighbour at least as high as
the end and lies above the non-erodible layer, a redistribution strictly lowers the summed bed. -/
theorem C42_loses (p : Ava.Params) (zb : Grid) (hm : p.my = 0) (hx : 2 ≤ p.mx)
    (hd : 0 ≤ repose p.thetaDyn) (hds : ∀ i j, 0 < p.ds i j)
    (hlow : zb 0 p.mx < zb 0 (p.mx - 1)) (hback : zb 0 p.mx ≤ zb 0 (p.mx - 2))
    (hsteep : repose p.thetaDyn * p.ds 0 (p.mx - 1) < zb 0 (p.mx - 1) - zb 0 p.mx)
    (z : ℝ) (hz : p.zne 0 (p.mx - 1) = some z) (hne : z < zb 0 (p.mx - 1)) :
    ∑ i ∈ range (p.my + 1), ∑ j ∈ range (p.mx + 1), slide p zb i j <
    ∑ i ∈ range (p.my + 1), ∑ j ∈ range (p.mx + 1), zb i j := by
  rw [show repose p.thetaDyn = p.tanDyn from rfl] at hd hsteep
  change total p _ < total p _
  rw [total_slide]
  have hds' := hds 0 (p.mx - 1)
  have e : p.mx - 1 + 1 = p.mx := by omega
  have e' : p.mx - 1 - 1 = p.mx - 2 := by omega
  have hin : p.innerX 0 (p.mx - 1) := ⟨by omega, Or.inl hm⟩
  have g0 : gradDown p zb 0 0 (p.mx - 1) =
      (zb 0 (p.mx - 1) - zb 0 p.mx) / p.ds 0 (p.mx - 1) := by
    simp only [gradDown, if_pos hin, e, e']
    rw [downGrad_eq, if_neg (fun h => absurd h.1 (not_lt.mpr hlow.le)),
      if_neg (not_lt.mpr hback)]
  have g0pos : p.tanDyn < gradDown p zb 0 0 (p.mx - 1) := by
    rw [g0, lt_div_iff₀ hds']; exact hsteep
  have g2 : gradDown p zb 0 0 (p.mx - 1) ^ 2 = gradDown p zb 2 0 (p.mx - 1) ^ 2 ∨
      gradDown p zb 0 0 (p.mx - 1) ^ 2 ≤ gradDown p zb 2 0 (p.mx - 1) ^ 2 := by
    left
    rw [g0]
    simp only [gradDown, if_pos hin, e, e']
    rw [downGrad_eq, if_neg (fun h => absurd h.2 (not_lt.mpr hlow.le))]
    split
    · rw [neg_div, neg_sq]
    · rename_i h2
      have : zb 0 (p.mx - 2) = zb 0 p.mx := le_antisymm (not_lt.mp h2) hback
      rw [this]
  have gH : gradDown p zb 0 0 (p.mx - 1) ≤ gradH p zb 0 (p.mx - 1) := by
    unfold gradH
    apply Real.le_sqrt_of_sq_le
    rcases g2 with h | h
    · nlinarith [sq_nonneg (gradDown p zb 1 0 (p.mx - 1)), sq_nonneg (gradDown p zb 3 0 (p.mx - 1))]
    · nlinarith [sq_nonneg (gradDown p zb 1 0 (p.mx - 1)), sq_nonneg (gradDown p zb 3 0 (p.mx - 1))]
  have gHpos : 0 < gradH p zb 0 (p.mx - 1) := by linarith
  have nepos : 0 < (zb 0 (p.mx - 1) - z) / p.ds 0 (p.mx - 1) :=
    div_pos (sub_pos.mpr hne) hds'
  have sd : 0 < slopeDiff p zb 0 (p.mx - 1) := by
    unfold slopeDiff
    simp only [hz]
    split
    · exact tanh_pos nepos
    · rw [if_pos ⟨by linarith, nepos⟩]
      have : 0.9 * p.tanDyn < gradH p zb 0 (p.mx - 1) := by nlinarith
      have := tanh_strictMono this
      linarith
  have fpos : 0 < flux p zb 0 0 (p.mx - 1) := by
    rw [flux_eq, if_pos gHpos.ne']
    exact div_pos (mul_pos sd (by linarith)) gHpos
  have hE : 0 < toE p zb 0 (p.mx - 1) := by
    unfold toE
    have := le_max_left (flux p zb 0 0 (p.mx - 1)) 0
    have := min_le_right (flux p zb 2 0 (p.mx - 1)) 0
    linarith
  have h1 : 0 < ∑ i ∈ range (p.my + 1), (toE p zb i (p.mx - 1) + toW p zb i 1) := by
    rw [hm]
    simp only [zero_add, sum_range_one]
    linarith [(parts_nonneg p zb 0 1).2.1]
  have h2 := sum_nonneg (s := range (p.mx + 1))
    (f := fun j => toN p zb (p.my - 1) j + toS p zb 1 j)
    (fun j _ => add_nonneg (parts_nonneg p zb _ j).2.2.1 (parts_nonneg p zb _ j).2.2.2)
  linarith

/-- The hypotheses of `C42_loses` hold for the bed 0, 0, 0, 5, 0: sand disappears. -/
example : ∑ i ∈ range (exAva.my + 1), ∑ j ∈ range (exAva.mx + 1),
      slide exAva (fun _ j => if j = 3 then 5 else 0) i j < 5 := by
  have h := C42_loses exAva (fun _ j => if j = 3 then 5 else 0) rfl (by simp [exAva]) exAva_tanDyn
    (by simp [exAva]) (by simp [exAva]) (by simp [exAva]) ?_ (-10) rfl (by simp [exAva]; norm_num)
  · refine h.trans_eq ?_
    simp [exAva, sum_range_succ]
  · have hlt : repose exAva.thetaDyn < 1 := by
      unfold repose
      rw [← Real.tan_pi_div_four]
      apply Real.tan_lt_tan_of_nonneg_of_lt_pi_div_two
      · simp only [exAva]; positivity
      · have := Real.pi_pos; linarith
      · have := Real.pi_pos; simp only [exAva]; linarith
    simp only [exAva, Nat.add_one_sub_one]
    simp only [exAva] at hlt
    norm_num
    linarith

/-! ### C43 -/

/-- C43: an avalanche is some number `n`, at most the configured one, of redistributions; every one of
them started from a bed whose largest slope was at least the dynamic one, and if fewer than the
configured number were made then the final slope is everywhere below the dynamic angle of repose. -/
theorem C43_iteration (p : Ava.Params) (zb : Grid) (hp : p.process = true)
    (hs : ∃ i j, i ≤ p.my ∧ j ≤ p.mx ∧ repose p.thetaStat < steepness p zb i j) :
    ∃ n ≤ p.maxIter, avalanche p zb = (slide p)^[n] zb ∧
      (∀ m < n, ∃ i j, i ≤ p.my ∧ j ≤ p.mx ∧ repose p.thetaDyn ≤ steepness p ((slide p)^[m] zb) i j) ∧
      (n < p.maxIter → ∀ i j, i ≤ p.my → j ≤ p.mx → steepness p (avalanche p zb) i j < repose p.thetaDyn) := by
  rw [show repose p.thetaStat = p.tanStat from rfl] at hs
  rw [show repose p.thetaDyn = p.tanDyn from rfl]
  simp only [← gradH_eq] at hs ⊢
  have cells : ∀ (zb : Grid) i j, i ≤ p.my → j ≤ p.mx → gradH p zb i j ≤ maxGradH p zb := by
    intro zb i j hi hj
    exact le_gridMax (fun c : Fin (p.my + 1) × Fin (p.mx + 1) => gradH p zb c.1 c.2)
      (⟨i, by omega⟩, ⟨j, by omega⟩)
  have key : ∀ (N : ℕ) (zb : Grid), ∃ n ≤ N, iterate p N zb = (slide p)^[n] zb ∧
      (∀ m < n, ∃ i j, i ≤ p.my ∧ j ≤ p.mx ∧ p.tanDyn ≤ gradH p ((slide p)^[m] zb) i j) ∧
      (n < N → ∀ i j, i ≤ p.my → j ≤ p.mx → gradH p (iterate p N zb) i j < p.tanDyn) := by
    intro N
    induction N with
    | zero => intro zb; exact ⟨0, le_rfl, rfl, by simp, by simp⟩
    | succ N ih =>
      intro zb
      by_cases h : maxGradH p zb < p.tanDyn
      · refine ⟨0, by omega, by simp [iterate, h], by simp, ?_⟩
        intro _ i j hi hj
        simp only [iterate, if_pos h]
        exact (cells zb i j hi hj).trans_lt h
      · obtain ⟨n, hn, h1, h2, h3⟩ := ih (slide p zb)
        refine ⟨n + 1, by omega, by simp only [iterate, if_neg h]; exact h1, ?_, ?_⟩
        · intro m hm
          cases m with
          | zero =>
            obtain ⟨⟨i, j⟩, hij⟩ := exists_gridMax
              (fun c : Fin (p.my + 1) × Fin (p.mx + 1) => gradH p zb c.1 c.2)
            exact ⟨i, j, by omega, by omega, (not_lt.mp h).trans_eq hij⟩
          | succ m => exact h2 m (by omega)
        · intro hlt i j hi hj
          simp only [iterate, if_neg h]
          exact h3 (by omega) i j hi hj
  obtain ⟨i, j, hi, hj, hij⟩ := hs
  have : avalanche p zb = iterate p p.maxIter zb := by
    unfold avalanche
    rw [if_pos hp, if_pos (hij.trans_le (cells zb i j hi hj))]
  rw [this]
  exact key _ _

/-- The pile of `exAva` does start an avalanche. -/
example : ∃ i j, i ≤ exAva.my ∧ j ≤ exAva.mx ∧
    repose exAva.thetaStat < steepness exAva (fun _ j => if j = 2 then 5 else 0) i j := by
  refine ⟨0, 2, by simp, by simp [exAva], ?_⟩
  have hlt : repose exAva.thetaStat < 1 := by
    unfold repose
    rw [← Real.tan_pi_div_four]
    apply Real.tan_lt_tan_of_nonneg_of_lt_pi_div_two
    · simp only [exAva]; positivity
    · have := Real.pi_pos; linarith
    · have := Real.pi_pos; simp only [exAva]; linarith
  refine hlt.trans_le ?_
  rw [← gradH_eq]
  unfold gradH
  apply Real.le_sqrt_of_sq_le
  simp [gradDown, exAva, Ava.Params.innerX, Ava.Params.innerY, downGrad_eq]
  norm_num

/-! ### C80 -/

/-- C80 (the part that holds): one redistribution starting from a bed nowhere below the non-erodible
layer leaves every cell at most `0.02 √2 tan(theta_dyn)` below that layer, for cells of at least
`√2/5` metre.  Missing from the full claim (the layer is never undercut): it is false, and a cell
that got below the layer keeps losing sand (`C80_below_layer_loses`). -/
theorem C80_undercut_bounded_partial (p : Ava.Params) (zb : Grid) (i j : ℕ) (hd : 0 ≤ repose p.thetaDyn)
    (hds : 0.2 * Real.sqrt 2 ≤ p.ds i j) (z : ℝ) (hz : p.zne i j = some z) (hne : z ≤ zb i j) :
    z - 0.02 * Real.sqrt 2 * repose p.thetaDyn ≤ slide p zb i j := by
  rw [show repose p.thetaDyn = p.tanDyn from rfl] at hd ⊢
  have h2 : (0 : ℝ) < Real.sqrt 2 := Real.sqrt_pos.mpr (by norm_num)
  have hdpos : 0 < p.ds i j := by linarith
  have hq := qOut_le p zb i j
  have hin : 0 ≤ qIn p zb i j := by
    rw [qIn_eq]
    split
    · have h1 := parts_nonneg p zb
      split
      · linarith [(h1 i (j - 1)).1, (h1 i (j + 1)).2.1]
      · linarith [(h1 i (j - 1)).1, (h1 i (j + 1)).2.1, (h1 (i - 1) j).2.2.1,
          (h1 (i + 1) j).2.2.2]
    · exact le_rfl
  have hn0 : 0 ≤ (zb i j - z) / p.ds i j := div_nonneg (sub_nonneg.mpr hne) hdpos.le
  have hs := slopeDiff_nonneg p zb i j hd fun z' hz' => by
    rw [hz] at hz'
    rwa [← Option.some.inj hz']
  have hsl : slopeDiff p zb i j ≤ (zb i j - z) / p.ds i j + 0.1 * p.tanDyn := by
    unfold slopeDiff
    simp only [hz]
    split
    · have := tanh_sub_le hn0
      rw [Real.tanh_zero] at this
      linarith
    · rename_i h3
      split
      · rename_i h4
        have := tanh_sub_le (x := 0.9 * p.tanDyn) (y := gradH p zb i j) (by nlinarith [h4.1])
        linarith
      · linarith
  rw [abs_of_nonneg hs] at hq
  have hdiv : 0.2 * Real.sqrt 2 * ((zb i j - z) / p.ds i j) ≤ zb i j - z := by
    rw [mul_div_assoc', div_le_iff₀ hdpos, mul_comm]
    exact mul_le_mul_of_nonneg_left hds (sub_nonneg.mpr hne)
  unfold slide
  have : 0.2 * qOut p zb i j ≤ 0.2 * (Real.sqrt 2 *
      ((zb i j - z) / p.ds i j + 0.1 * p.tanDyn)) := by
    have := mul_le_mul_of_nonneg_left hsl h2.le
    linarith
  nlinarith

example : (0 : ℝ) ≤ repose exAva.thetaDyn ∧ 0.2 * Real.sqrt 2 ≤ exAva.ds 0 2 ∧
    exAva.zne 0 2 = some (-10) ∧ (-10 : ℝ) ≤ (fun _ j => if j = 2 then 5 else 0 : Grid) 0 2 := by
  refine ⟨exAva_tanDyn, ?_, rfl, by norm_num⟩
  have : Real.sqrt 2 ≤ 2 := by
    rw [Real.sqrt_le_left (by norm_num)]; norm_num
  simp only [exAva]; linarith

/-- C80 fails: a sloping cell of a transect already below the non-erodible layer sends out more
sand, the more the deeper it lies (`tanh` of the depth per cell size), instead of none. -/
theorem C80_below_layer_loses (p : Ava.Params) (zb : Grid) (i j : ℕ) (hds : 0 < p.ds i j)
    (z : ℝ) (hz : p.zne i j = some z) (hlow : zb i j < z) (hg : 0 < steepness p zb i j)
    (hst : (zb i j - z) / p.ds i j < steepness p zb i j - repose p.thetaDyn) :
    0 < qOut p zb i j := by
  rw [show repose p.thetaDyn = p.tanDyn from rfl] at hst
  rw [← gradH_eq] at hg hst
  have hneg : (zb i j - z) / p.ds i j < 0 := div_neg_of_neg_of_pos (by linarith) hds
  have hs : slopeDiff p zb i j ≠ 0 := by
    unfold slopeDiff
    simp only [hz]
    rw [if_pos hst]
    have := tanh_strictMono hneg
    rw [Real.tanh_zero] at this
    exact this.ne
  have hex : ∃ k, gradDown p zb k i j ≠ 0 := by
    by_contra hcon
    push Not at hcon
    unfold gradH at hg
    simp [hcon] at hg
  obtain ⟨k, hk⟩ := hex
  have hf : flux p zb k i j ≠ 0 := by
    rw [flux_eq, if_pos hg.ne']
    exact div_ne_zero (mul_ne_zero hs hk) hg.ne'
  have hpos := abs_pos.mpr hf
  have a := fun k => abs_nonneg (flux p zb k i j)
  unfold qOut
  by_cases hm : p.my = 0
  · rw [if_pos hm]
    have hk' : k = 0 ∨ k = 2 := by
      by_contra hcon
      have : k = 1 ∨ k = 3 := by
        fin_cases k <;> simp_all
      exact hk (gradDown_y_transect p zb k i j hm this)
    rcases hk' with rfl | rfl
    · linarith [a 2]
    · linarith [a 0]
  · rw [if_neg hm]
    have a0 := a 0; have a1 := a 1; have a2 := a 2; have a3 := a 3
    fin_cases k <;> simp only [Fin.zero_eta, Fin.mk_one, Fin.reduceFinMk] at hpos <;> linarith

/-- The hypotheses of `C80_below_layer_loses` hold for a pile that ends up below the layer. -/
example : ∃ p : Ava.Params, ∃ zb : Grid, 0 < p.ds 0 1 ∧ p.zne 0 1 = some 2 ∧ zb 0 1 < 2 ∧ 0 < gradH p zb 0 1 ∧
    (zb 0 1 - 2) / p.ds 0 1 < gradH p zb 0 1 - p.tanDyn := by
  refine ⟨⟨true, 2, 0, fun _ _ => 1, fun _ _ => 1, fun _ _ => some 2, 34, 0, 50⟩,
    fun _ j => if j = 1 then 1 else 0, by simp, rfl, by simp, ?_, ?_⟩
  · unfold gradH
    simp [gradDown, Ava.Params.innerX, Ava.Params.innerY, downGrad_eq]
    norm_num
  · have := gradH_nonneg ⟨true, 2, 0, fun _ _ => 1, fun _ _ => 1, fun _ _ => some 2, 34, 0, 50⟩
      (fun _ j => if j = 1 then 1 else 0) 0 1
    simp [Ava.Params.tanDyn]
    norm_num
    linarith

/-- The hypotheses of `C41_gentle_slopes` hold for a plane with slope 1:10. -/
example : avalanche exAva (fun _ (j : ℕ) => (j : ℝ) / 10) = fun _ (j : ℕ) => (j : ℝ) / 10 := by
  have hpos : (1 / 10 : ℝ) ≤ repose exAva.thetaStat := by
    have h3 := Real.two_le_pi
    refine le_trans ?_ (Real.lt_tan (x := exAva.thetaStat * Real.pi / 180) ?_ ?_).le
    · simp only [exAva]; linarith
    · simp only [exAva]; positivity
    · simp only [exAva]; linarith
  refine C41_gentle_slopes exAva _ (1 / 10) 0 (by simp [exAva]) (by simp [exAva]) ?_ ?_
    (by linarith) ?_
  · intro i j _ hj _
    obtain ⟨k, rfl⟩ : ∃ k, j = k + 1 := ⟨j - 1, by omega⟩
    simp only [Nat.add_sub_cancel, Nat.cast_add, Nat.cast_one, exAva]
    constructor <;> rw [abs_le] <;> constructor <;> linarith
  · intro i j h1 h2; simp [exAva] at h2
  · simp only [exAva, if_true]
    simp only [exAva] at hpos
    nlinarith

/-- A pile that would slide stays with avalanching off. -/
example : avalanche { exAva with process := false } (fun _ j => if j = 2 then 3 else 0)
    = (fun _ j => if j = 2 then 3 else 0) :=
  C41_off _ _ rfl

/-- The last cell of a row keeps its level whatever slides next to it. -/
example : avalanche exAva (fun _ j => if j = 3 then 3 else 0) 0 4 = 0 :=
  C41_border_fixed exAva _ 0 4 (le_refl _) (le_refl _) (Or.inr (Or.inl rfl))

end Aeolis.Props
