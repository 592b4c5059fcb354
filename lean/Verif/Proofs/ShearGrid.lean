import Verif.Model.Shear
import Verif.Proofs.Resample
import Mathlib.Analysis.SpecialFunctions.Trigonometric.Bounds
import Mathlib.Algebra.Order.BigOperators.Group.Finset

/-! Helper lemmas on the computational grid of the shear model. -/

set_option linter.unusedSectionVars false

namespace Aeolis.Shear

open Aeolis.Resample Aeolis.Spec

noncomputable section

open Classical

theorem inner_fold_ge (f : ℕ → ℝ) (l : List ℕ) (r : ℝ) :
    r ≤ l.foldl (fun r j => if r < f j then f j else r) r ∧ ∀ j ∈ l, f j ≤ l.foldl (fun r j => if r < f j then f j else r) r := by
  induction l generalizing r with
  | nil => simp
  | cons a l ih =>
    rw [List.foldl_cons]
    have h := ih (if r < f a then f a else r)
    constructor
    · refine le_trans ?_ h.1
      split_ifs with hr
      · exact hr.le
      · exact le_rfl
    · intro j hj
      rcases List.mem_cons.mp hj with rfl | hj
      · refine le_trans ?_ h.1
        split_ifs with hr
        · exact le_rfl
        · exact not_lt.mp hr
      · exact h.2 j hj

theorem maxDiff_fold (n : ℕ) (a : ℕ → ℝ) (l : List ℕ) (r : ℝ) :
    r ≤ l.foldl (fun r i => ((List.range (n - i)).map (· + i)).foldl
      (fun r j => if r < |a i - a j| + |(i : ℝ) - j| then |a i - a j| + |(i : ℝ) - j| else r) r) r ∧
    ∀ i ∈ l, ∀ j, i ≤ j → j < n → |a i - a j| + |(i : ℝ) - j| ≤ l.foldl (fun r i => ((List.range (n - i)).map (· + i)).foldl
      (fun r j => if r < |a i - a j| + |(i : ℝ) - j| then |a i - a j| + |(i : ℝ) - j| else r) r) r := by
  induction l generalizing r with
  | nil => simp
  | cons k l ih =>
    rw [List.foldl_cons]
    have h1 := inner_fold_ge (fun j => |a k - a j| + |(k : ℝ) - j|) ((List.range (n - k)).map (· + k)) r
    have h := ih (((List.range (n - k)).map (· + k)).foldl
      (fun r j => if r < |a k - a j| + |(k : ℝ) - j| then |a k - a j| + |(k : ℝ) - j| else r) r)
    refine ⟨h1.1.trans h.1, fun i hi j hij hj => ?_⟩
    rcases List.mem_cons.mp hi with rfl | hi
    · refine le_trans (h1.2 j ?_) h.1
      rw [List.mem_map]
      exact ⟨j - i, List.mem_range.mpr (by omega), by omega⟩
    · exact h.2 i hi j hij hj

/-- `maxDiff` is at least the difference of any two entries. -/
theorem maxDiff_ge (n : ℕ) (a : ℕ → ℝ) (i j : ℕ) (hi : i < n) (hj : j < n) : |a i - a j| ≤ maxDiff n a := by
  have key : ∀ i j, i ≤ j → j < n → |a i - a j| ≤ maxDiff n a := fun i j hij hj => by
    refine le_trans ?_ ((maxDiff_fold n a (List.range n) 0).2 i (List.mem_range.mpr (by omega)) j hij hj)
    linarith [abs_nonneg ((i : ℝ) - j)]
  rcases le_total i j with h | h
  · exact key i j h hj
  · rw [abs_sub_comm]; exact key j i h hi

theorem maxDiff_nonneg (n : ℕ) (a : ℕ → ℝ) : 0 ≤ maxDiff n a := (maxDiff_fold n a (List.range n) 0).1

theorem inner_fold_le (f : ℕ → ℝ) (l : List ℕ) (r M : ℝ) (hr : r ≤ M) (hf : ∀ j ∈ l, f j ≤ M) :
    l.foldl (fun r j => if r < f j then f j else r) r ≤ M := by
  induction l generalizing r with
  | nil => simpa
  | cons a l ih =>
    rw [List.foldl_cons]
    refine ih _ ?_ (fun j hj => hf j (List.mem_cons_of_mem _ hj))
    split_ifs
    · exact hf a List.mem_cons_self
    · exact hr

/-- `maxDiff` exceeds the largest difference by less than the number of entries. -/
theorem maxDiff_le (n : ℕ) (a : ℕ → ℝ) (M : ℝ) (hM : ∀ i < n, ∀ j < n, |a i - a j| ≤ M) (hM0 : 0 ≤ M) :
    maxDiff n a ≤ M + n := by
  unfold maxDiff
  have : ∀ l : List ℕ, (∀ i ∈ l, i < n) → ∀ r ≤ M + n, l.foldl (fun r i => ((List.range (n - i)).map (· + i)).foldl
      (fun r j => if r < |a i - a j| + |(i : ℝ) - j| then |a i - a j| + |(i : ℝ) - j| else r) r) r ≤ M + n := by
    intro l
    induction l with
    | nil => intro _ r hr; simpa using hr
    | cons k l ih =>
      intro hl r hr
      rw [List.foldl_cons]
      refine ih (fun i hi => hl i (List.mem_cons_of_mem _ hi)) _ ?_
      refine inner_fold_le (fun j => |a k - a j| + |(k : ℝ) - j|) _ r _ hr ?_
      intro j hj
      obtain ⟨m, hm, rfl⟩ := List.mem_map.mp hj
      have hk := hl k List.mem_cons_self
      have hm := List.mem_range.mp hm
      have h1 := hM k hk (m + k) (by omega)
      have h2 : |(k : ℝ) - ((m + k : ℕ) : ℝ)| ≤ n := by
        push_cast
        rw [show (k : ℝ) - (m + k) = -m by ring, abs_neg, Nat.abs_cast]
        exact_mod_cast (by omega : m ≤ n)
      linarith
  exact this _ (fun i hi => List.mem_range.mp hi) 0 (by positivity)

/-- Signed distance of a point from the line through the origin in direction `udir`. -/
def across (u : ℝ) (p : ℝ × ℝ) : ℝ := p.2 * Real.sin u - p.1 * Real.cos u

theorem lineSlope_eq (udir : ℝ) (p : ℝ × ℝ) :
    lineSlope udir p = Real.cos (udir / 180 * Real.pi) / Real.sin (udir / 180 * Real.pi) := by
  unfold lineSlope; congr 1 <;> ring

/-- Corners are no further apart, across the direction, than the extent without the buffer. -/
theorem extent_ge (R C : ℕ) (g : ℕ → ℕ → ℝ × ℝ) (buffer udir : ℝ) (hs : Real.sin (udir / 180 * Real.pi) ≠ 0) (i j : ℕ)
    (hi : i < 4) (hj : j < 4) :
    |across (udir / 180 * Real.pi) (corner R C g i) - across (udir / 180 * Real.pi) (corner R C g j)| + buffer * 2
      ≤ extent R C g buffer udir := by
  unfold extent
  rw [lineSlope_eq, abs_of_nonneg (maxDiff_nonneg _ _)]
  generalize hu : udir / 180 * Real.pi = u at *
  have hsq : Real.sqrt ((Real.cos u / Real.sin u) ^ 2 + 1) = 1 / |Real.sin u| := by
    have hpos : 0 < |Real.sin u| := abs_pos.mpr hs
    rw [show (Real.cos u / Real.sin u) ^ 2 + 1 = (1 / |Real.sin u|) ^ 2 by
      have := Real.cos_sq_add_sin_sq u
      rw [div_pow, div_pow, sq_abs]; field_simp; linarith]
    exact Real.sqrt_sq (by positivity)
  rw [hsq, div_div_eq_mul_div, div_one]
  have h := maxDiff_ge 4 (fun k => lineIntercept udir (corner R C g k)) i j hi hj
  beta_reduce at h
  have e : |across u (corner R C g i) - across u (corner R C g j)| =
      |lineIntercept udir (corner R C g i) - lineIntercept udir (corner R C g j)| * |Real.sin u| := by
    rw [← abs_mul]
    congr 1
    unfold across lineIntercept
    rw [lineSlope_eq, lineSlope_eq, hu]
    field_simp
  rw [e]
  have := mul_le_mul_of_nonneg_right h (abs_nonneg (Real.sin u))
  linarith

theorem sum_id (n : ℕ) : ∑ i ∈ Finset.range n, (i : ℝ) = n * (n - 1) / 2 := by
  induction n with
  | zero => simp
  | succ n ih => rw [Finset.sum_range_succ, ih]; push_cast; ring

/-- The centre of a grid of parallelograms. -/
theorem centre_lattice (R C : ℕ) (hR : 1 ≤ R) (hC : 1 ≤ C) (ox oy ax ay bx by' : ℝ) :
    centre R C (lattice ox oy ax ay bx by') =
      (ox + (C - 1 : ℝ) / 2 * ax + (R - 1 : ℝ) / 2 * bx, oy + (C - 1 : ℝ) / 2 * ay + (R - 1 : ℝ) / 2 * by') := by
  have hR' : (R : ℝ) ≠ 0 := by positivity
  have hC' : (C : ℝ) ≠ 0 := by positivity
  have key : ∀ o a b : ℝ, (∑ j ∈ Finset.range R, ∑ i ∈ Finset.range C, (o + i * a + j * b)) / (R * C) =
      o + (C - 1 : ℝ) / 2 * a + (R - 1 : ℝ) / 2 * b := by
    intro o a b
    have h1 : ∀ j : ℕ, ∑ i ∈ Finset.range C, (o + (i : ℝ) * a + j * b) = C * o + C * (C - 1) / 2 * a + C * (j * b) := by
      intro j
      rw [Finset.sum_add_distrib, Finset.sum_add_distrib, ← Finset.sum_mul, sum_id]
      simp only [Finset.sum_const, Finset.card_range, nsmul_eq_mul]
    simp only [h1]
    rw [Finset.sum_add_distrib, ← Finset.mul_sum, ← Finset.sum_mul, sum_id]
    simp only [Finset.sum_const, Finset.card_range, nsmul_eq_mul]
    field_simp
  unfold centre lattice
  ext
  · exact key _ _ _
  · exact key _ _ _

/-- Distance of a node of a grid of parallelograms from its centre, across a direction: at most half that of two opposite
corners. -/
theorem lattice_across (R C : ℕ) (ox oy ax ay bx by' u e : ℝ) (j i : ℕ) (hj : j < R) (hi : i < C)
    (h30 : |across u (lattice ox oy ax ay bx by' (R - 1) (C - 1)) - across u (lattice ox oy ax ay bx by' 0 0)| ≤ e)
    (h12 : |across u (lattice ox oy ax ay bx by' (R - 1) 0) - across u (lattice ox oy ax ay bx by' 0 (C - 1))| ≤ e) :
    |across u (lattice ox oy ax ay bx by' j i) - across u (centre R C (lattice ox oy ax ay bx by'))| ≤ e / 2 := by
  rw [centre_lattice R C (by omega) (by omega)]
  unfold across lattice at *
  dsimp only at *
  have hR : ((R - 1 : ℕ) : ℝ) = R - 1 := by rw [Nat.cast_sub (by omega)]; simp
  have hC : ((C - 1 : ℕ) : ℝ) = C - 1 := by rw [Nat.cast_sub (by omega)]; simp
  rw [hR, hC] at h30 h12
  have hi' : (i : ℝ) ≤ C - 1 := by rw [← hC]; exact_mod_cast (by omega : i ≤ C - 1)
  have hj' : (j : ℝ) ≤ R - 1 := by rw [← hR]; exact_mod_cast (by omega : j ≤ R - 1)
  have hi0 : (0 : ℝ) ≤ i := Nat.cast_nonneg i
  have hj0 : (0 : ℝ) ≤ j := Nat.cast_nonneg j
  obtain ⟨α, hα⟩ : ∃ α, α = ay * Real.sin u - ax * Real.cos u := ⟨_, rfl⟩
  obtain ⟨β, hβ⟩ : ∃ β, β = by' * Real.sin u - bx * Real.cos u := ⟨_, rfl⟩
  have e1 : |(C - 1 : ℝ) * α + (R - 1) * β| ≤ e := by
    convert h30 using 2
    push_cast; rw [hα, hβ]; ring
  have e2 : |(R - 1 : ℝ) * β - (C - 1) * α| ≤ e := by
    convert h12 using 2
    push_cast; rw [hα, hβ]; ring
  have e3 : |((i : ℝ) - (C - 1) / 2) * α + (j - (R - 1) / 2) * β| ≤ e / 2 := by
    have ha : |((i : ℝ) - (C - 1) / 2) * α| ≤ (C - 1) / 2 * |α| := by
      rw [abs_mul]
      exact mul_le_mul_of_nonneg_right (abs_le.mpr ⟨by linarith, by linarith⟩) (abs_nonneg _)
    have hb : |((j : ℝ) - (R - 1) / 2) * β| ≤ (R - 1) / 2 * |β| := by
      rw [abs_mul]
      exact mul_le_mul_of_nonneg_right (abs_le.mpr ⟨by linarith, by linarith⟩) (abs_nonneg _)
    refine (abs_add_le _ _).trans ((add_le_add ha hb).trans ?_)
    have h1 := abs_le.mp e1
    have h2 := abs_le.mp e2
    rcases abs_cases α with hα' | hα' <;> rcases abs_cases β with hβ' | hβ' <;> rw [hα'.1, hβ'.1] <;> linarith
  convert e3 using 2
  rw [hα, hβ]; ring

/-! ### Nodes of the computational grid -/

theorem axisCount_eq (lo hi d : ℝ) (hd : 0 < d) : axisCount lo hi d = (⌈hi / d⌉ - ⌊lo / d⌋).toNat := by
  unfold axisCount axisStart
  rw [← sub_mul, mul_div_assoc, div_self hd.ne', mul_one]
  rw [show ((⌈hi / d⌉ : ℤ) : ℝ) - ((⌊lo / d⌋ : ℤ) : ℝ) = ((⌈hi / d⌉ - ⌊lo / d⌋ : ℤ) : ℝ) by push_cast; ring]
  exact Nat.ceil_intCast _

/-- The nodes reach from `lo` to within one cell of `hi`. -/
theorem axis_reaches (lo hi d : ℝ) (hd : 0 < d) (h : lo + 2 * d ≤ hi) :
    2 ≤ axisCount lo hi d ∧ axisNode lo d 0 ≤ lo ∧ hi - d ≤ axisNode lo d (axisCount lo hi d - 1) := by
  have h1 : (⌊lo / d⌋ : ℝ) ≤ lo / d := Int.floor_le _
  have h2 : hi / d ≤ ⌈hi / d⌉ := Int.le_ceil _
  have h3 : lo / d + 2 ≤ hi / d := by
    rw [show lo / d + 2 = (lo + 2 * d) / d by field_simp]
    exact div_le_div_of_nonneg_right h hd.le
  have h4 : (⌊lo / d⌋ : ℝ) + 2 ≤ ⌈hi / d⌉ := by linarith
  have h5 : ⌊lo / d⌋ + 2 ≤ ⌈hi / d⌉ := by exact_mod_cast h4
  rw [axisCount_eq lo hi d hd]
  refine ⟨by omega, ?_, ?_⟩
  · unfold axisNode axisStart
    have := mul_le_mul_of_nonneg_right h1 hd.le
    rw [div_mul_cancel₀ _ hd.ne'] at this
    simpa using this
  · unfold axisNode axisStart
    have hn : (((⌈hi / d⌉ - ⌊lo / d⌋).toNat - 1 : ℕ) : ℝ) = (⌈hi / d⌉ : ℝ) - ⌊lo / d⌋ - 1 := by
      have : (((⌈hi / d⌉ - ⌊lo / d⌋).toNat - 1 : ℕ) : ℤ) = ⌈hi / d⌉ - ⌊lo / d⌋ - 1 := by omega
      exact_mod_cast this
    rw [hn]
    have := mul_le_mul_of_nonneg_right h2 hd.le
    rw [div_mul_cancel₀ _ hd.ne'] at this
    nlinarith

/-! ### Directions along the axes -/

/-- A direction between -1080 and 990 degrees that is a multiple of 90 is turned. -/
theorem offAxis_spec (udir : ℝ) (h1 : -1080 ≤ udir) (h2 : udir ≤ 990) :
    (offAxis udir = udir ∨ offAxis udir = udir - 0.1) ∧ ∀ k : ℤ, offAxis udir ≠ 90 * k := by
  unfold offAxis
  split_ifs with h
  · refine ⟨Or.inr rfl, fun k hk => ?_⟩
    obtain ⟨m, -, hm⟩ := h
    have hm := abs_le.mp hm
    have e1 : (90 : ℝ) * k ≤ -1080 + 90 * m - 0.099 := by norm_num at hm ⊢; linarith [hm.2]
    have e2 : -1080 + 90 * (m : ℝ) - 0.101 ≤ 90 * k := by norm_num at hm ⊢; linarith [hm.1]
    have e3 : (k : ℝ) < m - 12 := by norm_num at e1; linarith
    have e4 : (m : ℝ) - 13 < k := by norm_num at e2; linarith
    have e5 : k < (m : ℤ) - 12 := by exact_mod_cast e3
    have e6 : (m : ℤ) - 13 < k := by exact_mod_cast e4
    omega
  · refine ⟨Or.inl rfl, fun k hk => h ?_⟩
    have e1 : (-12 : ℝ) ≤ k := by linarith
    have e2 : (k : ℝ) ≤ 11 := by linarith
    have e1 : -12 ≤ k := by exact_mod_cast e1
    have e2 : k ≤ 11 := by exact_mod_cast e2
    refine ⟨(k + 12).toNat, by omega, ?_⟩
    have : (((k + 12).toNat : ℕ) : ℝ) = k + 12 := by
      have : (((k + 12).toNat : ℕ) : ℤ) = k + 12 := by omega
      exact_mod_cast this
    rw [this, hk]
    ring_nf
    norm_num

theorem sin_offAxis (u : ℝ) (h : ∀ k : ℤ, u ≠ 90 * k) : Real.sin (u / 180 * Real.pi) ≠ 0 := by
  intro hs
  obtain ⟨n, hn⟩ := Real.sin_eq_zero_iff.mp hs
  have hpi := Real.pi_pos.ne'
  apply h (2 * n)
  have : (n : ℝ) = u / 180 := mul_right_cancel₀ hpi hn
  push_cast
  linarith

theorem sin_offAxis90 (u : ℝ) (h : ∀ k : ℤ, u ≠ 90 * k) : Real.sin ((u - 90) / 180 * Real.pi) ≠ 0 := by
  refine sin_offAxis (u - 90) fun k hk => h (k + 1) ?_
  push_cast
  linarith

theorem cos_frame (udir : ℝ) : Real.cos ((270 - udir) / 180 * Real.pi) = -Real.sin (udir / 180 * Real.pi) := by
  rw [show (270 - udir) / 180 * Real.pi = Real.pi / 2 - udir / 180 * Real.pi + Real.pi by ring, Real.cos_add_pi,
    Real.cos_pi_div_two_sub]

theorem sin_frame (udir : ℝ) : Real.sin ((270 - udir) / 180 * Real.pi) = -Real.cos (udir / 180 * Real.pi) := by
  rw [show (270 - udir) / 180 * Real.pi = Real.pi / 2 - udir / 180 * Real.pi + Real.pi by ring, Real.sin_add_pi,
    Real.sin_pi_div_two_sub]

/-- Coordinate along the wind of a point relative to the centre. -/
theorem frame_x (udir : ℝ) (o p : ℝ × ℝ) : (rotatePt (270 - udir) o p).1 =
    o.1 + (across ((udir - 90) / 180 * Real.pi) p - across ((udir - 90) / 180 * Real.pi) o) := by
  have h : (udir - 90) / 180 * Real.pi = udir / 180 * Real.pi - Real.pi / 2 := by ring
  rw [rotatePt_fst, cos_frame, sin_frame]
  unfold across
  rw [h, Real.sin_sub_pi_div_two, Real.cos_sub_pi_div_two]
  ring

/-- Coordinate across the wind of a point relative to the centre. -/
theorem frame_y (udir : ℝ) (o p : ℝ × ℝ) : (rotatePt (270 - udir) o p).2 =
    o.2 - (across (udir / 180 * Real.pi) p - across (udir / 180 * Real.pi) o) := by
  rw [rotatePt_snd, cos_frame, sin_frame]
  unfold across
  ring

/-- Turning the direction a little moves the projections a little. -/
theorem across_turn (u v : ℝ) (p o : ℝ × ℝ) :
    |across u p - across u o| ≤ |across v p - across v o| + |u - v| * (|p.1 - o.1| + |p.2 - o.2|) := by
  have h : across u p - across u o = (across v p - across v o) +
      ((p.2 - o.2) * (Real.sin u - Real.sin v) - (p.1 - o.1) * (Real.cos u - Real.cos v)) := by
    unfold across; ring
  rw [h]
  refine (abs_add_le _ _).trans (add_le_add le_rfl ((abs_sub _ _).trans ?_))
  rw [abs_mul, abs_mul]
  have h1 := mul_le_mul_of_nonneg_left (Real.abs_sin_sub_sin_le u v) (abs_nonneg (p.2 - o.2))
  have h2 := mul_le_mul_of_nonneg_left (Real.abs_cos_sub_cos_le u v) (abs_nonneg (p.1 - o.1))
  linarith

/-- One axis of the computational grid covers a coordinate. -/
theorem axis_covers (o len d buffer x slack : ℝ) (hd : 0 < d) (hb : d + slack ≤ buffer) (hs : 0 ≤ slack)
    (hlen : 2 * buffer ≤ len) (hx : |x - o| ≤ (len - buffer * 2) / 2 + slack) :
    2 ≤ axisCount (o - len / 2) (o + len / 2) d ∧ axisNode (o - len / 2) d 0 ≤ x ∧
      x ≤ axisNode (o - len / 2) d (axisCount (o - len / 2) (o + len / 2) d - 1) := by
  obtain ⟨h1, h2, h3⟩ := axis_reaches (o - len / 2) (o + len / 2) d hd (by linarith)
  have hx := abs_le.mp hx
  exact ⟨h1, by linarith, by linarith⟩

/-- The computational grid covers a grid of parallelograms. -/
theorem covers (R C : ℕ) (ox oy ax ay bx by' dx dy buffer udir : ℝ) (hdx : 0 < dx) (hdy : 0 < dy) (h1 : -1080 ≤ udir)
    (h2 : udir ≤ 990) (j i : ℕ) (hj : j < R) (hi : i < C) (slack : ℝ)
    (hslack : |udir - offAxis udir| / 180 * Real.pi *
      (|(lattice ox oy ax ay bx by' j i).1 - (centre R C (lattice ox oy ax ay bx by')).1| +
        |(lattice ox oy ax ay bx by' j i).2 - (centre R C (lattice ox oy ax ay bx by')).2|) ≤ slack)
    (hbx : dx + slack ≤ buffer) (hby : dy + slack ≤ buffer) :
    let c := computationalGrid R C (lattice ox oy ax ay bx by') dx dy buffer udir
    let p := rotatePt (270 - udir) c.origin (lattice ox oy ax ay bx by' j i)
    2 ≤ c.rows ∧ 2 ≤ c.cols ∧ (c.node 0 0).1 ≤ p.1 ∧ p.1 ≤ (c.node 0 (c.cols - 1)).1 ∧
      (c.node 0 0).2 ≤ p.2 ∧ p.2 ≤ (c.node (c.rows - 1) 0).2 := by
  intro c p
  obtain ⟨-, hoff⟩ := offAxis_spec udir h1 h2
  have hs0 : 0 ≤ slack := le_trans (by positivity) hslack
  have hang : ∀ w : ℝ, |(udir - w) / 180 * Real.pi - (offAxis udir - w) / 180 * Real.pi| = |udir - offAxis udir| / 180 * Real.pi := by
    intro w
    rw [show (udir - w) / 180 * Real.pi - (offAxis udir - w) / 180 * Real.pi = (udir - offAxis udir) * (Real.pi / 180) by ring,
      abs_mul, abs_of_pos (show 0 < Real.pi / 180 by positivity)]
    ring
  have key : ∀ w : ℝ, Real.sin ((offAxis udir - w) / 180 * Real.pi) ≠ 0 →
      2 * buffer ≤ extent R C (lattice ox oy ax ay bx by') buffer (offAxis udir - w) ∧
      |across ((udir - w) / 180 * Real.pi) (lattice ox oy ax ay bx by' j i) -
        across ((udir - w) / 180 * Real.pi) (centre R C (lattice ox oy ax ay bx by'))| ≤
        (extent R C (lattice ox oy ax ay bx by') buffer (offAxis udir - w) - buffer * 2) / 2 + slack := by
    intro w hw
    have g := extent_ge R C (lattice ox oy ax ay bx by') buffer (offAxis udir - w) hw
    have g30 : |across ((offAxis udir - w) / 180 * Real.pi) (lattice ox oy ax ay bx by' (R - 1) (C - 1)) -
        across ((offAxis udir - w) / 180 * Real.pi) (lattice ox oy ax ay bx by' 0 0)| + buffer * 2 ≤
        extent R C (lattice ox oy ax ay bx by') buffer (offAxis udir - w) := g 3 0 (by norm_num) (by norm_num)
    have g12 : |across ((offAxis udir - w) / 180 * Real.pi) (lattice ox oy ax ay bx by' (R - 1) 0) -
        across ((offAxis udir - w) / 180 * Real.pi) (lattice ox oy ax ay bx by' 0 (C - 1))| + buffer * 2 ≤
        extent R C (lattice ox oy ax ay bx by') buffer (offAxis udir - w) := g 1 2 (by norm_num) (by norm_num)
    refine ⟨by linarith [abs_nonneg (across ((offAxis udir - w) / 180 * Real.pi) (lattice ox oy ax ay bx by' (R - 1) 0) -
        across ((offAxis udir - w) / 180 * Real.pi) (lattice ox oy ax ay bx by' 0 (C - 1)))], ?_⟩
    refine (across_turn _ ((offAxis udir - w) / 180 * Real.pi) _ _).trans (add_le_add ?_ ?_)
    · exact lattice_across R C ox oy ax ay bx by' _ _ j i hj hi (by linarith) (by linarith)
    · rw [hang]; exact hslack
  have kx := key 90 (sin_offAxis90 _ hoff)
  have ky := key 0 (by rw [sub_zero]; exact sin_offAxis _ hoff)
  rw [sub_zero, sub_zero] at ky
  have ax1 := axis_covers (centre R C (lattice ox oy ax ay bx by')).1 _ dx buffer p.1 slack hdx hbx hs0 kx.1
    (by rw [show p.1 = _ from frame_x udir (centre R C (lattice ox oy ax ay bx by')) _]; rw [add_sub_cancel_left]; exact kx.2)
  have ay1 := axis_covers (centre R C (lattice ox oy ax ay bx by')).2 _ dy buffer p.2 slack hdy hby hs0 ky.1
    (by rw [show p.2 = _ from frame_y udir (centre R C (lattice ox oy ax ay bx by')) _]; rw [sub_right_comm, sub_self, zero_sub, abs_neg]; exact ky.2)
  exact ⟨ay1.1, ax1.1, ax1.2.1, ax1.2.2, ay1.2.1, ay1.2.2⟩

end

end Aeolis.Shear
