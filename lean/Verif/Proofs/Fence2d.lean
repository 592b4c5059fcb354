import Verif.Model.Fence2d
import Verif.Proofs.ShearStress

/-! Lemmas about the model of fences on two-dimensional grids. -/

set_option linter.unusedSectionVars false

namespace Aeolis.Lee

open Aeolis.Resample Aeolis.Shear Aeolis.Spec

noncomputable section

open Classical

/-! ### Edges -/

/-- Every node gets the value of one node; inner nodes keep theirs. -/
theorem copyEdges_at (R C : ℕ) (hR : 3 ≤ R) (hC : 3 ≤ C) (j i : ℕ) (hj : j < R) (hi : i < C) :
    ∃ j' i', 1 ≤ j' ∧ j' + 1 < R ∧ 1 ≤ i' ∧ i' + 1 < C ∧ ∀ f, copyEdges R C f j i = f j' i' := by
  refine ⟨if j = 0 then 1 else if j + 1 = R then R - 2 else j, if i = 0 then 1 else if i + 1 = C then C - 2 else i, ?_⟩
  refine ⟨?_, ?_, ?_, ?_, ?_⟩
  · split_ifs <;> omega
  · split_ifs <;> omega
  · split_ifs <;> omega
  · split_ifs <;> omega
  · intro f
    unfold copyEdges
    dsimp only
    split_ifs <;> first | rfl | omega

/-- The same without conditions on the sizes. -/
theorem copyEdges_some (R C : ℕ) (j i : ℕ) : ∃ j' i', ∀ f, copyEdges R C f j i = f j' i' := by
  refine ⟨if (if j + 1 = R then R - 2 else j) = 0 then 1 else if j + 1 = R then R - 2 else j,
    if (if i + 1 = C then C - 2 else i) = 0 then 1 else if i + 1 = C then C - 2 else i, fun f => ?_⟩
  unfold copyEdges
  dsimp only
  split_ifs <;> rfl

/-! ### Reduction -/

theorem fold_sum (P : ℕ → Prop) (f : ℕ → ℝ) (n : ℕ) :
    (List.range n).foldl (fun all i => if P i then all + f i else all) 0 = ∑ i ∈ Finset.range n, if P i then f i else 0 := by
  induction n with
  | zero => simp
  | succ n ih =>
    rw [List.range_succ, List.foldl_append, ih, Finset.sum_range_succ, List.foldl_cons, List.foldl_nil]
    split_ifs <;> simp

theorem fenceReduction_eq (c1 ic u : ℝ) (n : ℕ) (x height : ℕ → ℝ) (j : ℕ) :
    fenceReduction c1 ic u n x height j = min 1 (∑ i ∈ Finset.range n,
      if 0 < height i then reduction c1 ic (height i) (fenceAhead u (x i) (x j)) else 0) := by
  unfold fenceReduction
  dsimp only
  rw [fold_sum]
  split_ifs with h
  · rw [min_eq_left h.le]
  · rw [min_eq_right (not_lt.mp h)]

theorem reduction_between (c1 ic h d : ℝ) : 0 ≤ reduction c1 ic h d ∧ reduction c1 ic h d ≤ 1 := by
  unfold reduction
  dsimp only
  generalize (1 - if 0 ≤ d ∧ d / h < 20 then ic + (1 - ic) * (1 - Real.exp (-d * c1 / h)) else 1) = r
  split_ifs <;> constructor <;> norm_num at * <;> linarith

theorem reduction_none (c1 ic h d : ℝ) (hd : d < 0 ∨ 20 ≤ d / h) : reduction c1 ic h d = 0 := by
  unfold reduction
  rcases hd with hd | hd
  · simp [hd]
  · simp only [not_lt.mpr hd, and_false, if_false]
    norm_num

theorem fenceReduction_range (c1 ic u : ℝ) (n : ℕ) (x height : ℕ → ℝ) (j : ℕ) :
    0 ≤ fenceReduction c1 ic u n x height j ∧ fenceReduction c1 ic u n x height j ≤ 1 := by
  rw [fenceReduction_eq]
  refine ⟨le_min zero_le_one (Finset.sum_nonneg fun i _ => ?_), min_le_left _ _⟩
  split_ifs
  · exact (reduction_between _ _ _ _).1
  · exact le_rfl

theorem fenceFactor_range (c1 ic u : ℝ) (rows cols : ℕ) (x height : ℕ → ℕ → ℝ) (q p : ℕ) :
    0 ≤ fenceFactor c1 ic u rows cols x height q p ∧ fenceFactor c1 ic u rows cols x height q p ≤ 1 := by
  have h := fenceReduction_range c1 ic u cols (x q) (height q) p
  unfold fenceFactor
  split_ifs
  · norm_num
  · constructor <;> linarith [h.1, h.2]

theorem fenceFactor_one (c1 ic u : ℝ) (rows cols : ℕ) (x height : ℕ → ℕ → ℝ) (q p : ℕ)
    (h : ∀ i < cols, 0 < height q i → fenceAhead u (x q i) (x q p) < 0 ∨ 20 * height q i ≤ fenceAhead u (x q i) (x q p)) :
    fenceFactor c1 ic u rows cols x height q p = 1 := by
  unfold fenceFactor
  split_ifs
  · rfl
  · rw [fenceReduction_eq, Finset.sum_eq_zero, min_eq_right zero_le_one, sub_zero]
    intro i hi
    split_ifs with h0
    · apply reduction_none
      rcases h i (Finset.mem_range.mp hi) h0 with h' | h'
      · exact Or.inl h'
      · exact Or.inr (by rw [le_div_iff₀ h0]; exact h')
    · rfl

/-! ### Interpolation -/

theorem regular_same (R C : ℕ) (hR : 2 ≤ R) (hC : 2 ≤ C) (gy gx : ℕ → ℝ) (z : ℕ → ℕ → ℝ) (c fill py px : ℝ)
    (hz : ∀ j < R, ∀ i < C, z j i = c) (h : ¬ (py < gy 0 ∨ gy (R - 1) < py ∨ px < gx 0 ∨ gx (C - 1) < px)) :
    regular R C gy gx z fill py px = c := by
  unfold regular
  rw [if_neg h]
  dsimp only
  have hj := cellOf_le gy py (R - 2)
  have hi := cellOf_le gx px (C - 2)
  rw [hz _ (by omega) _ (by omega), hz _ (by omega) _ (by omega), hz _ (by omega) _ (by omega), hz _ (by omega) _ (by omega)]
  ring

theorem regular_zero (R C : ℕ) (hR : 2 ≤ R) (hC : 2 ≤ C) (gy gx : ℕ → ℝ) (z : ℕ → ℕ → ℝ) (py px : ℝ)
    (hz : ∀ j < R, ∀ i < C, z j i = 0) : regular R C gy gx z 0 py px = 0 := by
  by_cases h : py < gy 0 ∨ gy (R - 1) < py ∨ px < gx 0 ∨ gx (C - 1) < px
  · unfold regular; rw [if_pos h]
  · exact regular_same R C hR hC gy gx z 0 0 py px hz h

/-- Values between 0 and `M` stay so. -/
theorem regular_between (R C : ℕ) (hR : 2 ≤ R) (hC : 2 ≤ C) (gy gx : ℕ → ℝ) (hy : StrictMono gy) (hx : StrictMono gx)
    (z : ℕ → ℕ → ℝ) (M py px : ℝ) (hM : 0 ≤ M) (hz : ∀ j < R, ∀ i < C, 0 ≤ z j i ∧ z j i ≤ M) :
    0 ≤ regular R C gy gx z 0 py px ∧ regular R C gy gx z 0 py px ≤ M := by
  refine ⟨regular_nonneg R C hR hC gy gx hy hx z 0 py px (fun j hj i hi => (hz j hj i hi).1) le_rfl, ?_⟩
  have h := regular_nonneg R C hR hC gy gx hy hx (fun j i => -1 * z j i + M * 1) (-1 * 0 + M * 1) py px
    (fun j hj i hi => by have := (hz j hj i hi).2; linarith) (by linarith)
  rw [regular_linear R C gy gx z (fun _ _ => 1) 0 1 (-1) M, regular_const] at h
  linarith

/-! ### The whole -/

/-- Shear velocity behind the fences, interpolated to a node of the model. -/
def FenceIn.speed (F : FenceIn) (j i : ℕ) : ℝ :=
  regular F.grid.rows F.grid.cols (fun q => axisNode F.grid.ylo F.grid.dy q) (fun p => axisNode F.grid.xlo F.grid.dx p)
    (fun q p => F.onGrid F.ustars q p * F.factor q p) 0 (rotatePt (-(F.u + 90)) F.grid.origin (F.g j i)).2
    (rotatePt (-(F.u + 90)) F.grid.origin (F.g j i)).1

theorem reduced_eq (F : FenceIn) (q p : ℕ) : F.reduced q p = (0, F.onGrid F.ustars q p * F.factor q p) := by
  unfold FenceIn.reduced
  dsimp only
  rw [rotatePt_cancel']

theorem inner_eq (F : FenceIn) (j i : ℕ) :
    F.inner j i = (F.speed j i * Real.cos (F.u / 180 * Real.pi), -(F.speed j i * Real.sin (F.u / 180 * Real.pi))) := by
  have hc : ∀ q p, rotatePt (-(F.u + 90)) F.grid.origin (F.gc q p) = F.grid.node q p := by
    intro q p
    unfold FenceIn.gc
    rw [rotatePt_cancel']
  have ha : (F.u + 90) / 180 * Real.pi = F.u / 180 * Real.pi + Real.pi / 2 := by ring
  unfold FenceIn.inner
  dsimp only
  simp only [hc, reduced_eq]
  unfold fenceInterpolate
  rw [regular_const]
  ext
  · rw [rotatePt_fst, ha, Real.sin_add_pi_div_two]
    show (0 - 0) * _ + (F.speed j i - 0) * _ + 0 = _
    ring
  · rw [rotatePt_snd, ha, Real.cos_add_pi_div_two]
    show (0 - 0) * _ + (F.speed j i - 0) * _ + 0 = _
    ring

theorem out_eq (F : FenceIn) (j i : ℕ) : ∃ j' i', F.outS j i = F.speed j' i' * Real.cos (F.u / 180 * Real.pi) ∧
    F.outN j i = -(F.speed j' i' * Real.sin (F.u / 180 * Real.pi)) ∧ F.out j i = |F.speed j' i'| := by
  obtain ⟨j', i', h⟩ := copyEdges_some F.R F.C j i
  have h1 : F.outS j i = F.speed j' i' * Real.cos (F.u / 180 * Real.pi) := by
    unfold FenceIn.outS; rw [h, inner_eq]
  have h2 : F.outN j i = -(F.speed j' i' * Real.sin (F.u / 180 * Real.pi)) := by
    unfold FenceIn.outN; rw [h, inner_eq]
  refine ⟨j', i', h1, h2, ?_⟩
  unfold FenceIn.out
  rw [h1, h2, show (F.speed j' i' * Real.cos (F.u / 180 * Real.pi)) ^ 2 + (-(F.speed j' i' * Real.sin (F.u / 180 * Real.pi))) ^ 2 =
    F.speed j' i' ^ 2 by
      have := Real.cos_sq_add_sin_sq (F.u / 180 * Real.pi)
      linear_combination F.speed j' i' ^ 2 * this, Real.sqrt_sq_eq_abs]

theorem fenceTurn_id (udir : ℝ) (h0 : 0 < udir) (h1 : udir < 360) (h2 : udir ≠ 180) : fenceTurn udir = udir := by
  unfold fenceTurn
  dsimp only
  rw [if_neg (show ¬ udir < 0 by linarith)]
  have : ⌊udir / 360⌋ = 0 := by
    rw [Int.floor_eq_zero_iff]
    exact ⟨by positivity, by rw [div_lt_one (by norm_num)]; exact h1⟩
  rw [this]
  simp only [Int.cast_zero, zero_mul, sub_zero]
  rw [if_neg]
  rintro (h | h | h | h | h)
  · linarith
  · linarith
  · linarith
  · linarith
  · exact h2 h

/-! ### Extent -/

theorem foldl_max_ge (f : ℕ → ℝ) (l : List ℕ) (r : ℝ) :
    r ≤ l.foldl (fun r i => max r (f i)) r ∧ ∀ i ∈ l, f i ≤ l.foldl (fun r i => max r (f i)) r := by
  induction l generalizing r with
  | nil => exact ⟨le_rfl, by simp⟩
  | cons a l ih =>
    obtain ⟨h1, h2⟩ := ih (max r (f a))
    refine ⟨(le_max_left _ _).trans h1, ?_⟩
    intro i hi
    rcases List.mem_cons.mp hi with rfl | hi
    · exact (le_max_right _ _).trans h1
    · exact h2 i hi

theorem arrayMax_ge (R C : ℕ) (a : ℕ → ℕ → ℝ) (j i : ℕ) (hj : j < R) (hi : i < C) : a j i ≤ arrayMax R C a := by
  have key : ∀ (l : List ℕ) (r : ℝ),
      r ≤ l.foldl (fun r j => (List.range C).foldl (fun r i => max r (a j i)) r) r ∧
      ∀ j ∈ l, a j i ≤ l.foldl (fun r j => (List.range C).foldl (fun r i => max r (a j i)) r) r := by
    intro l
    induction l with
    | nil => intro r; exact ⟨le_rfl, by simp⟩
    | cons b l ih =>
      intro r
      obtain ⟨h1, h2⟩ := ih ((List.range C).foldl (fun r i => max r (a b i)) r)
      obtain ⟨h3, h4⟩ := foldl_max_ge (a b) (List.range C) r
      refine ⟨h3.trans h1, ?_⟩
      intro k hk
      rcases List.mem_cons.mp hk with rfl | hk
      · exact (h4 i (List.mem_range.mpr hi)).trans h1
      · exact h2 k hk
  exact (key (List.range R) (a 0 0)).2 j (List.mem_range.mpr hj)

/-- Extent of a rectangular grid. -/
theorem fenceExtent_ge (R C : ℕ) (hR : 1 ≤ R) (hC : 1 ≤ C) (ox oy hx hy : ℝ) (hhx : 0 ≤ hx) (hhy : 0 ≤ hy) :
    Real.sqrt (((C - 1 : ℝ) * hx) ^ 2 + ((R - 1 : ℝ) * hy) ^ 2) + 200 ≤ fenceExtent R C (lattice ox oy hx 0 0 hy) := by
  have hR' : ((R - 1 : ℕ) : ℝ) = R - 1 := by push_cast [hR]; ring
  have hC' : ((C - 1 : ℕ) : ℝ) = C - 1 := by push_cast [hC]; ring
  have h1 := arrayMax_ge R C (fun j i => (lattice ox oy hx 0 0 hy j i).1) 0 (C - 1) (by omega) (by omega)
  have h2 := arrayMax_ge R C (fun j i => -(lattice ox oy hx 0 0 hy j i).1) 0 0 (by omega) (by omega)
  have h3 := arrayMax_ge R C (fun j i => (lattice ox oy hx 0 0 hy j i).2) (R - 1) 0 (by omega) (by omega)
  have h4 := arrayMax_ge R C (fun j i => -(lattice ox oy hx 0 0 hy j i).2) 0 0 (by omega) (by omega)
  simp only [lattice, hR', hC', Nat.cast_zero, zero_mul, add_zero, mul_zero] at h1 h2 h3 h4
  unfold fenceExtent
  have e1 : 0 ≤ (C - 1 : ℝ) := by rw [← hC']; positivity
  have e2 : 0 ≤ (R - 1 : ℝ) := by rw [← hR']; positivity
  simp only [lattice, mul_zero, add_zero]
  refine add_le_add (Real.sqrt_le_sqrt (add_le_add (pow_le_pow_left₀ (by positivity) ?_ 2) (pow_le_pow_left₀ (by positivity) ?_ 2)))
    (by norm_num)
  · linarith
  · linarith

theorem regular_smul (R C : ℕ) (gy gx : ℕ → ℝ) (z : ℕ → ℕ → ℝ) (c py px : ℝ) :
    regular R C gy gx (fun j i => c * z j i) 0 py px = c * regular R C gy gx z 0 py px := by
  unfold regular
  dsimp only
  split_ifs
  · rw [mul_zero]
  · ring

/-! ### No fences -/

theorem turn_le (c s x y r : ℝ) (h : c ^ 2 + s ^ 2 = 1) (hr : 0 ≤ r) (hxy : x ^ 2 + y ^ 2 ≤ r ^ 2) :
    |x * c + y * s| ≤ r := by
  apply abs_le_of_sq_le_sq _ hr
  nlinarith [sq_nonneg (x * s - y * c)]

theorem rotate_fst_le (φ : ℝ) (o a b : ℝ × ℝ) (r : ℝ) (hr : 0 ≤ r) (h : (a.1 - b.1) ^ 2 + (a.2 - b.2) ^ 2 ≤ r ^ 2) :
    |(rotatePt φ o a).1 - (rotatePt φ o b).1| ≤ r := by
  have := turn_le _ _ (a.1 - b.1) (a.2 - b.2) r (Real.cos_sq_add_sin_sq (φ / 180 * Real.pi)) hr h
  rw [rotatePt_fst, rotatePt_fst]
  convert this using 2
  ring

theorem rotate_snd_le (φ : ℝ) (o a b : ℝ × ℝ) (r : ℝ) (hr : 0 ≤ r) (h : (a.1 - b.1) ^ 2 + (a.2 - b.2) ^ 2 ≤ r ^ 2) :
    |(rotatePt φ o a).2 - (rotatePt φ o b).2| ≤ r := by
  have := turn_le (-Real.sin (φ / 180 * Real.pi)) (Real.cos (φ / 180 * Real.pi)) (a.1 - b.1) (a.2 - b.2) r
    (by have := Real.cos_sq_add_sin_sq (φ / 180 * Real.pi); nlinarith) hr h
  rw [rotatePt_snd, rotatePt_snd]
  convert this using 2
  ring

theorem rotatePt_origin (φ : ℝ) (o : ℝ × ℝ) : rotatePt φ o o = o := by
  ext
  · rw [rotatePt_fst]; ring
  · rw [rotatePt_snd]; ring

/-- The computational grid covers the nodes of a rectangular grid. -/
theorem fenceGrid_covers (F : FenceIn) (hR : 1 ≤ F.R) (hC : 1 ≤ F.C) (ox oy hx hy : ℝ) (hhx : 0 ≤ hx) (hhy : 0 ≤ hy)
    (hg : F.g = lattice ox oy hx 0 0 hy) (hd : F.dx ≤ 200) (j i : ℕ) (hj : j < F.R) (hi : i < F.C) :
    let w := rotatePt (-(F.u + 90)) F.grid.origin (F.g j i)
    2 ≤ F.grid.rows ∧ 2 ≤ F.grid.cols ∧
      axisNode F.grid.xlo F.grid.dx 0 ≤ w.1 ∧ w.1 ≤ axisNode F.grid.xlo F.grid.dx (F.grid.cols - 1) ∧
      axisNode F.grid.ylo F.grid.dy 0 ≤ w.2 ∧ w.2 ≤ axisNode F.grid.ylo F.grid.dy (F.grid.rows - 1) := by
  intro w
  have hD := fenceExtent_ge F.R F.C hR hC ox oy hx hy hhx hhy
  have ho : F.grid.origin = (ox + (F.C - 1 : ℝ) / 2 * hx + (F.R - 1 : ℝ) / 2 * 0, oy + (F.C - 1 : ℝ) / 2 * 0 + (F.R - 1 : ℝ) / 2 * hy) := by
    show centre F.R F.C F.g = _
    rw [hg, centre_lattice F.R F.C hR hC]
  set r := Real.sqrt (((F.C - 1 : ℝ) * hx) ^ 2 + ((F.R - 1 : ℝ) * hy) ^ 2) with hr
  have hr0 : 0 ≤ r := Real.sqrt_nonneg _
  have hr2 : r ^ 2 = ((F.C - 1 : ℝ) * hx) ^ 2 + ((F.R - 1 : ℝ) * hy) ^ 2 := Real.sq_sqrt (by positivity)
  have hi' : (i : ℝ) ≤ F.C - 1 := by
    have : (i : ℝ) + 1 ≤ F.C := by exact_mod_cast hi
    linarith
  have hj' : (j : ℝ) ≤ F.R - 1 := by
    have : (j : ℝ) + 1 ≤ F.R := by exact_mod_cast hj
    linarith
  have hdist : ((F.g j i).1 - F.grid.origin.1) ^ 2 + ((F.g j i).2 - F.grid.origin.2) ^ 2 ≤ (r / 2) ^ 2 := by
    rw [div_pow, hr2, ho, hg]
    simp only [lattice]
    have a1 : ((i : ℝ) - (F.C - 1) / 2) ^ 2 ≤ ((F.C - 1 : ℝ) / 2) ^ 2 := by
      have : (0 : ℝ) ≤ i := Nat.cast_nonneg i
      apply sq_le_sq'
      · linarith
      · linarith
    have a2 : ((j : ℝ) - (F.R - 1) / 2) ^ 2 ≤ ((F.R - 1 : ℝ) / 2) ^ 2 := by
      have : (0 : ℝ) ≤ j := Nat.cast_nonneg j
      apply sq_le_sq'
      · linarith
      · linarith
    have b1 := mul_le_mul_of_nonneg_right a1 (sq_nonneg hx)
    have b2 := mul_le_mul_of_nonneg_right a2 (sq_nonneg hy)
    nlinarith
  have h1 := rotate_fst_le (-(F.u + 90)) F.grid.origin (F.g j i) F.grid.origin (r / 2) (by linarith) hdist
  have h2 := rotate_snd_le (-(F.u + 90)) F.grid.origin (F.g j i) F.grid.origin (r / 2) (by linarith) hdist
  rw [rotatePt_origin] at h1 h2
  have hdpos : 0 < max (F.dx / 2) 0.25 := lt_of_lt_of_le (by norm_num) (le_max_right _ _)
  have hd100 : max (F.dx / 2) 0.25 + 0 ≤ 100 := by
    rw [add_zero]; exact max_le (by linarith) (by norm_num)
  have hD' : r + 200 ≤ fenceExtent F.R F.C F.g := by rw [hg]; exact hD
  obtain ⟨x1, x2, x3⟩ := axis_covers F.grid.origin.1 (fenceExtent F.R F.C F.g) _ 100 w.1 0 hdpos hd100 le_rfl (by linarith)
    (h1.trans (by linarith))
  obtain ⟨y1, y2, y3⟩ := axis_covers F.grid.origin.2 (fenceExtent F.R F.C F.g) _ 100 w.2 0 hdpos hd100 le_rfl (by linarith)
    (h2.trans (by linarith))
  exact ⟨y1, x1, x2, x3, y2, y3⟩

theorem axisNode_mono (lo d : ℝ) (hd : 0 < d) : StrictMono (axisNode lo d) := by
  intro a b hab
  have : (a : ℝ) < b := by exact_mod_cast hab
  unfold axisNode
  nlinarith

/-- Without fences a uniform shear velocity keeps its value. -/
theorem speed_uniform (F : FenceIn) (ox oy hx hy U : ℝ) (hg : F.g = lattice ox oy hx 0 0 hy)
    (hhx : 1.5 * max (F.dx / 2) 0.25 ≤ hx) (hhy : 1.5 * max (F.dx / 2) 0.25 ≤ hy) (hd : F.dx ≤ 200)
    (hh : ∀ j < F.R, ∀ i < F.C, F.height j i = 0) (hU : ∀ j < F.R, ∀ i < F.C, F.ustars j i = U) (j i : ℕ) (hj1 : 1 ≤ j)
    (hj : j + 1 < F.R) (hi1 : 1 ≤ i) (hi : i + 1 < F.C) : F.speed j i = U := by
  set d := max (F.dx / 2) 0.25 with hd'
  have hdpos : 0 < d := lt_of_lt_of_le (by norm_num) (le_max_right _ _)
  have hx0 : 0 ≤ hx := by linarith
  have hy0 : 0 ≤ hy := by linarith
  obtain ⟨hrows, hcols, x1, x2, y1, y2⟩ := fenceGrid_covers F (by omega) (by omega) ox oy hx hy hx0 hy0 hg hd j i (by omega) (by omega)
  have hdx : F.grid.dx = d := rfl
  have hdy : F.grid.dy = d := rfl
  -- corners
  have hcorner : ∀ q p : ℕ, |axisNode F.grid.xlo F.grid.dx p - (rotatePt (-(F.u + 90)) F.grid.origin (F.g j i)).1| ≤ d →
      |axisNode F.grid.ylo F.grid.dy q - (rotatePt (-(F.u + 90)) F.grid.origin (F.g j i)).2| ≤ d →
      F.onGrid F.ustars q p * F.factor q p = U := by
    intro q p hp hq
    have hsq : (axisNode F.grid.xlo F.grid.dx p - (rotatePt (-(F.u + 90)) F.grid.origin (F.g j i)).1) ^ 2 +
        (axisNode F.grid.ylo F.grid.dy q - (rotatePt (-(F.u + 90)) F.grid.origin (F.g j i)).2) ^ 2 ≤ (1.5 * d) ^ 2 := by
      have a1 := sq_le_sq' (abs_le.mp hp).1 (abs_le.mp hp).2
      have a2 := sq_le_sq' (abs_le.mp hq).1 (abs_le.mp hq).2
      nlinarith
    have h1 := rotate_fst_le (F.u + 90) F.grid.origin (F.grid.node q p) (rotatePt (-(F.u + 90)) F.grid.origin (F.g j i)) (1.5 * d)
      (by linarith) hsq
    have h2 := rotate_snd_le (F.u + 90) F.grid.origin (F.grid.node q p) (rotatePt (-(F.u + 90)) F.grid.origin (F.g j i)) (1.5 * d)
      (by linarith) hsq
    rw [rotatePt_cancel] at h1 h2
    have h1 := abs_le.mp h1
    have h2 := abs_le.mp h2
    have hfac : F.factor q p = 1 := by
      apply fenceFactor_one
      intro k _ hk
      exfalso
      have : F.onGrid F.height q k = 0 := by
        unfold FenceIn.onGrid fenceInterpolate
        exact regular_zero F.R F.C (by omega) (by omega) _ _ F.height _ _ hh
      rw [this] at hk
      exact lt_irrefl _ hk
    rw [hfac, mul_one]
    unfold FenceIn.onGrid fenceInterpolate
    refine regular_same F.R F.C (by omega) (by omega) _ _ F.ustars U 0 _ _ hU ?_
    have e1 : ((F.R - 1 : ℕ) : ℝ) = F.R - 1 := by push_cast [show 1 ≤ F.R by omega]; ring
    have e2 : ((F.C - 1 : ℕ) : ℝ) = F.C - 1 := by push_cast [show 1 ≤ F.C by omega]; ring
    have f1 : (1 : ℝ) ≤ i := by exact_mod_cast hi1
    have f2 : (i : ℝ) + 2 ≤ F.C := by exact_mod_cast hi
    have f3 : (1 : ℝ) ≤ j := by exact_mod_cast hj1
    have f4 : (j : ℝ) + 2 ≤ F.R := by exact_mod_cast hj
    have g1 := mul_le_mul_of_nonneg_right f1 hx0
    have g2 := mul_le_mul_of_nonneg_right f2 hx0
    have g3 := mul_le_mul_of_nonneg_right f3 hy0
    have g4 := mul_le_mul_of_nonneg_right f4 hy0
    have k1 := h1.1
    have k2 := h1.2
    have k3 := h2.1
    have k4 := h2.2
    change -(1.5 * d) ≤ (F.gc q p).1 - _ at k1
    change (F.gc q p).1 - _ ≤ _ at k2
    change -(1.5 * d) ≤ (F.gc q p).2 - _ at k3
    change (F.gc q p).2 - _ ≤ _ at k4
    simp only [hg, lattice, mul_zero, add_zero] at k1 k2 k3 k4 ⊢
    simp only [e1, e2, Nat.cast_zero, zero_mul, add_zero]
    rintro (h | h | h | h) <;> linarith
  unfold FenceIn.speed regular
  rw [if_neg (by rintro (h | h | h | h) <;> linarith)]
  dsimp only
  set w := rotatePt (-(F.u + 90)) F.grid.origin (F.g j i) with hw
  have step : ∀ lo (k : ℕ), axisNode lo d (k + 1) = axisNode lo d k + d := by
    intro lo k; unfold axisNode; push_cast; ring
  have lx := cellOf_low (axisNode F.grid.xlo F.grid.dx) w.1 (F.grid.cols - 2) x1
  have ux := cellOf_high (axisNode F.grid.xlo F.grid.dx) w.1 (F.grid.cols - 2)
    (by rw [show F.grid.cols - 2 + 1 = F.grid.cols - 1 by omega]; exact x2)
  have ly := cellOf_low (axisNode F.grid.ylo F.grid.dy) w.2 (F.grid.rows - 2) y1
  have uy := cellOf_high (axisNode F.grid.ylo F.grid.dy) w.2 (F.grid.rows - 2)
    (by rw [show F.grid.rows - 2 + 1 = F.grid.rows - 1 by omega]; exact y2)
  generalize cellOf (axisNode F.grid.xlo F.grid.dx) w.1 (F.grid.cols - 2) = p at *
  generalize cellOf (axisNode F.grid.ylo F.grid.dy) w.2 (F.grid.rows - 2) = q at *
  have sx := step F.grid.xlo p
  have sy := step F.grid.ylo q
  rw [← hdx] at sx
  rw [← hdy] at sy
  have cx0 : |axisNode F.grid.xlo F.grid.dx p - w.1| ≤ d := abs_le.mpr ⟨by linarith, by linarith⟩
  have cx1 : |axisNode F.grid.xlo F.grid.dx (p + 1) - w.1| ≤ d := abs_le.mpr ⟨by linarith, by linarith⟩
  have cy0 : |axisNode F.grid.ylo F.grid.dy q - w.2| ≤ d := abs_le.mpr ⟨by linarith, by linarith⟩
  have cy1 : |axisNode F.grid.ylo F.grid.dy (q + 1) - w.2| ≤ d := abs_le.mpr ⟨by linarith, by linarith⟩
  rw [hcorner q p cx0 cy0, hcorner q (p + 1) cx1 cy0, hcorner (q + 1) p cx0 cy1, hcorner (q + 1) (p + 1) cx1 cy1]
  ring

end

end Aeolis.Lee
