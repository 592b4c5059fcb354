import Verif.Proofs.ShearGrid

/-! Property theorems on the computational grid of the shear model and on resampling: C108, C109. -/

set_option linter.unusedSectionVars false

namespace Aeolis.Props

open Aeolis.Spec Aeolis.Resample Aeolis.Shear

noncomputable section

/-- C108 The computational grid, turned into the wind, covers every cell of an input grid of equal parallelograms, for every wind
direction, grid size and orientation: in the frame of the wind each cell lies between the first and the last node of both
axes. The buffer has to be one computational cell plus π/1800 times the distance (along the axes) of the cell from the centre. -/
theorem C108_covers (R C : ℕ) (ox oy ax ay bx by' dx dy buffer udir : ℝ) (hdx : 0 < dx) (hdy : 0 < dy) (h1 : -1080 ≤ udir)
    (h2 : udir ≤ 990) (j i : ℕ) (hj : j < R) (hi : i < C)
    (hb : max dx dy + Real.pi / 1800 *
      (|(lattice ox oy ax ay bx by' j i).1 - (centre R C (lattice ox oy ax ay bx by')).1| +
        |(lattice ox oy ax ay bx by' j i).2 - (centre R C (lattice ox oy ax ay bx by')).2|) ≤ buffer) :
    let c := computationalGrid R C (lattice ox oy ax ay bx by') dx dy buffer udir
    let p := rotatePt (270 - udir) c.origin (lattice ox oy ax ay bx by' j i)
    2 ≤ c.rows ∧ 2 ≤ c.cols ∧ (c.node 0 0).1 ≤ p.1 ∧ p.1 ≤ (c.node 0 (c.cols - 1)).1 ∧
      (c.node 0 0).2 ≤ p.2 ∧ p.2 ≤ (c.node (c.rows - 1) 0).2 := by
  refine covers R C ox oy ax ay bx by' dx dy buffer udir hdx hdy h1 h2 j i hj hi _ ?_
    ((add_le_add (le_max_left dx dy) le_rfl).trans hb) ((add_le_add (le_max_right dx dy) le_rfl).trans hb)
  refine mul_le_mul_of_nonneg_right ?_ (by positivity)
  have hpi := Real.pi_pos
  rcases (offAxis_spec udir h1 h2).1 with h | h <;> rw [h]
  · rw [sub_self, abs_zero]; linarith
  · rw [show udir - (udir - 0.1) = 0.1 by ring, abs_of_pos (by norm_num)]; linarith

/-- C108 For directions that are not (nearly) parallel to the axes a buffer of one computational cell is enough. -/
theorem C108_covers_oblique (R C : ℕ) (ox oy ax ay bx by' dx dy buffer udir : ℝ) (hdx : 0 < dx) (hdy : 0 < dy)
    (h1 : -1080 ≤ udir) (h2 : udir ≤ 990) (hu : ∀ k : ℤ, 0.001 < |udir - 90 * k|) (j i : ℕ) (hj : j < R) (hi : i < C)
    (hb : max dx dy ≤ buffer) :
    let c := computationalGrid R C (lattice ox oy ax ay bx by') dx dy buffer udir
    let p := rotatePt (270 - udir) c.origin (lattice ox oy ax ay bx by' j i)
    2 ≤ c.rows ∧ 2 ≤ c.cols ∧ (c.node 0 0).1 ≤ p.1 ∧ p.1 ≤ (c.node 0 (c.cols - 1)).1 ∧
      (c.node 0 0).2 ≤ p.2 ∧ p.2 ≤ (c.node (c.rows - 1) 0).2 := by
  have hoff : offAxis udir = udir := by
    unfold offAxis
    rw [if_neg]
    rintro ⟨k, -, hk⟩
    have := hu ((k : ℤ) - 12)
    rw [show udir - 90 * (((k : ℤ) - 12 : ℤ) : ℝ) = udir - (-1080 + 90 * k) by push_cast; ring] at this
    linarith
  refine covers R C ox oy ax ay bx by' dx dy buffer udir hdx hdy h1 h2 j i hj hi 0 ?_
    (by linarith [le_max_left dx dy]) (by linarith [le_max_right dx dy])
  rw [hoff, sub_self]
  simp

example : let c := computationalGrid 11 21 (lattice 0 0 1 0 0 2) 1 1 5 250
    let p := rotatePt (270 - 250) c.origin (lattice 0 0 1 0 0 2 10 20)
    (c.node 0 0).1 ≤ p.1 ∧ p.1 ≤ (c.node 0 (c.cols - 1)).1 := by
  have := C108_covers_oblique 11 21 0 0 1 0 0 2 1 1 5 250 one_pos one_pos (by norm_num) (by norm_num) (fun k => by
    rcases lt_or_ge k 3 with h | h
    · have : (k : ℝ) ≤ 2 := by exact_mod_cast (by omega : k ≤ 2)
      rw [abs_of_nonneg (by linarith)]; norm_num; linarith
    · have : (3 : ℝ) ≤ k := by exact_mod_cast h
      rw [abs_of_neg (by linarith)]; norm_num; linarith) 10 20 (by norm_num) (by norm_num) (by norm_num)
  exact ⟨this.2.2.1, this.2.2.2.1⟩

/-- C109 Resampling a field from a rectangular grid of any size and orientation: inside a cell the result is the bilinear
interpolation of the values at its four corners. -/
theorem C109_cell (R C : ℕ) (o : ℝ × ℝ) (ox oy θ hx hy : ℝ) (hhx : 0 < hx) (hhy : 0 < hy) (z : ℕ → ℕ → ℝ) (fill : ℝ) (j i : ℕ)
    (hj : j + 1 < R) (hi : i + 1 < C) (v u : ℝ) (hv : 0 ≤ v ∧ v ≤ 1) (hu : 0 ≤ u ∧ u ≤ 1) :
    interpolate R C o (fun j i => rect ox oy θ hx hy j i) z fill (rect ox oy θ hx hy (j + v) (i + u)) =
      (z j i * (1 - u) + z j (i + 1) * u) * (1 - v) + (z (j + 1) i * (1 - u) + z (j + 1) (i + 1) * u) * v := by
  have h := interpolate_padded R C (by omega) (by omega) o ox oy θ hx hy hhx hhy z fill (j + v) (i + u) j i (by omega) (by omega)
    (by omega) (by omega) (by push_cast; linarith) (by push_cast; linarith) (by push_cast; linarith) (by push_cast; linarith)
  rw [h, show ((j : ℤ) + 1) = ((j + 1 : ℕ) : ℤ) by push_cast; ring, show ((i : ℤ) + 1) = ((i + 1 : ℕ) : ℤ) by push_cast; ring,
    edge_inside R j (by omega), edge_inside R (j + 1) (by omega), edge_inside C i (by omega), edge_inside C (i + 1) (by omega)]
  push_cast
  ring

/-- C109 At a node of the source grid the value of that node is found. -/
theorem C109_nodes (R C : ℕ) (hR : 2 ≤ R) (hC : 2 ≤ C) (o : ℝ × ℝ) (ox oy θ hx hy : ℝ) (hhx : 0 < hx) (hhy : 0 < hy)
    (z : ℕ → ℕ → ℝ) (fill : ℝ) (j i : ℕ) (hj : j < R) (hi : i < C) :
    interpolate R C o (fun j i => rect ox oy θ hx hy j i) z fill (rect ox oy θ hx hy j i) = z j i := by
  have key : ∀ n k : ℕ, 2 ≤ n → k < n → ∃ (m : ℕ) (w : ℝ), m + 1 < n ∧ 0 ≤ w ∧ w ≤ 1 ∧ (k : ℝ) = m + w ∧
      ∀ f : ℕ → ℝ, f m * (1 - w) + f (m + 1) * w = f k := by
    intro n k hn hk
    rcases Nat.lt_or_ge (k + 1) n with h | h
    · exact ⟨k, 0, h, le_rfl, zero_le_one, by simp, fun f => by ring⟩
    · refine ⟨n - 2, 1, by omega, zero_le_one, le_rfl, ?_, fun f => ?_⟩
      · have : k = n - 2 + 1 := by omega
        rw [this]; push_cast; ring
      · rw [show n - 2 + 1 = k by omega]; ring
  obtain ⟨j', v, a1, a2, a3, a4, a5⟩ := key R j hR hj
  obtain ⟨i', u, b1, b2, b3, b4, b5⟩ := key C i hC hi
  rw [a4, b4, C109_cell R C o ox oy θ hx hy hhx hhy z fill j' i' a1 b1 v u ⟨a2, a3⟩ ⟨b2, b3⟩, b5 (z j'), b5 (z (j' + 1)),
    a5 (fun k => z k i)]

/-- C109 Outside the source grid, up to as many rows or columns as its longer side has, the value at the nearest point of the grid
(in rows and columns) is used. -/
theorem C109_beyond (R C : ℕ) (hR : 2 ≤ R) (hC : 2 ≤ C) (o : ℝ × ℝ) (ox oy θ hx hy : ℝ) (hhx : 0 < hx) (hhy : 0 < hy)
    (z : ℕ → ℕ → ℝ) (fill t s : ℝ) (ht1 : -(max R C : ℕ) ≤ t) (ht2 : t ≤ R - 1 + (max R C : ℕ)) (hs1 : -(max R C : ℕ) ≤ s)
    (hs2 : s ≤ C - 1 + (max R C : ℕ)) :
    interpolate R C o (fun j i => rect ox oy θ hx hy j i) z fill (rect ox oy θ hx hy t s) =
      interpolate R C o (fun j i => rect ox oy θ hx hy j i) z fill
        (rect ox oy θ hx hy (max 0 (min t (R - 1))) (max 0 (min s (C - 1)))) := by
  obtain ⟨j, j', ⟨a1, a2, a3, a4⟩, ⟨b1, b2, b3, b4⟩, hJ⟩ := axis_clamp R (max R C) hR t ht1 ht2
  obtain ⟨i, i', ⟨c1, c2, c3, c4⟩, ⟨d1, d2, d3, d4⟩, hI⟩ := axis_clamp C (max R C) hC s hs1 hs2
  rw [interpolate_padded R C hR hC o ox oy θ hx hy hhx hhy z fill t s j i a1 a2 c1 c2 a3 a4 c3 c4,
    interpolate_padded R C hR hC o ox oy θ hx hy hhx hhy z fill _ _ j' i' b1 b2 d1 d2 b3 b4 d3 d4,
    hI (fun k => z (edge R j) k), hI (fun k => z (edge R (j + 1)) k)]
  exact hJ (fun k => z k (edge C i') * (1 - (max 0 (min s (C - 1)) - i')) +
    z k (edge C (i' + 1)) * (max 0 (min s (C - 1)) - i'))

/-- C109 Further away the fill value is used. -/
theorem C109_far (R C : ℕ) (hR : 2 ≤ R) (hC : 2 ≤ C) (o : ℝ × ℝ) (ox oy θ hx hy : ℝ) (hhx : 0 < hx) (hhy : 0 < hy)
    (z : ℕ → ℕ → ℝ) (fill t s : ℝ)
    (h : t < -(max R C : ℕ) ∨ R - 1 + (max R C : ℕ) < t ∨ s < -(max R C : ℕ) ∨ C - 1 + (max R C : ℕ) < s) :
    interpolate R C o (fun j i => rect ox oy θ hx hy j i) z fill (rect ox oy θ hx hy t s) = fill := by
  obtain ⟨c1, c2, e⟩ := interpolate_rect R C hR hC o ox oy θ hx hy hhx hhy z fill t s
  rw [e]
  unfold regular
  rw [if_pos]
  have hRc : ((R + 2 * max R C - 1 : ℕ) : ℝ) = R + 2 * (max R C : ℕ) - 1 := by
    rw [Nat.cast_sub (by omega)]; push_cast; ring
  have hCc : ((C + 2 * max R C - 1 : ℕ) : ℝ) = C + 2 * (max R C : ℕ) - 1 := by
    rw [Nat.cast_sub (by omega)]; push_cast; ring
  beta_reduce
  rw [hRc, hCc]
  generalize ((max R C : ℕ) : ℝ) = p at *
  simp only [Nat.cast_zero]
  rcases h with h | h | h | h
  · exact Or.inl (by nlinarith)
  · exact Or.inr (Or.inl (by nlinarith))
  · exact Or.inr (Or.inr (Or.inl (by nlinarith)))
  · exact Or.inr (Or.inr (Or.inr (by nlinarith)))

/-- C109 Resampling creates no new extremes. -/
theorem C109_bounds (R C : ℕ) (hR : 2 ≤ R) (hC : 2 ≤ C) (o : ℝ × ℝ) (ox oy θ hx hy : ℝ) (hhx : 0 < hx) (hhy : 0 < hy)
    (z : ℕ → ℕ → ℝ) (fill lo hi : ℝ) (hz : ∀ j < R, ∀ i < C, lo ≤ z j i ∧ z j i ≤ hi) (hf : lo ≤ fill ∧ fill ≤ hi) (pt : ℝ × ℝ) :
    lo ≤ interpolate R C o (fun j i => rect ox oy θ hx hy j i) z fill pt ∧
      interpolate R C o (fun j i => rect ox oy θ hx hy j i) z fill pt ≤ hi := by
  have e1 := interpolate_linear R C o (fun j i => rect ox oy θ hx hy j i) z (fun _ _ => lo) fill lo 1 (-1) pt
  have e2 := interpolate_linear R C o (fun j i => rect ox oy θ hx hy j i) (fun _ _ => hi) z hi fill 1 (-1) pt
  rw [interpolate_const] at e1 e2
  have n1 := interpolate_nonneg R C hR hC o ox oy θ hx hy hhx hhy (fun j i => 1 * z j i + -1 * lo) (1 * fill + -1 * lo)
    (fun j hj i hi' => by linarith [(hz j hj i hi').1]) (by linarith [hf.1]) pt
  have n2 := interpolate_nonneg R C hR hC o ox oy θ hx hy hhx hhy (fun j i => 1 * hi + -1 * z j i) (1 * hi + -1 * fill)
    (fun j hj i hi' => by linarith [(hz j hj i hi').2]) (by linarith [hf.2]) pt
  rw [e1] at n1
  rw [e2] at n2
  constructor <;> linarith

/-- C109 A plane bed is resampled without error in the whole source grid. -/
theorem C109_plane (R C : ℕ) (hR : 2 ≤ R) (hC : 2 ≤ C) (o : ℝ × ℝ) (ox oy θ hx hy : ℝ) (hhx : 0 < hx) (hhy : 0 < hy)
    (a b c fill t s : ℝ) (ht : 0 ≤ t ∧ t ≤ R - 1) (hs : 0 ≤ s ∧ s ≤ C - 1) :
    interpolate R C o (fun j i => rect ox oy θ hx hy j i)
      (fun j i => a * (rect ox oy θ hx hy j i).1 + b * (rect ox oy θ hx hy j i).2 + c) fill (rect ox oy θ hx hy t s) =
      a * (rect ox oy θ hx hy t s).1 + b * (rect ox oy θ hx hy t s).2 + c := by
  have key : ∀ (n : ℕ) (t : ℝ), 2 ≤ n → 0 ≤ t → t ≤ n - 1 → ∃ (m : ℕ) (w : ℝ), m + 1 < n ∧ 0 ≤ w ∧ w ≤ 1 ∧ t = m + w := by
    intro n t hn h0 h1
    rcases eq_or_lt_of_le h1 with h | h
    · refine ⟨n - 2, 1, by omega, zero_le_one, le_rfl, ?_⟩
      rw [h, Nat.cast_sub hn]; push_cast; ring
    · refine ⟨⌊t⌋₊, t - ⌊t⌋₊, ?_, by linarith [Nat.floor_le h0], by linarith [Nat.lt_floor_add_one t], by ring⟩
      have : (⌊t⌋₊ : ℝ) + 1 < n := by linarith [Nat.floor_le h0]
      exact_mod_cast this
  obtain ⟨j, v, a1, a2, a3, rfl⟩ := key R t hR ht.1 ht.2
  obtain ⟨i, u, b1, b2, b3, rfl⟩ := key C s hC hs.1 hs.2
  rw [C109_cell R C o ox oy θ hx hy hhx hhy _ fill j i a1 b1 v u ⟨a2, a3⟩ ⟨b2, b3⟩]
  unfold rect
  push_cast
  ring

example : interpolate 2 3 (1, 1) (fun j i => rect 4 2 1 2 3 j i) (fun j i => (j : ℝ) + 10 * i) 0
    (rect 4 2 1 2 3 ((0 : ℕ) + 1 / 2) ((1 : ℕ) + 1 / 4)) = 13 := by
  rw [C109_cell 2 3 (1, 1) 4 2 1 2 3 (by norm_num) (by norm_num) _ 0 0 1 (by norm_num) (by norm_num) (1 / 2) (1 / 4)
    ⟨by norm_num, by norm_num⟩ ⟨by norm_num, by norm_num⟩]
  norm_num

end

/-- A node, a point beyond the grid and one far beyond. -/
example : interpolate 2 3 (1, 1) (fun j i => rect 4 2 1 2 3 j i) (fun j i => (j : ℝ) + 10 * i) 0 (rect 4 2 1 2 3 (1 : ℕ) (2 : ℕ)) = 21 ∧
    interpolate 2 3 (1, 1) (fun j i => rect 4 2 1 2 3 j i) (fun j i => (j : ℝ) + 10 * i) 0 (rect 4 2 1 2 3 2 3.5)
      = interpolate 2 3 (1, 1) (fun j i => rect 4 2 1 2 3 j i) (fun j i => (j : ℝ) + 10 * i) 0 (rect 4 2 1 2 3 1 2) ∧
    interpolate 2 3 (1, 1) (fun j i => rect 4 2 1 2 3 j i) (fun j i => (j : ℝ) + 10 * i) 0 (rect 4 2 1 2 3 9 1) = 0 := by
  refine ⟨?_, ?_, ?_⟩
  · rw [C109_nodes 2 3 (by norm_num) (by norm_num) (1, 1) 4 2 1 2 3 (by norm_num) (by norm_num) _ 0 1 2 (by norm_num) (by norm_num)]
    norm_num
  · rw [C109_beyond 2 3 (by norm_num) (by norm_num) (1, 1) 4 2 1 2 3 (by norm_num) (by norm_num) _ 0 2 3.5 (by norm_num) (by norm_num)
      (by norm_num) (by norm_num)]
    norm_num
  · exact C109_far 2 3 (by norm_num) (by norm_num) (1, 1) 4 2 1 2 3 (by norm_num) (by norm_num) _ 0 9 1 (.inr (.inl (by norm_num)))

example (pt : ℝ × ℝ) : 0 ≤ interpolate 2 3 (1, 1) (fun j i => rect 4 2 1 2 3 j i) (fun j i => (j : ℝ) + 10 * i) 0 pt ∧
    interpolate 2 3 (1, 1) (fun j i => rect 4 2 1 2 3 j i) (fun j i => (j : ℝ) + 10 * i) 0 pt ≤ 21 := by
  refine C109_bounds 2 3 (by norm_num) (by norm_num) (1, 1) 4 2 1 2 3 (by norm_num) (by norm_num) _ 0 0 21 (fun j hj i hi => ?_) (by norm_num) pt
  have h1 : (j : ℝ) ≤ 1 := by exact_mod_cast Nat.lt_succ_iff.mp hj
  have h2 : (i : ℝ) ≤ 2 := by exact_mod_cast Nat.lt_succ_iff.mp hi
  have h3 := Nat.cast_nonneg (α := ℝ) j
  have h4 := Nat.cast_nonneg (α := ℝ) i
  constructor <;> linarith

end Aeolis.Props
