import Verif.Model.Grid
import Mathlib.Algebra.BigOperators.Intervals
import Mathlib.Tactic.Linarith
import Mathlib.Tactic.LinearCombination
import Mathlib.Tactic.NormNum
import Mathlib.Tactic.FieldSimp

/-! Grid parameters: C78, C95. -/

namespace Aeolis.Props

open Aeolis.Grid Finset

/-- Distance between two points. -/
noncomputable def distance (a b : ℝ × ℝ) : ℝ := Real.sqrt ((a.1 - b.1) ^ 2 + (a.2 - b.2) ^ 2)

/-- C78. Cell areas are the products of the cell sizes, and the stored inverses are their inverses where the size is not
zero. -/
theorem C78_areas (ny nx : ℕ) (x y : ℕ → ℕ → ℝ) (m : Metrics) (h : initGrid ny nx x y = .ok m) (i j : ℕ) :
    m.dsdn i j = m.ds i j * m.dn i j ∧
      (m.ds i j ≠ 0 → m.dn i j ≠ 0 → m.dsdni i j * m.dsdn i j = 1) := by
  by_cases hnx : nx = 0
  · rw [initGrid, if_pos hnx] at h; cases h
  rw [initGrid, if_neg hnx] at h
  cases h
  refine ⟨rfl, fun h1 h2 => ?_⟩
  exact one_div_mul_cancel (mul_ne_zero h1 h2)

/-- C78. In a transect the cell sizes are the differences of the coordinates, the first one that of the second cell, and
the cells are one metre wide; the sizes but the first add up to the length of the transect. -/
theorem C78_transect (nx : ℕ) (x y : ℕ → ℕ → ℝ) (m : Metrics) (h : initGrid 0 nx x y = .ok m) (i j : ℕ) :
    m.dn i j = 1 ∧ (1 ≤ j → m.ds i j = x i j - x i (j - 1)) ∧ m.ds i 0 = m.ds i 1 ∧
      ∑ k ∈ range nx, m.ds i (k + 1) = x i nx - x i 0 := by
  by_cases hnx : nx = 0
  · rw [initGrid, if_pos hnx] at h; cases h
  rw [initGrid, if_neg hnx] at h
  cases h
  refine ⟨by simp, ?_, by simp, ?_⟩
  · intro hj
    have : ¬ j = 0 := by omega
    simp [this]
  · simp only [if_true, Nat.add_sub_cancel, Nat.add_eq_zero_iff, one_ne_zero, and_false, if_false]
    exact Finset.sum_range_sub (fun k => x i k) nx

example : ∃ m, initGrid 0 3 (fun _ j => (j : ℝ) ^ 2) (fun _ _ => 0) = .ok m := ⟨_, rfl⟩

theorem rotate_dist (alpha : ℝ) (o p q : ℝ × ℝ) :
    ((rotatePt alpha o p).1 - (rotatePt alpha o q).1) ^ 2 + ((rotatePt alpha o p).2 - (rotatePt alpha o q).2) ^ 2 =
      (p.1 - q.1) ^ 2 + (p.2 - q.2) ^ 2 := by
  unfold rotatePt
  have := Real.sin_sq_add_cos_sq (alpha / 180 * Real.pi)
  dsimp only
  linear_combination ((p.1 - q.1) ^ 2 + (p.2 - q.2) ^ 2) * this

/-- C78. In a planar grid every cell has the sizes of the first one: `dn` is the distance between the first two points of
the first row, and `ds` that between the first two points of the first column. -/
theorem C78_planar (ny nx : ℕ) (hny : ny ≠ 0) (x y : ℕ → ℕ → ℝ) (m : Metrics)
    (h : initGrid ny nx x y = .ok m) (i j : ℕ) :
    m.dn i j = distance (x 0 1, y 0 1) (x 0 0, y 0 0) ∧ m.ds i j = distance (x 1 0, y 1 0) (x 0 0, y 0 0) := by
  by_cases hnx : nx = 0
  · rw [initGrid, if_pos hnx] at h; cases h
  rw [initGrid, if_neg hnx] at h
  cases h
  simp only [hny, if_false]
  constructor
  · unfold distance
    rw [add_comm, rotate_dist]
  · unfold distance
    rw [rotate_dist]

/-- C78. The two cell sizes of a planar grid are exchanged: the columns of a rectangular grid are `a` apart and its rows
`b`, and the size `ds` in the direction of the columns is `b`, and `dn` is `a`. -/
theorem C78_sizes_exchanged (ny nx : ℕ) (hny : ny ≠ 0) (hnx : nx ≠ 0) (a b x0 y0 : ℝ) (ha : 0 ≤ a) (hb : 0 ≤ b) :
    ∃ m, initGrid ny nx (fun _ j => x0 + j * a) (fun i _ => y0 + i * b) = .ok m ∧
      ∀ i j, m.ds i j = b ∧ m.dn i j = a := by
  have : ∃ m, initGrid ny nx (fun _ j => x0 + j * a) (fun i _ => y0 + i * b) = .ok m := by
    unfold initGrid
    rw [if_neg hnx]
    exact ⟨_, rfl⟩
  obtain ⟨m, hm⟩ := this
  refine ⟨m, hm, fun i j => ?_⟩
  obtain ⟨h1, h2⟩ := C78_planar ny nx hny _ _ m hm i j
  rw [h1, h2]
  unfold distance
  constructor
  · have : ((x0 + ((0 : ℕ) : ℝ) * a) - (x0 + ((0 : ℕ) : ℝ) * a)) ^ 2 + ((y0 + ((1 : ℕ) : ℝ) * b) - (y0 + ((0 : ℕ) : ℝ) * b)) ^ 2 = b ^ 2 := by
      push_cast; ring
    rw [this, Real.sqrt_sq hb]
  · have : ((x0 + ((1 : ℕ) : ℝ) * a) - (x0 + ((0 : ℕ) : ℝ) * a)) ^ 2 + ((y0 + ((0 : ℕ) : ℝ) * b) - (y0 + ((0 : ℕ) : ℝ) * b)) ^ 2 = a ^ 2 := by
      push_cast; ring
    rw [this, Real.sqrt_sq ha]

/-- C78. A single column is rejected. -/
theorem C78_single_column (ny : ℕ) (x y : ℕ → ℕ → ℝ) : initGrid ny 0 x y = .error .indexError := rfl

theorem orientation_angle (dx dy : ℝ) :
    orientation dx dy / 180 * Real.pi = (if dx = 0 then Real.pi / 2 else Real.arctan (dy / dx)) +
      (if dx ≤ 0 ∧ dy ≤ 0 then Real.pi else 0) := by
  have hpi := Real.pi_ne_zero
  unfold orientation
  dsimp only
  split_ifs <;> field_simp <;> ring

/-- The first row after the rotation over the orientation of the grid. -/
theorem orientation_row (dx dy : ℝ) (h0 : dx ≠ 0 ∨ dy ≠ 0) :
    let a := orientation dx dy / 180 * Real.pi
    dx * -Real.sin a + dy * Real.cos a = 0 ∧
      (¬ (dx < 0 ∧ 0 < dy) → 0 < dx * Real.cos a + dy * Real.sin a) ∧
      (dx < 0 → 0 < dy → dx * Real.cos a + dy * Real.sin a < 0) := by
  intro a
  have ha : a = _ := orientation_angle dx dy
  by_cases hx : dx = 0
  · subst hx
    have hy : dy ≠ 0 := by simpa using h0
    rw [if_pos rfl] at ha
    by_cases hneg : dy ≤ 0
    · rw [if_pos ⟨le_refl _, hneg⟩] at ha
      rw [ha, Real.cos_add_pi, Real.sin_add_pi, Real.cos_pi_div_two, Real.sin_pi_div_two]
      have : dy < 0 := lt_of_le_of_ne hneg hy
      refine ⟨by ring, fun _ => by linarith, fun h => absurd h (lt_irrefl _)⟩
    · rw [if_neg (by rintro ⟨-, h⟩; exact hneg h), add_zero] at ha
      rw [ha, Real.cos_pi_div_two, Real.sin_pi_div_two]
      refine ⟨by ring, fun _ => by linarith [not_le.mp hneg], fun h => absurd h (lt_irrefl _)⟩
  · rw [if_neg hx] at ha
    set t := dy / dx with ht
    have hdy : dy = t * dx := by rw [ht]; field_simp
    have hc : 0 < Real.cos (Real.arctan t) := Real.cos_arctan_pos t
    have hs : Real.sin (Real.arctan t) = t * Real.cos (Real.arctan t) := by
      have := Real.tan_arctan t
      rw [Real.tan_eq_sin_div_cos, div_eq_iff (ne_of_gt hc)] at this
      exact this
    have hq : 0 < 1 + t ^ 2 := by positivity
    by_cases hneg : dx ≤ 0 ∧ dy ≤ 0
    · rw [if_pos hneg] at ha
      rw [ha, Real.cos_add_pi, Real.sin_add_pi, hs, hdy]
      have hlt : dx < 0 := lt_of_le_of_ne hneg.1 hx
      refine ⟨by ring, fun _ => ?_, fun _ h => absurd h (not_lt.mpr (hdy ▸ hneg.2))⟩
      have e : dx * -Real.cos (Real.arctan t) + t * dx * -(t * Real.cos (Real.arctan t)) =
          (-dx) * ((1 + t ^ 2) * Real.cos (Real.arctan t)) := by ring
      rw [e]
      exact mul_pos (by linarith) (mul_pos hq hc)
    · rw [if_neg hneg, add_zero] at ha
      rw [ha, hs]
      have e : dx * Real.cos (Real.arctan t) + dy * (t * Real.cos (Real.arctan t)) =
          dx * ((1 + t ^ 2) * Real.cos (Real.arctan t)) := by rw [hdy]; ring
      rw [e]
      refine ⟨by rw [hdy]; ring, ?_, ?_⟩
      · intro h
        have hpos : 0 < dx := by
          by_contra hle
          have hle := not_lt.mp hle
          have hlt : dx < 0 := lt_of_le_of_ne hle hx
          refine h ⟨hlt, ?_⟩
          by_contra hdy'
          exact hneg ⟨hle, not_lt.mp hdy'⟩
        exact mul_pos hpos (mul_pos hq hc)
      · intro hlt _
        exact mul_neg_of_neg_of_pos hlt (mul_pos hq hc)

/-- C95. Rotating the grid over its orientation puts the first two points of the first row at the same level, in
ascending order unless the row runs towards smaller x and larger y. -/
theorem C95_alignment (ny nx : ℕ) (x y : ℕ → ℕ → ℝ) (m : Metrics) (h : initGrid ny nx x y = .ok m)
    (h0 : x 0 1 ≠ x 0 0 ∨ m.y 0 1 ≠ m.y 0 0) (o : ℝ × ℝ)
    (hdir : ¬ (x 0 1 < x 0 0 ∧ m.y 0 0 < m.y 0 1)) :
    let r := fun i j => rotatePt m.alpha o (x i j, m.y i j)
    (r 0 1).2 = (r 0 0).2 ∧ (r 0 0).1 < (r 0 1).1 := by
  intro r
  have ha : m.alpha = orientation (x 0 1 - x 0 0) (m.y 0 1 - m.y 0 0) := by
    by_cases hnx : nx = 0
    · rw [initGrid, if_pos hnx] at h; cases h
    rw [initGrid, if_neg hnx] at h
    cases h
    rfl
  have hne : x 0 1 - x 0 0 ≠ 0 ∨ m.y 0 1 - m.y 0 0 ≠ 0 := by
    rcases h0 with h | h
    · exact Or.inl (sub_ne_zero.mpr h)
    · exact Or.inr (sub_ne_zero.mpr h)
  obtain ⟨h1, h2, -⟩ := orientation_row (x 0 1 - x 0 0) (m.y 0 1 - m.y 0 0) hne
  rw [← ha] at h1 h2
  have h3 := h2 (by rintro ⟨a, b⟩; exact hdir ⟨by linarith, by linarith⟩)
  constructor
  · simp only [r, rotatePt]
    linear_combination h1
  · simp only [r, rotatePt]
    linarith

/-- C95. A row that runs towards smaller x and larger y is aligned in descending order, although the solver needs
ascending coordinates. -/
theorem C95_descending (ny nx : ℕ) (x y : ℕ → ℕ → ℝ) (m : Metrics) (h : initGrid ny nx x y = .ok m) (o : ℝ × ℝ)
    (h1 : x 0 1 < x 0 0) (h2 : m.y 0 0 < m.y 0 1) :
    let r := fun i j => rotatePt m.alpha o (x i j, m.y i j)
    (r 0 1).2 = (r 0 0).2 ∧ (r 0 1).1 < (r 0 0).1 := by
  intro r
  have ha : m.alpha = orientation (x 0 1 - x 0 0) (m.y 0 1 - m.y 0 0) := by
    by_cases hnx : nx = 0
    · rw [initGrid, if_pos hnx] at h; cases h
    rw [initGrid, if_neg hnx] at h
    cases h
    rfl
  obtain ⟨g1, -, g3⟩ := orientation_row (x 0 1 - x 0 0) (m.y 0 1 - m.y 0 0) (Or.inl (ne_of_lt (by linarith)))
  rw [← ha] at g1 g3
  have g := g3 (by linarith) (by linarith)
  constructor
  · simp only [r, rotatePt]
    linear_combination g1
  · simp only [r, rotatePt]
    linarith

/-- C95. The warning on grids that are not ascending after rotation looks at the grid before rotation: a grid whose rows run
along the y-axis is ascending after rotation in both directions, and warned about. -/
theorem C95_warning_before_rotation (ny nx : ℕ) (hny : ny ≠ 0) (hnx : nx ≠ 0) (o : ℝ × ℝ) :
    ∃ m, initGrid ny nx (fun i _ => -(i : ℝ)) (fun _ j => (j : ℝ)) = .ok m ∧ m.warned ∧
      let r := fun (i j : ℕ) => rotatePt m.alpha o (-(i : ℝ), (j : ℝ))
      ∀ i j, (r i j).1 < (r i (j + 1)).1 ∧ (r i j).2 < (r (i + 1) j).2 := by
  refine ⟨_, by rw [initGrid, if_neg hnx], ?_, ?_⟩
  · dsimp only
    exact ⟨Nat.pos_of_ne_zero hny, Or.inl (by simp)⟩
  · intro r i j
    have ha : orientation (-((0 : ℕ) : ℝ) - -((0 : ℕ) : ℝ)) (((1 : ℕ) : ℝ) - ((0 : ℕ) : ℝ)) / 180 * Real.pi =
        Real.pi / 2 := by
      rw [orientation_angle]
      norm_num
    simp only [r, rotatePt, hny, if_false, ha, Real.cos_pi_div_two, Real.sin_pi_div_two]
    push_cast
    constructor <;> linarith

example : ∃ m, initGrid 2 2 (fun i j => (j : ℝ) - i) (fun i j => (j : ℝ) + i) = .ok m ∧
    m.y 0 1 ≠ m.y 0 0 ∧ ¬ ((1 : ℝ) < 0 ∧ m.y 0 0 < m.y 0 1) := by
  refine ⟨_, rfl, ?_, ?_⟩ <;> norm_num

/-- Cells of 2 by 3 m: the sizes are stored the other way round, the areas are right. -/
example : ∃ m, initGrid 4 5 (fun _ j => 10 + (j : ℝ) * 2) (fun i _ => 20 + (i : ℝ) * 3) = .ok m ∧
    m.ds 1 1 = 3 ∧ m.dn 1 1 = 2 ∧ m.dsdn 1 1 = 6 ∧ m.dsdni 1 1 * m.dsdn 1 1 = 1 := by
  obtain ⟨m, h, hs⟩ := C78_sizes_exchanged 4 5 (by norm_num) (by norm_num) 2 3 10 20 (by norm_num) (by norm_num)
  have ha := C78_areas _ _ _ _ m h 1 1
  obtain ⟨h1, h2⟩ := hs 1 1
  refine ⟨m, h, h1, h2, by rw [ha.1, h1, h2]; norm_num, ha.2 (by rw [h1]; norm_num) (by rw [h2]; norm_num)⟩

/-- A grid turned by an eighth of a turn: the first row lies along the x-axis afterwards. -/
example : ∃ m, initGrid 2 2 (fun i j => (j : ℝ) - i) (fun i j => (j : ℝ) + i) = .ok m ∧
    m.dn 0 0 = distance (1, 1) (0, 0) ∧
    (rotatePt m.alpha (0, 0) (1, 1)).2 = (rotatePt m.alpha (0, 0) (0, 0)).2 := by
  refine ⟨_, rfl, ?_, ?_⟩
  · simpa using (C78_planar 2 2 (by norm_num) (fun i j => (j : ℝ) - i) (fun i j => (j : ℝ) + i) _ rfl 0 0).1
  · have := (C95_alignment 2 2 (fun i j => (j : ℝ) - i) (fun i j => (j : ℝ) + i) _ rfl (.inl (by norm_num)) (0, 0) (by norm_num)).1
    simpa using this

/-- Descending x with ascending y along the first row: the row comes out reversed. -/
example : ∃ m, initGrid 2 2 (fun i j => -(j : ℝ) - i) (fun i j => (j : ℝ) - i) = .ok m ∧
    (rotatePt m.alpha (0, 0) (-1, 1)).1 < (rotatePt m.alpha (0, 0) (0, 0)).1 := by
  refine ⟨_, rfl, ?_⟩
  have := (C95_descending 2 2 (fun i j => -(j : ℝ) - i) (fun i j => (j : ℝ) - i) _ rfl (0, 0) (by norm_num) (by norm_num)).2
  simpa using this

end Aeolis.Props
