import Mathlib.Analysis.SpecialFunctions.Trigonometric.Basic

/-! Grids used in the statements about resampling and the wind-aligned computational grid. -/

namespace Aeolis.Spec

/-- Point of a rectangular grid of any orientation at (fractional) row `t` and column `s`: first node `(ox, oy)`, rows at angle
`θ` with the horizontal, cell sizes `hx` and `hy`. -/
noncomputable def rect (ox oy θ hx hy t s : ℝ) : ℝ × ℝ :=
  (ox + s * hx * Real.cos θ - t * hy * Real.sin θ, oy + s * hx * Real.sin θ + t * hy * Real.cos θ)

/-- Node of a grid of equal parallelograms: first node `(ox, oy)`, steps `(ax, ay)` along a row and `(bx, by')` along a column. -/
def lattice (ox oy ax ay bx by' : ℝ) (j i : ℕ) : ℝ × ℝ := (ox + i * ax + j * bx, oy + i * ay + j * by')

end Aeolis.Spec
