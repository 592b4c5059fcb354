import Mathlib.Analysis.SpecialFunctions.Trigonometric.Basic
import Mathlib.Algebra.BigOperators.Field

/-! Model of `utils.rotate` (aeolis/utils.py:319-334), the identical `WindShear.rotate`
(aeolis/shear.py:818-833) and `fences` rotation (aeolis/fences.py:425-440), over ℝ. -/

namespace Aeolis

/-- `rotate` of one point: row vector `(x - ox, y - oy)` times `[[cos a, -sin a], [sin a, cos a]]`,
`a = alpha/180*pi`, plus the origin; aeolis/utils.py:322-334. -/
noncomputable def rotatePt (alpha : ℝ) (origin pt : ℝ × ℝ) : ℝ × ℝ :=
  let xr := pt.1 - origin.1
  let yr := pt.2 - origin.2
  let a := alpha / 180 * Real.pi
  (xr * Real.cos a + yr * Real.sin a + origin.1, xr * -Real.sin a + yr * Real.cos a + origin.2)

/-- `rotate` of a whole grid with cells `ι` (the code's reshape to two columns and back).
Models aeolis/utils.py:319-334. -/
noncomputable def rotateGrid {ι : Type*} (alpha : ℝ) (origin : ℝ × ℝ) (g : ι → ℝ × ℝ) : ι → ℝ × ℝ :=
  fun i => rotatePt alpha origin (g i)

/-- `(np.mean(s['x']), np.mean(s['y']))`, aeolis/model.py:645. -/
noncomputable def gridMean {ι : Type*} [Fintype ι] (g : ι → ℝ × ℝ) : ℝ × ℝ :=
  ((∑ i, (g i).1) / Fintype.card ι, (∑ i, (g i).2) / Fintype.card ι)

end Aeolis
