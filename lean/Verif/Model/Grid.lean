import Mathlib.Analysis.SpecialFunctions.Trigonometric.Arctan
import Verif.Model.Rotate
import Verif.Model.State

/-! Model of the grid parameters, aeolis/gridparams.py:38-217. -/

namespace Aeolis.Grid

open Finset

/-- Grid parameters: cell sizes, areas, inverse areas and orientation (degrees).
Models aeolis/gridparams.py:38-217. -/
structure Metrics where
  y : ℕ → ℕ → ℝ
  ds : ℕ → ℕ → ℝ
  dn : ℕ → ℕ → ℝ
  dsdn : ℕ → ℕ → ℝ
  dsdni : ℕ → ℕ → ℝ
  alpha : ℝ
  /-- the warning on descending coordinates is given, aeolis/gridparams.py:210-215 -/
  warned : Prop

/-- Orientation of the first row, aeolis/gridparams.py:182-192. -/
noncomputable def orientation (dx dy : ℝ) : ℝ :=
  let a := if dx = 0 then 90 else Real.arctan (dy / dx) * (180 / Real.pi)
  if dx ≤ 0 ∧ dy ≤ 0 then a + 180 else a

/-- Mean of the coordinates, aeolis/gridparams.py:195. -/
noncomputable def mean (ny nx : ℕ) (f : ℕ → ℕ → ℝ) : ℝ :=
  (∑ i ∈ range (ny + 1), ∑ j ∈ range (nx + 1), f i j) / ((ny + 1) * (nx + 1))

/-- `gridparams.initialize`, aeolis/gridparams.py:57-217, for a grid of `ny+1` rows and `nx+1` columns; `IndexError` for a single
column (line 183). Inverse areas of cells of size zero are infinite in the code and zero here. -/
noncomputable def initGrid (ny nx : ℕ) (x ygrid : ℕ → ℕ → ℝ) : Except PyErr Metrics :=
  if nx = 0 then .error .indexError
  else
    let y : ℕ → ℕ → ℝ := if ny = 0 then fun _ _ => 0 else ygrid
    let alpha := orientation (x 0 1 - x 0 0) (y 0 1 - y 0 0)
    let r := fun i j => rotatePt alpha (mean ny nx x, mean ny nx y) (x i j, y i j)
    let dn : ℕ → ℕ → ℝ := fun _ _ =>
      if ny = 0 then 1
      else Real.sqrt (((r 0 1).2 - (r 0 0).2) ^ 2 + ((r 0 1).1 - (r 0 0).1) ^ 2)
    let ds : ℕ → ℕ → ℝ := fun i j =>
      if ny = 0 then (if j = 0 then x i 1 - x i 0 else x i j - x i (j - 1))
      else Real.sqrt (((r 1 0).1 - (r 0 0).1) ^ 2 + ((r 1 0).2 - (r 0 0).2) ^ 2)
    .ok { y := y, ds := ds, dn := dn, dsdn := fun i j => ds i j * dn i j,
          dsdni := fun i j => 1 / (ds i j * dn i j), alpha := alpha,
          warned := 0 < ny ∧ (x 0 1 - x 0 0 ≤ 0 ∨ y 1 0 - y 0 0 ≤ 0) }

end Aeolis.Grid
