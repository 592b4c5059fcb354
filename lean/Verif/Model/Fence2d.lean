import Verif.Model.Lee
import Verif.Model.Shear

/-!
Model of the sheltering by fences on two-dimensional grids, aeolis/fences.py:85-422.  Arrays are functions of row and column
together with their sizes; numbers are reals.
-/

namespace Aeolis.Lee

open Aeolis.Resample

noncomputable section

open Classical

/-- Wind direction brought to one turn; directions along the rows of the grid are turned a little, aeolis/fences.py:99-105. -/
def fenceTurn (udir : ℝ) : ℝ :=
  let u := if udir < 0 then udir + 360 else udir
  let u := u - ⌊u / 360⌋ * 360
  if u = 0 ∨ u = 360 ∨ u = -360 ∨ u = -180 ∨ u = 180 then u + 0.00001 else u

/-- `a.max()` of an array with `R` rows and `C` columns, both positive. Used in the code at aeolis/fences.py:154-155. -/
def arrayMax (R C : ℕ) (a : ℕ → ℕ → ℝ) : ℝ :=
  (List.range R).foldl (fun r j => (List.range C).foldl (fun r i => max r (a j i)) r) (a 0 0)

/-- Diagonal of the bounding box of the grid plus twice the buffer, aeolis/fences.py:154-155 (`-max (-a)` is `a.min()`). -/
def fenceExtent (R C : ℕ) (g : ℕ → ℕ → ℝ × ℝ) : ℝ :=
  Real.sqrt ((arrayMax R C (fun j i => (g j i).1) + arrayMax R C (fun j i => -(g j i).1)) ^ 2 +
    (arrayMax R C (fun j i => (g j i).2) + arrayMax R C (fun j i => -(g j i).2)) ^ 2) + 2 * 100

/-- Computational grid, aeolis/fences.py:95-96,107,138-165: cell size half that of the model, at least 0.25. -/
def fenceGrid (R C : ℕ) (g : ℕ → ℕ → ℝ × ℝ) (pdx : ℝ) : Shear.CGrid :=
  let d := max (pdx / 2) 0.25
  let o := Shear.centre R C g
  let D := fenceExtent R C g
  { origin := o, xlo := o.1 - D / 2, ylo := o.2 - D / 2, dx := d, dy := d,
    rows := axisCount (o.2 - D / 2) (o.2 + D / 2) d, cols := axisCount (o.1 - D / 2) (o.1 + D / 2) d }

/-- Distance of a cell at `x` behind a fence at `xi`, aeolis/fences.py:360-363. -/
def fenceAhead (u xi x : ℝ) : ℝ := if 180 ≤ u ∧ u ≤ 360 then x - xi else -(x - xi)

/-- Combined reduction in a cell of a row with `n` cells, aeolis/fences.py:345-395. -/
def fenceReduction (c1 intercept u : ℝ) (n : ℕ) (x height : ℕ → ℝ) (j : ℕ) : ℝ :=
  let all := (List.range n).foldl (fun all i =>
    if 0 < height i then all + reduction c1 intercept (height i) (fenceAhead u (x i) (x j)) else all) 0
  if 1 < all then 1 else all

/-- `compute_fenceshear`, aeolis/fences.py:323-410: factor on the shear velocity, one in the outer cells. -/
def fenceFactor (c1 intercept u : ℝ) (rows cols : ℕ) (x height : ℕ → ℕ → ℝ) (q p : ℕ) : ℝ :=
  if q = 0 ∨ p = 0 ∨ q + 1 = rows ∨ p + 1 = cols then 1
  else 1 - fenceReduction c1 intercept u cols (x q) (height q) p

/-- The outer rows and columns get the values next to them, in this order, aeolis/fences.py:230-238. -/
def copyEdges (R C : ℕ) (f : ℕ → ℕ → ℝ) : ℕ → ℕ → ℝ :=
  let f1 := fun j i => if j = 0 then f 1 i else f j i
  let f2 := fun j i => if i = 0 then f1 j 1 else f1 j i
  let f3 := fun j i => if j + 1 = R then f2 (R - 2) i else f2 j i
  fun j i => if i + 1 = C then f3 j (C - 2) else f3 j i

/-- Input of `fence_shear2d`: grid with `R` rows and `C` columns (both at least 2), fence height, components of the shear velocity,
cell size, wind direction and parameters of Okin's model. Models aeolis/fences.py:85-108. -/
structure FenceIn where
  R : ℕ
  C : ℕ
  g : ℕ → ℕ → ℝ × ℝ
  height : ℕ → ℕ → ℝ
  ustars : ℕ → ℕ → ℝ
  ustarn : ℕ → ℕ → ℝ
  dx : ℝ
  udir : ℝ
  c1 : ℝ
  intercept : ℝ

namespace FenceIn

variable (F : FenceIn)

/-- Wind direction used, aeolis/fences.py:99-105. -/
def u : ℝ := fenceTurn F.udir

/-- Computational grid before rotation, aeolis/fences.py:138-165. -/
def grid : Shear.CGrid := fenceGrid F.R F.C F.g F.dx

/-- Rotated computational grid, aeolis/fences.py:184,299,310-311. -/
def gc (q p : ℕ) : ℝ × ℝ := rotatePt (F.u + 90) F.grid.origin (F.grid.node q p)

/-- Field of the model on the computational grid, aeolis/fences.py:302-304. -/
def onGrid (f : ℕ → ℕ → ℝ) (q p : ℕ) : ℝ := fenceInterpolate F.R F.C F.g f (F.gc q p)

/-- Factor on the computational grid, aeolis/fences.py:187,323-410. -/
def factor (q p : ℕ) : ℝ :=
  fenceFactor F.c1 F.intercept F.u F.grid.rows F.grid.cols (fun q p => (F.gc q p).1) (F.onGrid F.height) q p

/-- Shear velocity on the computational grid up to its interpolation to the grid of the model, aeolis/fences.py:190-205.  In the
last line the components change places. -/
def reduced (q p : ℕ) : ℝ × ℝ :=
  let v := (F.onGrid F.ustars q p * F.factor q p, (0 : ℝ))
  let v := rotatePt (F.u + 90) (0, 0) v
  let v := rotatePt (-(F.u + 90)) (0, 0) v
  (v.2, v.1)

/-- Shear velocity on the grid of the model before the edges are copied, aeolis/fences.py:201-217. -/
def inner (j i : ℕ) : ℝ × ℝ :=
  let gi := rotatePt (-(F.u + 90)) F.grid.origin (F.g j i)
  let gc := fun q p => rotatePt (-(F.u + 90)) F.grid.origin (F.gc q p)
  let ux := fenceInterpolate F.grid.rows F.grid.cols gc (fun q p => (F.reduced q p).1) gi
  let uy := fenceInterpolate F.grid.rows F.grid.cols gc (fun q p => (F.reduced q p).2) gi
  rotatePt (F.u + 90) (0, 0) (ux, uy)

/-- New component across the shore, aeolis/fences.py:110,230-233. -/
def outS : ℕ → ℕ → ℝ := copyEdges F.R F.C fun j i => (F.inner j i).1

/-- New component along the shore, aeolis/fences.py:111,235-238. -/
def outN : ℕ → ℕ → ℝ := copyEdges F.R F.C fun j i => (F.inner j i).2

/-- New shear velocity, aeolis/fences.py:112. -/
def out (j i : ℕ) : ℝ := Real.sqrt (F.outS j i ^ 2 + F.outN j i ^ 2)

end FenceIn

end

end Aeolis.Lee
