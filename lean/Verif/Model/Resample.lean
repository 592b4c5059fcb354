import Verif.Model.Rotate
import Mathlib.Analysis.SpecialFunctions.Trigonometric.Arctan
import Mathlib.Algebra.Order.Archimedean.Real.Basic

/-!
Model of the resampling between the input grid and the rotating computational grid:
`get_exact_grid` (aeolis/shear.py:793-803, aeolis/fences.py:413-422), `WindShear.interpolate` (aeolis/shear.py:836-882) and
`fences.interpolate` (aeolis/fences.py:443-456).  Arrays are functions of row and column together with their sizes; numbers are
reals.
-/

namespace Aeolis.Resample

noncomputable section

open Classical

/-- First node of an axis of `get_exact_grid`, aeolis/shear.py:797,799. -/
def axisStart (lo d : ℝ) : ℝ := ⌊lo / d⌋ * d

/-- Number of nodes of `np.arange(floor(lo/d)*d, ceil(hi/d)*d, d)`, aeolis/shear.py:797-800: the length of `arange` is the
rounded up quotient of its range and its step. -/
def axisCount (lo hi d : ℝ) : ℕ := ⌈(⌈hi / d⌉ * d - axisStart lo d) / d⌉₊

/-- Node `k` of that axis, aeolis/shear.py:797-800. -/
def axisNode (lo d : ℝ) (k : ℕ) : ℝ := axisStart lo d + k * d

/-- Interval in which `RegularGridInterpolator` places a coordinate: the last `i ≤ n - 2` with `g i ≤ x`, or 0. Used in the code
at aeolis/shear.py:877, aeolis/fences.py:453. -/
def cellOf (g : ℕ → ℝ) (x : ℝ) : ℕ → ℕ
  | 0 => 0
  | i + 1 => if g (i + 1) ≤ x then i + 1 else cellOf g x i

/-- Relative position of a coordinate in its interval, `RegularGridInterpolator` at aeolis/shear.py:877. -/
def position (g : ℕ → ℝ) (i : ℕ) (x : ℝ) : ℝ := (x - g i) / (g (i + 1) - g i)

/-- `scipy.interpolate.RegularGridInterpolator((gy, gx), z, bounds_error=False, fill_value=fill)` at the point `(py, px)` for
ascending axes `gy` (`R` nodes) and `gx` (`C` nodes); aeolis/shear.py:877-878, aeolis/fences.py:453-454.  Method `linear`. -/
def regular (R C : ℕ) (gy gx : ℕ → ℝ) (z : ℕ → ℕ → ℝ) (fill py px : ℝ) : ℝ :=
  if py < gy 0 ∨ gy (R - 1) < py ∨ px < gx 0 ∨ gx (C - 1) < px then fill
  else
    let j := cellOf gy py (R - 2)
    let i := cellOf gx px (C - 2)
    let v := position gy j py
    let u := position gx i px
    z j i * (1 - v) * (1 - u) + z j (i + 1) * (1 - v) * u + z (j + 1) i * v * (1 - u) + z (j + 1) (i + 1) * v * u

/-- `fences.interpolate`, aeolis/fences.py:443-456. -/
def fenceInterpolate (R C : ℕ) (g : ℕ → ℕ → ℝ × ℝ) (z : ℕ → ℕ → ℝ) (pt : ℝ × ℝ) : ℝ :=
  regular R C (fun j => (g j 0).2) (fun i => (g 0 i).1) z 0 pt.2 pt.1

/-- `np.pad(…, 'reflect', reflect_type='odd')` of an axis with `n ≥ 2` nodes at a position left (negative), inside or right of
it, aeolis/shear.py:868-869: the axis is repeatedly reflected in its end points. -/
def reflectOdd (n : ℕ) (g : ℕ → ℝ) (k : ℤ) : ℝ :=
  let m : ℤ := n - 1
  let q := k / m
  let r := (k % m).toNat
  if q % 2 = 0 then g r + q * (g (n - 1) - g 0)
  else 2 * g (n - 1) - g (n - 1 - r) + (q - 1) * (g (n - 1) - g 0)

/-- `np.pad(…, 'edge')`: position of the value that is repeated, aeolis/shear.py:870. -/
def edge (n : ℕ) (k : ℤ) : ℕ := min k.toNat (n - 1)

/-- Padded array of coordinates: `np.pad` treats the first axis first, aeolis/shear.py:867-869. `pad` nodes on all sides. -/
def padCoord (R C pad : ℕ) (x : ℕ → ℕ → ℝ) (j i : ℕ) : ℝ :=
  reflectOdd C (fun i => reflectOdd R (fun j => x j i) ((j : ℤ) - pad)) ((i : ℤ) - pad)

/-- Padded array of values, aeolis/shear.py:870. -/
def padValue (R C pad : ℕ) (z : ℕ → ℕ → ℝ) (j i : ℕ) : ℝ := z (edge R ((j : ℤ) - pad)) (edge C ((i : ℤ) - pad))

/-- `np.rad2deg(np.arctan(dy/dx))`, with numpy's infinities for `dx = 0`; aeolis/shear.py:844.  (`dx = dy = 0`, NaN in numpy, is
not modelled: the value is 0.) -/
def arctanDeg (dx dy : ℝ) : ℝ :=
  if dx = 0 then (if 0 < dy then 90 else if dy < 0 then -90 else 0) else Real.arctan (dy / dx) * 180 / Real.pi

/-- Angle of the first row of a grid with the horizontal, aeolis/shear.py:841-847. -/
def rowAngle (g : ℕ → ℕ → ℝ × ℝ) : ℝ :=
  let dx := (g 0 1).1 - (g 0 0).1
  let dy := (g 0 1).2 - (g 0 0).2
  if dx ≤ 0 ∧ dy ≤ 0 then arctanDeg dx dy + 180 else arctanDeg dx dy

/-- `np.all(sorted(a) == a)`, aeolis/shear.py:854. -/
def ascending (n : ℕ) (a : ℕ → ℝ) : Prop := ∀ k, k + 1 < n → a k ≤ a (k + 1)

/-- Rotations of both grids that align the source grid with the axes, as applied to a point, aeolis/shear.py:849-856. -/
def align (R C : ℕ) (origin : ℝ × ℝ) (g : ℕ → ℕ → ℝ × ℝ) (pt : ℝ × ℝ) : ℝ × ℝ :=
  let rot := rotatePt (rowAngle g) origin
  if ¬ ascending R (fun j => (rot (g j 0)).2) ∧ ¬ ascending C (fun i => (rot (g 0 i)).1) then
    rotatePt 180 origin (rot pt)
  else rot pt

/-- `WindShear.interpolate` of the field `z` on the grid `g` (`R` rows, `C` columns, both at least 2) at the point `pt`,
aeolis/shear.py:836-882.  The branch for grids with one row (`istransect`) is not modelled: the class is only used for grids with
more rows (aeolis/wind.py:75-76). -/
def interpolate (R C : ℕ) (origin : ℝ × ℝ) (g : ℕ → ℕ → ℝ × ℝ) (z : ℕ → ℕ → ℝ) (fill : ℝ) (pt : ℝ × ℝ) : ℝ :=
  let a := fun j i => align R C origin g (g j i)
  let p := align R C origin g pt
  let pad := max R C
  let ypad := padCoord R C pad (fun j i => (a j i).2)
  let xpad := padCoord R C pad (fun j i => (a j i).1)
  regular (R + 2 * pad) (C + 2 * pad) (fun j => ypad j 0) (fun i => xpad 0 i) (padValue R C pad z) fill p.2 p.1

end

end Aeolis.Resample
