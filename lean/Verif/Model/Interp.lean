import Mathlib.Algebra.Order.Field.Basic
import Mathlib.Algebra.Order.Floor.Ring

/-!
Model of time series interpolation, `aeolis/utils.py:70-141`.
A series is the list of pairs `(xp[i], fp[i])`.
-/

namespace Aeolis

variable {K : Type*} [Field K] [LinearOrder K]

/-- `np.interp` right of the knot `(x0,f0)`: straight line up to the next knot, the last value beyond
the last knot.  (numpy finds `j` with `xp[j] <= x < xp[j+1]` and evaluates
`(fp[j+1]-fp[j])/(xp[j+1]-xp[j])*(x-xp[j]) + fp[j]`.) Used in the code at aeolis/utils.py:70-141. -/
def interpFrom (x : K) : K × K → List (K × K) → K
  | (_, f0), [] => f0
  | (x0, f0), (x1, f1) :: rest =>
    if x < x1 then (f1 - f0) / (x1 - x0) * (x - x0) + f0 else interpFrom x (x1, f1) rest

/-- `np.interp(x, xp, fp)`, as called at aeolis/utils.py:100 and 141: first value left of the first
knot, last value right of the last knot.  `none` is numpy's `ValueError` for an empty series. -/
def npInterp (ts : List (K × K)) (x : K) : Option K :=
  match ts with
  | [] => none
  | (x0, f0) :: rest => some (if x < x0 then f0 else interpFrom x (x0, f0) rest)

/-- `np.mod(a, b)` for `b > 0`. Used in the code at aeolis/utils.py:104-141. -/
def npMod [FloorRing K] (a b : K) : K := a - b * (⌊a / b⌋ : K)

/-- `xp.min()`, aeolis/utils.py:136. -/
def listMin : K → List K → K := fun a l => l.foldl min a

/-- `xp.max()`, aeolis/utils.py:137. -/
def listMax : K → List K → K := fun a l => l.foldl max a

/-- `utils.interp_circular`, aeolis/utils.py:104-141 (scalar `x`; `kwargs` empty as in all calls).
`none`: `xp.min()` of an empty array raises. -/
def interpCircular [FloorRing K] (ts : List (K × K)) (x : K) : Option K :=
  match ts.map Prod.fst with
  | [] => none
  | a :: l =>
    let xmin := listMin a l
    let xmax := listMax a l
    let xrng := xmax - xmin
    npInterp ts (xmin + npMod (x - xmax - 1) (xrng + 1))

/-- `utils.interp_array`, aeolis/utils.py:70-101: column `i` of the table is interpolated
separately. -/
def interpArray [FloorRing K] {n : ℕ} (circular : Bool) (xp : List K) (fp : Fin n → List K) (x : K) :
    Fin n → Option K :=
  fun i => if circular then interpCircular (xp.zip (fp i)) x else npInterp (xp.zip (fp i)) x

/-- `np.cumsum` starting from an accumulated value. Used in the code at aeolis/utils.py:340-376. -/
def cumsumFrom (acc : K) : List K → List K
  | [] => []
  | w :: ws => (acc + w) :: cumsumFrom (acc + w) ws

/-- `utils.calc_grain_size` for one cell, aeolis/utils.py:364-376: the cumulative mass percentages
(with a leading 0) are the abscissae, the grain diameters (with a leading 0) the ordinates.
Modelled for `0 ≤ percent ≤ 100`, where scipy's `interp1d` does not extrapolate, and positive masses (so
that the abscissae increase, where `interp1d` and `np.interp` agree).  `none`: zero total mass. -/
def grainSizePercentile (diam mass : List K) (percent : K) : Option K :=
  let cw := 0 :: cumsumFrom 0 mass
  let mx := listMax 0 (cumsumFrom 0 mass)
  if mx = 0 then none
  else npInterp ((cw.map (fun w => 100 * w / mx)).zip (0 :: diam)) percent

end Aeolis
