import Mathlib.Algebra.BigOperators.Group.Finset.Basic
import Mathlib.Algebra.Order.Field.Basic
import Mathlib.Data.Rat.Cast.OfScientific
import Mathlib.Algebra.Order.Ring.Abs
import Verif.Model.State

/-! Model of dune erosion, `run_ph12` in aeolis/erosion.py:46-149. The water level, the run-up and the number of collisions
(`Nc`, lines 113-114, which needs the normal distribution) are arguments; bed levels are numbers. -/

namespace Aeolis.Erosion

open Finset

variable {K : Type*} [Field K] [LinearOrder K] [IsStrictOrderedRing K]

/-- `np.nanargmin` of `f 0, ..., f n`: the first index of the least value, aeolis/erosion.py:98 and 124. -/
def argmin (f : ℕ → K) : ℕ → ℕ
  | 0 => 0
  | n + 1 => if f (n + 1) < f (argmin f n) then n + 1 else argmin f n

/-- Parameters of one row, aeolis/erosion.py:71-94. -/
structure Params (K : Type*) where
  toe : K
  slope : K
  cs : K

/-- Conditions of one row: run-up, water level and number of collisions. Models aeolis/erosion.py:82-115. -/
structure Forcing (K : Type*) where
  runup : K
  level : K
  collisions : K

/-- Total water level, aeolis/erosion.py:82. -/
def twl (f : Forcing K) : K := f.runup * 1.26 + f.level

/-- Trajectory of the toe from cell `st0`, limited to the bed, aeolis/erosion.py:101-107. -/
def trajectory (p : Params K) (x zb : ℕ → K) (st0 i : ℕ) : K :=
  let z := p.slope * 0.54 * (x i - x st0) + p.toe
  if z > zb i then zb i else z

/-- Volume above the trajectory, relative to its first entry, aeolis/erosion.py:109-111. -/
def volume (dx : K) (p : Params K) (x zb : ℕ → K) (st0 k : ℕ) : K :=
  (∑ i ∈ range (k + 1), dx * (zb (st0 + i) - trajectory p x zb st0 (st0 + i))) -
    ∑ i ∈ range 1, dx * (zb (st0 + i) - trajectory p x zb st0 (st0 + i))

/-- Demanded volume, aeolis/erosion.py:117-118. -/
def demand (p : Params K) (f : Forcing K) : K := 4 * p.cs * (twl f - p.toe) ^ 2 * f.collisions

/-- Cell of the dune base, aeolis/erosion.py:97-98, in a row of `nx+1` cells. -/
def base (nx : ℕ) (p : Params K) (zb : ℕ → K) : ℕ := argmin (fun i => |zb i - p.toe|) nx

/-- Number of eroded cells, aeolis/erosion.py:119-124. -/
def eroded (nx : ℕ) (p : Params K) (f : Forcing K) (x zb : ℕ → K) : ℕ :=
  let st0 := base nx p zb
  if demand p f < 0 then 0
  else argmin (fun k => |volume |x 1 - x 0| p x zb st0 k - demand p f|) (nx - st0)

/-- One row, aeolis/erosion.py:81-147; `IndexError` for a single cell (line 92). -/
def row (nx : ℕ) (p : Params K) (f : Forcing K) (x zb : ℕ → K) : Except PyErr (ℕ → K) :=
  if twl f > p.toe then
    if nx = 0 then .error .indexError
    else
      let st0 := base nx p zb
      let st := st0 + eroded nx p f x zb
      .ok (fun i => if st0 ≤ i ∧ i < st then trajectory p x zb st0 i else zb i)
  else .ok zb

/-- All rows, aeolis/erosion.py:81. -/
def run (nx : ℕ) (p : Params K) (rows : List (Forcing K × (ℕ → K) × (ℕ → K))) : Except PyErr (List (ℕ → K)) :=
  rows.mapM (fun r => row nx p r.1 r.2.1 r.2.2)

end Aeolis.Erosion
