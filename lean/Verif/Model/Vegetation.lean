import Mathlib.Analysis.SpecialFunctions.Pow.Real
import Mathlib.Algebra.Order.Archimedean.Real.Basic

/-!
Model of vegetation growth, aeolis/vegetation.py:42-181.  Fields are functions of row and column.
-/

namespace Aeolis.Veg

noncomputable section

/-- Configuration. `orig`: `veggrowth_type` is `'orig'` (height-based), otherwise density-based growth.
Models aeolis/vegetation.py:42-181. -/
structure Config where
  orig : Bool
  processTide : Bool
  Vver : ℝ
  hmax : ℝ
  dzbOpt : ℝ
  gamma : ℝ
  /-- step actually taken -/
  dtOpt : ℝ
  /-- configured step -/
  dt : ℝ
  accfac : ℝ
  tVeg : ℝ
  vGam : ℝ
  rhoMax : ℝ
  zmin : ℝ
  /-- probability of germination per year -/
  pGerm : ℝ
  /-- probability of lateral expansion per year -/
  pLat : ℝ

/-- Vegetation in a cell: density, height, flags, and the stored changes of height and density.
The change of density is an integer: `germinate` stores a sum of booleans there (aeolis/vegetation.py:124), so the array has an
integer type and later assignments into it are truncated by numpy. -/
structure Cell where
  rho : ℝ
  h : ℝ
  germ : ℝ
  lat : ℝ
  dh : ℝ
  drho : ℤ

/-- What the rest of the model provides in a cell: bed level, water level, bed level change per year.
Models aeolis/vegetation.py:42-181. -/
structure Env where
  zb : ℝ
  zs : ℝ
  dzb : ℝ

/-- `initialize`, aeolis/vegetation.py:59-70, for a cell and a vegetation file without NaN. -/
def initCell (c : Config) (file : ℝ) (s : Cell) : Cell :=
  let rho := if file < 0 then file * 0 else file
  { s with rho := rho, h := c.hmax * Real.sqrt rho, germ := if 0 < rho then 1 else 0, lat := 0 }

/-- Seconds per year. Models aeolis/vegetation.py:90,143. -/
def year : ℝ := 365.25 * 24 * 3600

/-- Number of steps per year, aeolis/vegetation.py:90. -/
def stepsPerYear (c : Config) : ℝ := year / (c.dtOpt * c.accfac)

/-- Probability per step from the probability per year, aeolis/vegetation.py:97,112. -/
def stepProb (p n : ℝ) : ℝ := 1 - (1 - p) ^ (1 / n)

open Classical in
/-- Number of neighbours with a higher density, aeolis/vegetation.py:115-124, on a grid of `ny+1` by `nx+1` cells. -/
def denserNeighbours (ny nx : ℕ) (rho ds dn : ℕ → ℕ → ℝ) (i j : ℕ) : ℕ :=
  (if 1 ≤ j ∧ 0 < max ((rho i (j - 1) - rho i j) / ds i j) 0 then 1 else 0) +
  (if j < nx ∧ 0 < max ((rho i (j + 1) - rho i j) / ds i j) 0 then 1 else 0) +
  (if 1 ≤ i ∧ 0 < max ((rho (i - 1) j - rho i j) / dn i j) 0 then 1 else 0) +
  (if i < ny ∧ 0 < max ((rho (i + 1) j - rho i j) / dn i j) 0 then 1 else 0)

open Classical in
/-- `germinate`, aeolis/vegetation.py:86-131, in a cell with `k` denser neighbours and random number `r`; `dx` is the cell
size (aeolis/vegetation.py:106-109). -/
def germinateCell (c : Config) (dx : ℝ) (e : Env) (k : ℕ) (r : ℝ) (s : Cell) : Cell :=
  let n := stepsPerYear c
  let germ : ℝ := if 0 < s.rho then 1 else 0
  let germ := germ + (if 0 ≤ e.dzb ∧ r ≤ stepProb c.pGerm n then 1 else 0)
  let germ := min germ 1
  let pCell := 1 - (1 - stepProb c.pLat n) ^ (1 / dx)
  let lat := s.lat + (if r ≤ pCell * k then 1 else 0)
  { s with germ := germ, lat := min lat 1, drho := k }

/-- `germinate` on the grid. Models aeolis/vegetation.py:86-131. -/
def germinate (c : Config) (ny nx : ℕ) (dx : ℝ) (ds dn : ℕ → ℕ → ℝ) (e : ℕ → ℕ → Env) (r : ℕ → ℕ → ℝ)
    (s : ℕ → ℕ → Cell) : ℕ → ℕ → Cell :=
  fun i j => germinateCell c dx (e i j) (denserNeighbours ny nx (fun i j => (s i j).rho) ds dn i j) (r i j) (s i j)

/-- Conversion of a number stored into an integer array: truncation towards zero.
Used for arrays of integers in aeolis/vegetation.py:134-181. -/
def trunc (x : ℝ) : ℤ := if 0 ≤ x then ⌊x⌋ else ⌈x⌉

open Classical in
/-- Growth, aeolis/vegetation.py:134-163, without the dying that follows. -/
def growth (c : Config) (e : Env) (s : Cell) : Cell :=
  let ix := (s.germ ≠ 0 ∨ s.lat ≠ 0) ∧ 0 < c.Vver
  let s := if ix then
      { s with dh := c.Vver * (1 - s.h / c.hmax) - |e.dzb - c.dzbOpt| * c.gamma }
    else s
  if c.orig then
    let h := s.h + s.dh * (c.dtOpt * c.accfac) / year
    let h := max (min h c.hmax) 0
    { s with h := h, rho := (h / c.hmax) ^ 2 }
  else
    let tVeg := c.tVeg / 365
    let rho := if c.rhoMax < s.rho then c.rhoMax else s.rho
    let zero := rho ≤ 0
    let drho := if ix then
        if 0 < c.Vver then
          trunc ((c.rhoMax - rho) / tVeg - c.vGam / c.hmax * |e.dzb - c.dzbOpt| * c.gamma)
        else 0
      else s.drho
    let rho := rho + drho * (c.dt * c.accfac) / year
    let rho := if rho < 0 then 0 else rho
    let rho := if zero then 0 else rho
    { s with rho := rho, drho := drho, h := c.hmax * Real.sqrt rho }

open Classical in
/-- Dying, aeolis/vegetation.py:165-181. -/
def dying (c : Config) (e : Env) (s : Cell) : Cell :=
  let b : ℝ := if s.rho ≠ 0 then 1 else 0
  let s := { s with germ := s.germ * b, lat := s.lat * b }
  let d : ℝ := if e.zs ≤ e.zb + 0.01 then 1 else 0
  let s := if c.processTide then
      { s with rho := s.rho * d, h := s.h * d, germ := s.germ * d, lat := s.lat * d }
    else s
  if e.zb < c.zmin then { s with rho := 0, h := 0, germ := 0, lat := 0 } else s

/-- `grow`, aeolis/vegetation.py:134-181. -/
def grow (c : Config) (e : Env) (s : Cell) : Cell := dying c e (growth c e s)

/-- Vegetation part of a model step, aeolis/model.py:341-343. -/
def vegStep (c : Config) (ny nx : ℕ) (dx : ℝ) (ds dn : ℕ → ℕ → ℝ) (e : ℕ → ℕ → Env) (r : ℕ → ℕ → ℝ)
    (s : ℕ → ℕ → Cell) : ℕ → ℕ → Cell :=
  fun i j => grow c (e i j) (germinate c ny nx dx ds dn e r s i j)

end

end Aeolis.Veg
