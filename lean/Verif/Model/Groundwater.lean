import Verif.Model.State
import Verif.Model.PyStr
import Mathlib.Algebra.Order.Floor.Ring
import Mathlib.Algebra.Order.Field.Basic

/-!
Model of the groundwater, aeolis/hydro.py:243-313 and 416-481.
-/

namespace Aeolis.Ground

variable {K : Type*} [Field K] [LinearOrder K] [IsStrictOrderedRing K] [FloorRing K]

/-- Python's `int` of a float: rounding towards zero. Used in the code at aeolis/hydro.py:257-258. -/
def pyInt (x : K) : ℤ := if 0 ≤ x then ⌊x⌋ else ⌈x⌉

/-- Size and number of the groundwater steps, aeolis/hydro.py:257-258: `int(dt/tfac)` and `range(int(dt/dt_gw))`. -/
def substeps (dt tfac : K) : Except PyErr (ℤ × ℕ) :=
  if tfac = 0 then .error .zeroDivision
  else
    let dtgw := pyInt (dt / tfac)
    if dtgw = 0 then .error .zeroDivision
    else .ok (dtgw, (pyInt (dt / (dtgw : K))).toNat)

/-- Landward boundary, aeolis/hydro.py:270-279; the message of the exception has no place for its argument, so
formatting it raises `TypeError`. -/
def boundary (name : String) : Except PyErr ℕ :=
  if lower name = "no_flow" then .ok 0
  else if lower name = "static" then .ok 1
  else .error .typeError

/-- Configuration of the groundwater equation. Models aeolis/hydro.py:243-313. -/
structure Config (K : Type*) where
  gwStat : K
  K_gw : K
  ne : K
  D : K
  Cl : K
  seepage : Bool

/-- Boundary conditions set in place by `Boussinesq`, aeolis/hydro.py:424-440, in one row of `n ≥ 4` cells.  `shl` is
the shoreline of this row, `shl'` that of the previous row (the code writes `shl_ix[i-1]` instead of
`shl_ix[i]-1`); both are below `n`. -/
def bounds (c : Config K) (bound n shl shl' : ℕ) (dswl GW : ℕ → K) : ℕ → K :=
  let GW := Function.update GW shl (dswl shl)
  let GW := Function.update GW shl' (dswl shl')
  fun j =>
    if n - 3 ≤ j ∧ j < n then
      if bound = 0 then GW (n - 4) else if bound = 1 then c.gwStat else GW j
    else GW j

/-- First cell of the row where the groundwater is more than 5 cm below the bed, 0 if there is none
(`np.argmin` of the comparison, aeolis/hydro.py:445). -/
def exitPoint (n : ℕ) (zb GW : ℕ → K) : ℕ :=
  match (List.range n).find? (fun j => decide (¬ zb j ≤ GW j + 0.05)) with
  | some j => j
  | none => 0

/-- Seepage face, aeolis/hydro.py:444-448. -/
def seepageFace (c : Config K) (n shl : ℕ) (zb GW : ℕ → K) : ℕ → K :=
  if c.seepage then
    let ixs := exitPoint n zb GW
    fun j => if (shl : ℤ) ≤ j ∧ (j : ℤ) < (ixs : ℤ) - 1 then zb j else GW j
  else GW

/-- Level changed in place by `Boussinesq`, aeolis/hydro.py:424-448. -/
def conditioned (c : Config K) (bound n shl shl' : ℕ) (dswl zb GW : ℕ → K) : ℕ → K :=
  seepageFace c n shl zb (bounds c bound n shl shl' dswl GW)

/-- Product term, aeolis/hydro.py:462. -/
def flux (ds GW : ℕ → K) (j : ℕ) : K := GW j * (GW (j + 1) + GW (j - 1)) / ds j

/-- Rate of change of the level, aeolis/hydro.py:451-464, after the boundary conditions.  Assumes `1 ≤ shl` (for
`shl = 0` the slice `GW[-1:-3]` is empty and the code raises). -/
def rate (c : Config K) (n shl : ℕ) (ds GW : ℕ → K) (j : ℕ) : K :=
  if shl + 3 < n ∧ shl + 1 ≤ j ∧ j + 3 < n then
    c.K_gw / c.ne *
      (c.D * ((GW (j + 1) - 2 * GW j + GW (j - 1)) / ds j ^ 2) +
        (flux ds GW (j + 1) - flux ds GW (j - 1)) / ds j)
  else 0

/-- `Boussinesq` in one row: the rate, and the level left behind in the array that was passed.
Models aeolis/hydro.py:417-466. -/
def boussinesq (c : Config K) (bound n shl shl' : ℕ) (dswl ds zb GW : ℕ → K) : (ℕ → K) × (ℕ → K) :=
  let GW := conditioned c bound n shl shl' dswl zb GW
  (rate c n shl ds GW, GW)

/-- Runge-Kutta step, aeolis/hydro.py:283-289.  The first call changes `gw` itself, the others temporary arrays. -/
def rungeKutta (c : Config K) (bound n shl shl' : ℕ) (dt : K) (dswl ds zb gw : ℕ → K) : ℕ → K :=
  let B := boussinesq c bound n shl shl' dswl ds zb
  let f1 := (B gw).1
  let gw := (B gw).2
  let f2 := (B fun j => gw j + dt / 2 * f1 j).1
  let f3 := (B fun j => gw j + dt / 2 * f2 j).1
  let f4 := (B fun j => gw j + dt * f3 j).1
  fun j => gw j + dt / 6 * (f1 j + 2 * f2 j + 2 * f3 j + f4 j)

/-- Distribution of the infiltrated water, aeolis/hydro.py:474-480, for a row with shoreline `shl`, peak `pk` and runup
limit `ru`; a cell is assigned in program order (the peak last).  `fx_ix` is an array of integers, so the peak
is `shl + 2/3 (ru - shl)` rounded towards zero. -/
def overheight (x : ℕ → K) (shl pk ru : ℕ) (j : ℕ) : K :=
  if j = pk then 1
  else if pk + 1 ≤ j ∧ j < ru then 3 - (x j - x shl) / (1 / 3 * (x ru - x shl))
  else if shl ≤ j ∧ j < pk then (x j - x shl) / (2 / 3 * (x ru - x shl))
  else 0

/-- Distribution of the infiltrated water in a row of `n` cells, aeolis/hydro.py:266-267, 294-299, 469-481; `top` is the first cell
above the total water level, 0 if there is none, so that the runup limit `runup_ix` is `top - 1`.  For `top = 0` it is -1, and both
`x[i,-1]` and the end of the slice `fx[i,fx_ix+1:-1]` refer to the last cell; the other slice is empty.  In exact arithmetic the peak
is `(shl + 2 runup_ix) / 3` rounded towards zero. -/
def infiltrated (x : ℕ → K) (n shl top : ℕ) (j : ℕ) : K :=
  if top = 0 then overheight x shl ((shl - 2) / 3) (n - 1) j
  else overheight x shl ((shl + 2 * (top - 1)) / 3) (top - 1) j

/-- Limits on the groundwater level, aeolis/hydro.py:306-313: at most the bed level, the set-up level where that is
above the bed. -/
def limit (zb dswl gw : K) : K := if zb < dswl then dswl else min gw zb

/-- What the surroundings contribute to one groundwater step in a row: set-up level, shorelines, infiltration.
Models aeolis/hydro.py:258-313. -/
structure Forcing (K : Type*) where
  dswl : ℕ → K
  shl : ℕ
  shl' : ℕ
  /-- overheight, zero without waves -/
  fx : ℕ → K

/-- One groundwater step, aeolis/hydro.py:283-313. -/
def gwStep (c : Config K) (bound n : ℕ) (dt : K) (ds zb : ℕ → K) (mask : ℕ → K × K) (f : Forcing K)
    (gw : ℕ → K) : ℕ → K :=
  let gw := rungeKutta c bound n f.shl f.shl' dt f.dswl ds zb gw
  fun j => limit (zb j) (f.dswl j) ((gw j + c.Cl * f.fx j) * (mask j).1 + (mask j).2)

/-- Body of the loop over the groundwater steps, aeolis/hydro.py:258-313. -/
def gwTry (c : Config K) (name : String) (n : ℕ) (dt : K) (ds zb : ℕ → K) (mask : ℕ → K × K)
    (forcing : ℕ → Forcing K) (gw : ℕ → K) (i : ℕ) : Except PyErr (ℕ → K) :=
  match boundary name with
  | .error e => .error e
  | .ok b => .ok (gwStep c b n dt ds zb mask (forcing i) gw)

/-- All groundwater steps of a time step, aeolis/hydro.py:257-313; `forcing i` are the conditions at `t + i dt_gw`. -/
def gwUpdate (c : Config K) (name : String) (n : ℕ) (dt tfac : K) (ds zb : ℕ → K) (mask : ℕ → K × K)
    (forcing : ℕ → Forcing K) (gw : ℕ → K) : Except PyErr (ℕ → K) :=
  match substeps dt tfac with
  | .error e => .error e
  | .ok (dtgw, m) =>
    (List.range m).foldlM (gwTry c name n (dtgw : K) ds zb mask forcing) gw

end Aeolis.Ground
