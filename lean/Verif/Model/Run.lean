import Mathlib.Data.Fintype.Basic
import Mathlib.Data.Finset.Lattice.Fold
import Mathlib.Algebra.Order.Field.Basic
import Verif.Model.Rotate
import Verif.Model.State

/-!
Model of the time stepping of `AeoLiS` (aeolis/model.py:241-354, 579-660) and of the time loop of
`AeoLiSRunner.run` (aeolis/model.py:2513-2522).

The physical processes called by a step are opaque functions on an arbitrary "world" `W` (all
spatial grids except the coordinates `x`, `y`, which no process assigns); every theorem quantifies
over all of them.  Their order, the conditions under which they are called, the choice of the time
step, the clock, the step counter and the rotation of the grid are modelled exactly.
-/

namespace Aeolis

open Finset

/-! ### Time step -/

section Timestep

variable {K : Type*} [Field K] [LinearOrder K] {ι : Type*} [Fintype ι] [Nonempty ι]

/-- `np.max` over all cells of the grid. Used in the code at aeolis/model.py:623-633. -/
def gridMax (f : ι → K) : K := univ.sup' univ_nonempty f

/-- Parameters used by `set_timestep`: `dt`, `scheme == 'euler_forward'`, `CFL`,
`max_bedlevel_change`. Models aeolis/model.py:579-638. -/
structure TsParams (K : Type*) where
  dt : K
  explicit : Bool
  CFL : K
  maxChange : K

/-- The grids used by `set_timestep`. Models aeolis/model.py:579-638. -/
structure TsGrids (K ι : Type*) where
  uws : ι → K
  ds : ι → K
  uwn : ι → K
  dn : ι → K
  dzb : ι → K

/-- Clock of the model object: `self.t`, `self.dt`, `self.dt_prev`.
Models aeolis/model.py:159-160,579-638. -/
structure Clock (K : Type*) where
  t : K
  dt : K
  dtPrev : K

/-- `dtref`, aeolis/model.py:623-624 (cell sizes are non-zero). -/
def dtref (g : TsGrids K ι) : K :=
  gridMax (fun i => |g.uws i| / g.ds i) + gridMax (fun i => |g.uwn i| / g.dn i)

/-- The last part of `set_timestep`: the bed level change limiter, aeolis/model.py:631-636. -/
def limitBedChange (p : TsParams K) (g : TsGrids K ι) (c : Clock K) : Clock K :=
  if p.maxChange ≠ 999 ∧ gridMax g.dzb ≠ 0 ∧ c.dtPrev ≠ 0 then
    { c with dt := min c.dt (c.dtPrev * p.maxChange / gridMax g.dzb) }
  else c

/-- `AeoLiS.set_timestep`, aeolis/model.py:579-638.  The Boolean is the return value. -/
def setTimestep (p : TsParams K) (g : TsGrids K ι) (c : Clock K) (dt : K) : Clock K × Bool :=
  if dt < -1 then ({ c with dt := dt, t := c.t + |dt| }, false)
  else
    let c := { c with dt := if 0 < dt then dt else p.dt }
    if p.explicit ∧ 0 < p.CFL then
      if 0 < dtref g then
        (limitBedChange p g { c with dt := min c.dt (p.CFL / dtref g) }, true)
      else ({ c with dt := min c.dt 1 }, false)
    else (limitBedChange p g c, true)

end Timestep

/-! ### One step -/

/-- Processes called by `AeoLiS.update`. Models aeolis/model.py:267-350. -/
inductive Proc where
  | windInterpolate | windShear | fences | vegShear
  | hydroInterpolate | hydroUpdate | mixTopLayer
  | threshold | equilibrium | solve | bedUpdate | angleOfRepose | avalanche | wetBedReset
  | averageChange | duneErosion | germinate | grow
  deriving DecidableEq, Repr

/-- Numerical scheme: `euler_forward`, `euler_backward`, `crank_nicolson`, or anything else.
Models aeolis/model.py:311-318. -/
inductive Scheme where
  | eulerForward | eulerBackward | crankNicolson | unknown
  deriving DecidableEq, Repr

/-- Parameters used in the control flow of `update` and `run`. Models aeolis/model.py:241-354. -/
structure RunParams where
  dt : ℝ
  scheme : Scheme
  CFL : ℝ
  maxChange : ℝ
  alpha : ℝ
  accfac : ℝ
  processFences : Bool
  processVegetation : Bool
  processDuneErosion : Bool
  tstop : ℝ

/-- The part of the parameters used by `set_timestep`. Models aeolis/model.py:579-638. -/
def RunParams.ts (p : RunParams) : TsParams ℝ :=
  ⟨p.dt, p.scheme = .eulerForward, p.CFL, p.maxChange⟩

/-- An arbitrary physical model: what each process does to the world at a time and time step, the
rotation of the vector fields (aeolis/model.py:304,647-658), whether `np.sum(s['uw']) != 0`, and the
grids `set_timestep` reads. -/
structure Physics (W ι : Type*) where
  exec : Proc → ℝ → ℝ → W → W
  rotateFields : ℝ → W → W
  windy : W → Bool
  grids : W → TsGrids ℝ ι

/-- State of the model object: the world, grid coordinates, clock, step counter `c['time']`, and the
list of processes executed so far (a ghost variable). Models aeolis/model.py:149-168,241-354. -/
structure Sim (W ι : Type*) where
  w : W
  xy : ι → ℝ × ℝ
  clock : Clock ℝ
  count : ℕ
  trace : List Proc

variable {W ι : Type*} [Fintype ι] [Nonempty ι]

/-- Calling one process. Models aeolis/model.py:267-350. -/
def Sim.call (ph : Physics W ι) (m : Sim W ι) (q : Proc) : Sim W ι :=
  { m with w := ph.exec q m.clock.t m.clock.dt m.w, trace := m.trace ++ [q] }

/-- Calling processes in order. Models aeolis/model.py:267-350. -/
def Sim.calls (ph : Physics W ι) (m : Sim W ι) (qs : List Proc) : Sim W ι :=
  qs.foldl (Sim.call ph) m

/-- `grid_rotate(angle)`, aeolis/model.py:640-660: coordinates about their mean. -/
noncomputable def Sim.rotate (ph : Physics W ι) (m : Sim W ι) (angle : ℝ) : Sim W ι :=
  { m with xy := rotateGrid angle (gridMean m.xy) m.xy, w := ph.rotateFields angle m.w }

/-- First part of `update`, up to the choice of the time step, aeolis/model.py:267-293. -/
noncomputable def Sim.prepare (p : RunParams) (ph : Physics W ι) (m : Sim W ι) : Sim W ι :=
  let m := m.call ph .windInterpolate
  let m := m.rotate ph p.alpha
  let m := if ph.windy m.w then m.call ph .windShear else m
  let m := if p.processFences then m.call ph .fences else m
  let m := if p.processVegetation then m.call ph .vegShear else m
  { m with clock := { m.clock with dtPrev := m.clock.dt } }

/-- Second part of `update`: an executed step, aeolis/model.py:296-354.  The visualisation of the
first step is not modelled. -/
noncomputable def Sim.execute (p : RunParams) (ph : Physics W ι) (m : Sim W ι) :
    Except PyErr (Sim W ι) :=
  let m := m.calls ph [.hydroInterpolate, .hydroUpdate, .mixTopLayer]
  let transport : Except PyErr (Sim W ι) :=
    if ph.windy m.w then
      if p.scheme = .unknown then .error .valueError
      else .ok (m.calls ph [.threshold, .equilibrium, .solve, .bedUpdate, .angleOfRepose,
        .avalanche, .wetBedReset, .averageChange])
    else .ok m
  match transport with
  | .error e => .error e
  | .ok m =>
    let m := if p.processDuneErosion then
      m.calls ph [.duneErosion, .angleOfRepose, .avalanche] else m
    let m := if p.processVegetation then m.calls ph [.germinate, .grow] else m
    let m := { m with clock := { m.clock with t := m.clock.t + m.clock.dt * p.accfac },
                      count := m.count + 1 }
    .ok (m.rotate ph (-p.alpha))

/-- `AeoLiS.update(dt)`, aeolis/model.py:241-354.  The Boolean tells whether the step was
executed (`set_timestep` returned `True`). -/
noncomputable def Sim.update (p : RunParams) (ph : Physics W ι) (m : Sim W ι) (dt : ℝ) :
    Except PyErr (Sim W ι × Bool) :=
  let m := m.prepare p ph
  let r := setTimestep p.ts (ph.grids m.w) m.clock dt
  let m := { m with clock := r.1 }
  if r.2 then (m.execute p ph).map (·, true) else .ok (m, false)

/-- The time loop of `AeoLiSRunner.run`, aeolis/model.py:2517-2525, with an optional callback;
`fuel` bounds the number of iterations, `ok none` means that the loop is still running. -/
noncomputable def Sim.loop (p : RunParams) (ph : Physics W ι) (callback : Sim W ι → Sim W ι) :
    ℕ → Sim W ι → Except PyErr (Option (Sim W ι))
  | 0, m => if m.clock.t ≤ p.tstop then .ok none else .ok (some m)
  | fuel + 1, m =>
    if m.clock.t ≤ p.tstop then
      match (callback m).update p ph (-1) with
      | .error e => .error e
      | .ok (m', _) => Sim.loop p ph callback fuel m'
    else .ok (some m)

/-- Any sequence of calls `update(dt)`. Repetition of aeolis/model.py:241-354. -/
noncomputable def Sim.updates (p : RunParams) (ph : Physics W ι) :
    Sim W ι → List ℝ → Except PyErr (Sim W ι × List Bool)
  | m, [] => .ok (m, [])
  | m, dt :: dts =>
    match m.update p ph dt with
    | .error e => .error e
    | .ok (m', b) => (Sim.updates p ph m' dts).map fun r => (r.1, b :: r.2)

end Aeolis
