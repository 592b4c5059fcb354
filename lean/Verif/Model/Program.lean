import Verif.Model.Full
import Verif.Model.Grid
import Verif.Model.Bed
import Verif.Model.Runner

/-!
Model of a complete run on a transect: `AeoLiS.initialize`, aeolis/model.py:179-238, with the grid (aeolis/gridparams.py:38-217), the bed
(aeolis/bed.py:45-118), the wind (aeolis/wind.py:46-82), the vegetation (aeolis/vegetation.py:42-72) and the fences (aeolis/fences.py:49-56), and
`AeoLiSRunner.run`, aeolis/model.py:2513-2537, with the complete time step of `Verif.Model.Full`.

Simplifications beyond those of the parts: no hotstart files and no callback (both are modelled in `Verif.Model.Runner`), no file with thresholds
(it is not read on a transect of `Verif.Model.Full`), a vegetation file without missing values.
-/

namespace Aeolis.Program

open Aeolis.Sand Aeolis.Whole Aeolis.Full

noncomputable section

open Classical

variable {nx nf : ℕ}

/-- Input of the initialisation that is not a parameter of a time step: levels of the bed, composition, vegetation, fences, convention of wind
directions. Models aeolis/bed.py:75-104, aeolis/vegetation.py:59-60, aeolis/fences.py:51, aeolis/wind.py:52-68. -/
structure Files (nx nf : ℕ) where
  bed : ℕ → ℝ
  bedcomp : Option (Fin (cells nx 0) → Bed.Mass ℝ nf)
  grainDist : Bed.GrainDist ℝ nf
  intDtype : Bool
  veg : Option (ℕ → ℝ)
  fence : ℕ → ℝ
  convention : String

/-- Mean coordinate of the transect, aeolis/gridparams.py:195, aeolis/model.py:644. -/
def centre (C : Full.Config nx nf) : ℝ := Grid.mean 0 nx fun _ j => C.x j

/-- The configuration with cell sizes and orientation of the grid, directions of the wind and initial levels of the bed,
aeolis/gridparams.py:182-205, aeolis/wind.py:51-68, aeolis/bed.py:76.  Before, `C.x` holds the coordinates of the file and `C.wind.file` the wind
file. -/
def configured (C : Full.Config nx nf) (F : Files nx nf) (m : Grid.Metrics) (wind : Option (List Wind.Record)) : Full.Config nx nf :=
  { C with
    core := { C.core with ds := m.ds, dn := m.dn, dsdni := m.dsdni, bedcomp := F.bedcomp.isSome }
    wind := { C.wind with file := wind }
    alpha := m.alpha
    x := fun j => (rotatePt m.alpha (centre C, 0) (C.x j, 0)).1
    zb0 := F.bed }

/-- Vegetation at the start, aeolis/vegetation.py:59-70; without file all arrays are zero. -/
def plants (C : Full.Config nx nf) (F : Files nx nf) (j : ℕ) : Veg.Cell :=
  match F.veg with
  | none => ⟨0, 0, 0, 0, 0, 0⟩
  | some file => Veg.initCell C.shelter.veg (file j) ⟨0, 0, 0, 0, 0, 0⟩

/-- Fences at the start, aeolis/fences.py:49-56. -/
def palisade (C : Full.Config nx nf) (F : Files nx nf) (j : ℕ) : Lee.Fence :=
  if C.shelter.processFences then Lee.fenceInit (F.fence j) (F.bed j) else ⟨0, 0, 0⟩

/-- The state with bed levels and composition, all else zero; aeolis/model.py:209-219, aeolis/bed.py:74-104, with vegetation and fences
(aeolis/model.py:225-230). -/
def started (C : Full.Config nx nf) (F : Files nx nf) (tstart : ℝ) (mass : Fin (cells nx 0) → Bed.Mass ℝ nf) : Full.State nx nf where
  clock := ⟨tstart, 0, 0⟩
  uw := 0
  udir := 0
  shear := fun _ => ⟨0, 0, 0, 0, 0, 0⟩
  core :=
    { sand := { bed := fun c => { mass := mass c, pickup := fun _ => 0, zb := F.bed c, zs := 0, dzb := 0 }, Ct := fun _ _ => 0 }
      thr := fun _ => ⟨fun _ => XR.fin 0, fun _ => XR.fin 0, fun _ => XR.fin 0⟩
      cap := fun _ _ => ⟨0, 0, 0⟩
      speed := fun _ _ => ⟨0, 0, 0⟩
      w := fun _ _ => 0 }
  hydro :=
    { water := ⟨fun _ => 0, fun _ => 0, fun _ => 0, fun _ => 0, fun _ => 0, fun _ => 0, fun _ => 0, fun _ => 0, fun _ => 0, fun _ => 0⟩
      gw := fun _ => 0
      gwPrev := fun _ => 0
      wetting := fun _ => false }
  moist := fun _ => ⟨0, 0, 0, false, false, 0, 0, 0, 0, 0, 0, 0⟩
  veg := plants C F
  fence := palisade C F
  zsep := fun _ => 0
  dzbavg := fun _ => 0
  dzbveg := fun _ => 0

/-- Composition of the bed in all cells, aeolis/bed.py:82-104. -/
def composition (C : Full.Config nx nf) (F : Files nx nf) : Except PyErr (Fin (cells nx 0) → Bed.Mass ℝ nf) :=
  collect fun c =>
    match Bed.initMass C.core.setup.bed.nl C.core.setup.bed.rhog C.core.setup.bed.porosity C.core.setup.thlyr F.intDtype
      (F.bedcomp.map fun b => b c) F.grainDist with
    | none => .error .valueError
    | some m => .ok m

/-- Directions of the wind, aeolis/wind.py:51-68. -/
def directions (C : Full.Config nx nf) (F : Files nx nf) : Except PyErr (Option (List Wind.Record)) :=
  match C.wind.file with
  | none => .ok none
  | some file =>
    match Wind.applyConvention F.convention file with
    | .error e => .error e
    | .ok file => .ok (some file)

/-- `AeoLiS.initialize`, aeolis/model.py:192-230; the roughness is computed once (aeolis/wind.py:72), for a wind speed of zero. -/
def initialise (C : Full.Config nx nf) (F : Files nx nf) (tstart : ℝ) : Except PyErr (Full.Config nx nf × Full.State nx nf) :=
  match Grid.initGrid 0 nx (fun _ j => C.x j) (fun _ _ => 0) with
  | .error e => .error e
  | .ok m =>
    match composition C F with
    | .error e => .error e
    | .ok mass =>
      match directions C F with
      | .error e => .error e
      | .ok wind =>
        let C' := configured C F m wind
        let σ := started C F tstart mass
        match collect fun c => Wind.roughness C.wind.methodRoughness (rough C' σ 0 c) with
        | .error e => .error e
        | .ok _ => .ok (C', σ)

/-- The model object for the runner: the state with the counter of time steps; `rand` holds the random numbers of the steps.  A step with a value
outside the model ends the run here, as with an exception. Models aeolis/model.py:241-354, 2520-2525. -/
def engine (sp : LinSolve nx 0) (C : Full.Config nx nf) (rand : ℕ → ℕ → ℝ) : Runner.Engine ℝ (Full.State nx nf × ℕ) where
  time w := w.1.clock.t
  dt w := w.1.clock.dt
  steps w := w.2
  update w :=
    match Full.update sp C (rand w.2) (-1) w.1 with
    | none => .error .valueError
    | some (.error e) => .error e
    | some (.ok (σ, b)) => .ok (σ, if b then w.2 + 1 else w.2)
  callback := none

/-- A complete run from the files, aeolis/model.py:2513-2537. -/
def program (sp : LinSolve nx 0) (C : Full.Config nx nf) (F : Files nx nf) (rand : ℕ → ℕ → ℝ) (solves : Full.State nx nf × ℕ → ℕ)
    (c : Runner.Cfg ℝ) (restart : Runner.RestartArg) (walls : List (ℝ × ℝ)) :
    Except PyErr (Option (Runner.St ℝ (Full.State nx nf × ℕ) × (ℝ × ℝ))) :=
  match initialise C F c.tstart with
  | .error e => .error e
  | .ok (C', σ) => Runner.run c (engine sp C' rand) solves restart walls (σ, 0)

end

end Aeolis.Program
