import Verif.Model.Planar
import Verif.Model.Program

/-!
Model of a complete run on a planar grid: `AeoLiS.initialize`, aeolis/model.py:179-238, with the grid (aeolis/gridparams.py:38-217), the bed
(aeolis/bed.py:45-118), the wind (aeolis/wind.py:46-82), the vegetation (aeolis/vegetation.py:42-72) and the fences (aeolis/fences.py:49-56), and
`AeoLiSRunner.run`, aeolis/model.py:2513-2537, with the complete time step of `Verif.Model.Planar`.

Simplifications beyond those of the parts: no hotstart files and no callback (both are modelled in `Verif.Model.Runner`), no file with thresholds, a
vegetation file without missing values.
-/

namespace Aeolis.PlanarProgram

open Aeolis.Sand Aeolis.Whole Aeolis.Full Aeolis.Planar

noncomputable section

open Classical

variable {nx ny nf : ℕ}

/-- Input of the initialisation that is not a parameter of a time step: levels of the bed, composition, vegetation, fences, convention of wind
directions. Models aeolis/bed.py:75-104, aeolis/vegetation.py:59-60, aeolis/fences.py:51, aeolis/wind.py:52-68. -/
structure Files (nx ny nf : ℕ) where
  bed : ℕ → ℕ → ℝ
  bedcomp : Option (Fin (cells nx ny) → Bed.Mass ℝ nf)
  grainDist : Bed.GrainDist ℝ nf
  intDtype : Bool
  veg : Option (ℕ → ℕ → ℝ)
  fence : ℕ → ℕ → ℝ
  convention : String

/-- Mean coordinates of the grid, aeolis/gridparams.py:195, aeolis/model.py:645. -/
def centre (C : Planar.Config nx ny nf) : ℝ × ℝ := (Grid.mean ny nx fun i j => (C.g i j).1, Grid.mean ny nx fun i j => (C.g i j).2)

/-- Roughness of the wind shear module, aeolis/wind.py:72-79, 177-206: one number for the methods that do not look at the bed. -/
def moduleRough (C : Planar.Config nx ny nf) (z0 : Fin (cells nx ny) → ℝ) : Shear.Rough :=
  if C.wind.methodRoughness = "constant" ∨ C.wind.methodRoughness = "constant_nikuradse" ∨ C.wind.methodRoughness = "mean_grainsize_initial" then
    .scalar (z0 origin)
  else .field (grid z0)

/-- The configuration with cell sizes and orientation of the grid, directions of the wind, initial levels of the bed and the roughness of the wind
shear module, aeolis/gridparams.py:182-205, aeolis/wind.py:51-82, aeolis/bed.py:76.  Before, `C.g` holds the coordinates of the files and
`C.wind.file` the wind file. -/
def configured (C : Planar.Config nx ny nf) (F : Files nx ny nf) (m : Grid.Metrics) (wind : Option (List Wind.Record))
    (z0 : Fin (cells nx ny) → ℝ) : Planar.Config nx ny nf :=
  { C with
    core := { C.core with ds := m.ds, dn := m.dn, dsdni := m.dsdni, bedcomp := F.bedcomp.isSome }
    wind := { C.wind with file := wind }
    shearModule := { C.shearModule with rough := moduleRough C z0 }
    alpha := m.alpha
    g := fun i j => rotatePt m.alpha (centre C) (C.g i j)
    zb0 := fun c => F.bed (rowOf c) (colOf c) }

/-- Vegetation at the start, aeolis/vegetation.py:59-70; without file all arrays are zero. -/
def plants (C : Planar.Config nx ny nf) (F : Files nx ny nf) (i j : ℕ) : Veg.Cell :=
  match F.veg with
  | none => ⟨0, 0, 0, 0, 0, 0⟩
  | some file => Veg.initCell C.shelter.veg (file i j) ⟨0, 0, 0, 0, 0, 0⟩

/-- Fences at the start, aeolis/fences.py:49-56. -/
def palisade (C : Planar.Config nx ny nf) (F : Files nx ny nf) (c : Fin (cells nx ny)) : Lee.Fence :=
  if C.shelter.processFences then Lee.fenceInit (F.fence (rowOf c) (colOf c)) (F.bed (rowOf c) (colOf c)) else ⟨0, 0, 0⟩

/-- The state with bed levels and composition, all else zero; aeolis/model.py:209-219, aeolis/bed.py:74-104, with vegetation and fences
(aeolis/model.py:225-230). -/
def started (C : Planar.Config nx ny nf) (F : Files nx ny nf) (tstart : ℝ) (mass : Fin (cells nx ny) → Bed.Mass ℝ nf) : Planar.State nx ny nf where
  clock := ⟨tstart, 0, 0⟩
  uw := 0
  udir := 0
  shear := fun _ => ⟨0, 0, 0, 0, 0, 0⟩
  core :=
    { sand := { bed := fun c => { mass := mass c, pickup := fun _ => 0, zb := F.bed (rowOf c) (colOf c), zs := 0, dzb := 0 }, Ct := fun _ _ => 0 }
      thr := fun _ => ⟨fun _ => XR.fin 0, fun _ => XR.fin 0, fun _ => XR.fin 0⟩
      cap := fun _ _ => ⟨0, 0, 0⟩
      speed := fun _ _ => ⟨0, 0, 0⟩
      w := fun _ _ => 0 }
  hydro := fun _ =>
    { water := ⟨fun _ => 0, fun _ => 0, fun _ => 0, fun _ => 0, fun _ => 0, fun _ => 0, fun _ => 0, fun _ => 0, fun _ => 0, fun _ => 0⟩
      gw := fun _ => 0
      gwPrev := fun _ => 0
      wetting := fun _ => false }
  moist := fun _ => ⟨0, 0, 0, false, false, 0, 0, 0, 0, 0, 0, 0⟩
  veg := plants C F
  fence := palisade C F
  hsep := fun _ => 0
  zsep := fun _ => 0
  dzbavg := fun _ => 0
  dzbveg := fun _ => 0

/-- Composition of the bed in all cells, aeolis/bed.py:82-104. -/
def composition (C : Planar.Config nx ny nf) (F : Files nx ny nf) : Except PyErr (Fin (cells nx ny) → Bed.Mass ℝ nf) :=
  collect fun c =>
    match Bed.initMass C.core.setup.bed.nl C.core.setup.bed.rhog C.core.setup.bed.porosity C.core.setup.thlyr F.intDtype
      (F.bedcomp.map fun b => b c) F.grainDist with
    | none => .error .valueError
    | some m => .ok m

/-- Directions of the wind, aeolis/wind.py:51-68. -/
def directions (C : Planar.Config nx ny nf) (F : Files nx ny nf) : Except PyErr (Option (List Wind.Record)) :=
  match C.wind.file with
  | none => .ok none
  | some file =>
    match Wind.applyConvention F.convention file with
    | .error e => .error e
    | .ok file => .ok (some file)

/-- `AeoLiS.initialize`, aeolis/model.py:192-230; the roughness is computed for a wind speed of zero (aeolis/wind.py:72).  The outer option is none
if one is not a number. -/
def initialise (C : Planar.Config nx ny nf) (F : Files nx ny nf) (tstart : ℝ) : Option (Except PyErr (Planar.Config nx ny nf × Planar.State nx ny nf)) :=
  match Grid.initGrid ny nx (fun i j => (C.g i j).1) (fun i j => (C.g i j).2) with
  | .error e => some (.error e)
  | .ok m =>
    match composition C F with
    | .error e => some (.error e)
    | .ok mass =>
      match directions C F with
      | .error e => some (.error e)
      | .ok wind =>
        let σ := started C F tstart mass
        match roughnesses C σ 0 with
        | none => none
        | some (.error e) => some (.error e)
        | some (.ok z0) => some (.ok (configured C F m wind z0, σ))

/-- The model object for the runner: the state with the counter of time steps; `rand` holds the random numbers of the steps.  A step with a value
outside the model ends the run here, as with an exception. Models aeolis/model.py:241-354, 2520-2525. -/
def engine (sp : LinSolve nx ny) (C : Planar.Config nx ny nf) (rand : ℕ → ℕ → ℕ → ℝ) : Runner.Engine ℝ (Planar.State nx ny nf × ℕ) where
  time w := w.1.clock.t
  dt w := w.1.clock.dt
  steps w := w.2
  update w :=
    match Planar.update sp C (rand w.2) (-1) w.1 with
    | none => .error .valueError
    | some (.error e) => .error e
    | some (.ok (σ, b)) => .ok (σ, if b then w.2 + 1 else w.2)
  callback := none

/-- A complete run from the files, aeolis/model.py:2513-2537. -/
def program (sp : LinSolve nx ny) (C : Planar.Config nx ny nf) (F : Files nx ny nf) (rand : ℕ → ℕ → ℕ → ℝ) (solves : Planar.State nx ny nf × ℕ → ℕ)
    (c : Runner.Cfg ℝ) (restart : Runner.RestartArg) (walls : List (ℝ × ℝ)) :
    Except PyErr (Option (Runner.St ℝ (Planar.State nx ny nf × ℕ) × (ℝ × ℝ))) :=
  match initialise C F c.tstart with
  | none => .error .valueError
  | some (.error e) => .error e
  | some (.ok (C', σ)) => Runner.run c (engine sp C' rand) solves restart walls (σ, 0)

end

end Aeolis.PlanarProgram
