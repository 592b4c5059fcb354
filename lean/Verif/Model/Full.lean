import Verif.Model.Whole
import Verif.Model.HydroStep
import Verif.Model.Moisture
import Verif.Model.Lee
import Verif.Model.Separation1d
import Verif.Model.Vegetation
import Verif.Model.Erosion
import Verif.Model.Duran
import Verif.Model.Rotate
import Verif.Model.Run

/-!
Model of a complete time step on a transect, `AeoLiS.update`, aeolis/model.py:241-354: from the time series in the input files through wind,
shear, fences, vegetation, time step, water levels, groundwater, moisture and salt to the chain of `Verif.Model.Whole` (mixing, thresholds,
transport, bed), the later changes of the bed levels (avalanching, reset of the wet bed, dune erosion) and the vegetation.

Cell `j` of the transect is number `j` of the vectors over the cells.  Simplifications beyond those of the parts:

* `x` holds the coordinates after the rotation of the grid by `alpha`, which is zero for increasing coordinates (aeolis/gridparams.py:182-189).
  For other angles the coordinates after a call that is not executed, which are not rotated back (aeolis/model.py:293-294, see C24), are not
  modelled.
* The probability of collisions in the dune erosion (the normal distribution) and the weights of the smoothing of the vegetation are any
  functions; random numbers are an input of the step.
-/

namespace Aeolis.Full

open Aeolis.Sand Aeolis.Solver Aeolis.Whole

noncomputable section

open Classical

variable {nx nf : ℕ}

/-- The wind file and the parameters of wind and shear, aeolis/wind.py:46-301. -/
structure WindConfig where
  processWind : Bool
  /-- records after the conversion of directions, aeolis/wind.py:51-68 -/
  file : Option (List Wind.Record)
  alfa : ℝ
  kappa : ℝ
  z : ℝ
  k : ℝ
  rhog : ℝ
  rhoa : ℝ
  g : ℝ
  methodRoughness : String
  processShear : Bool
  processSeparation : Bool
  cb : ℝ
  mu : ℝ

/-- Vegetation and fences, aeolis/vegetation.py:42-291, aeolis/fences.py:49-82, 458-532. -/
structure ShelterConfig (nx : ℕ) where
  processFences : Bool
  fenceC1 : ℝ
  fenceIntercept : ℝ
  processVegetation : Bool
  vegType : String
  vegC1 : ℝ
  vegIntercept : ℝ
  vegRoughness : ℝ
  vegWeights : Fin (cells nx 0) → Fin (cells nx 0) → ℝ
  veg : Veg.Config
  /-- the parameter `dx`, not the distance of the cells; also used for the flow separation (aeolis/wind.py:365) -/
  dx : ℝ

/-- Dune erosion, aeolis/erosion.py:46-149; `collisions` from set-up, still water level, swash, time step and wave period. -/
structure DuneConfig where
  process : Bool
  par : Erosion.Params ℝ
  collisions : ℝ → ℝ → ℝ → ℝ → ℝ → ℝ

/-- Configuration of a transect, aeolis/constants.py:153-334. -/
structure Config (nx nf : ℕ) where
  core : Whole.Config nf
  wind : WindConfig
  shelter : ShelterConfig nx
  ts : TsParams ℝ
  accfac : ℝ
  alpha : ℝ
  x : ℕ → ℝ
  water : Hydro.WaterConfig
  tideMask : ℕ → ℝ × ℝ
  waveMask : ℕ → ℝ × ℝ
  runupMask : Option (ℕ → ℝ × ℝ)
  /-- its number of cells, cell sizes and coordinates are not used: see `groundIn` -/
  ground : Hydro.GroundIn
  moist : Moisture.Config
  /-- time, temperature, radiation, precipitation, pressure and humidity; none without file -/
  meteoFile : Option (List (ℝ × (Fin 5 → ℝ)))
  thresholdMask : ℕ → ℝ × ℝ
  zne : ℕ → Option ℝ
  /-- its numbers of cells, cell sizes and non-erodible layer are not used: see `avaIn` -/
  ava : Ava.Params
  wetReset : Bool
  Tbedreset : ℝ
  zb0 : ℕ → ℝ
  avgTime : ℝ
  dune : DuneConfig
  duran : Fin nf → Duran.Params

/-- State of a transect, aeolis/model.py:241-354. -/
structure State (nx nf : ℕ) where
  clock : Clock ℝ
  uw : ℝ
  udir : ℝ
  shear : ℕ → Wind.Shear
  core : Whole.State nx 0 nf
  hydro : Hydro.HydroState
  moist : Fin (cells nx 0) → Moisture.Cell
  veg : ℕ → Veg.Cell
  fence : ℕ → Lee.Fence
  zsep : ℕ → ℝ
  dzbavg : ℕ → ℝ
  dzbveg : ℕ → ℝ

/-- A value per cell as a function of the column. Arrays `s[...][0,:]` in aeolis/wind.py:305-512. -/
def col {nx : ℕ} (X : Fin (cells nx 0) → ℝ) (j : ℕ) : ℝ := onGrid (nx := nx) (ny := 0) X 0 j

/-- Bed levels of the transect. Models aeolis/model.py:271. -/
def State.zb (σ : State nx nf) (j : ℕ) : ℝ := col (fun c => (σ.core.sand.bed c).zb) j

/-- Wind speed and direction of the step, aeolis/wind.py:111-119; an empty file raises `ValueError`. -/
def windNow (C : Config nx nf) (σ : State nx nf) : Except PyErr (ℝ × ℝ) :=
  match C.wind.processWind, C.wind.file with
  | true, some file =>
    match Wind.windAt file σ.clock.t with
    | none => .error .valueError
    | some w => .ok w
  | _, _ => .ok (σ.uw, σ.udir)

/-- What the roughness depends on in a cell, aeolis/wind.py:148-207. -/
def rough (C : Config nx nf) (σ : State nx nf) (uw : ℝ) (c : Fin (cells nx 0)) : Wind.Rough nf where
  k := C.wind.k
  z := C.wind.z
  kappa := C.wind.kappa
  rhog := C.wind.rhog
  rhoa := C.wind.rhoa
  g := C.wind.g
  size := C.core.thr.grainSize
  dist := C.core.thr.grainDist
  mass := (σ.core.sand.bed c).mass 0
  uw := uw

/-- Roughness in all cells, aeolis/wind.py:130; the outer option is none if one is not a number. -/
def roughnesses (C : Config nx nf) (σ : State nx nf) (uw : ℝ) : Option (Except PyErr (Fin (cells nx 0) → ℝ)) :=
  match collect fun c => Wind.roughness C.wind.methodRoughness (rough C σ |uw| c) with
  | .error e => some (.error e)
  | .ok r => if h : ∀ c, ∃ v, r c = some v then some (.ok fun c => (h c).choose) else none

/-- Rotation of the vectors of a cell with the grid, aeolis/model.py:647-651. -/
def turn (alpha : ℝ) (s : Wind.Shear) : Wind.Shear :=
  let u := rotatePt alpha (0, 0) (s.ustars, s.ustarn)
  let τ := rotatePt alpha (0, 0) (s.taus, s.taun)
  { s with ustars := u.1, ustarn := u.2, taus := τ.1, taun := τ.2 }

/-- Wind of a step: speed, components along the grid axes, direction. Models aeolis/wind.py:113-125. -/
structure Now where
  uw : ℝ
  uws : ℝ
  uwn : ℝ
  udir : ℝ

/-- Wind of the step in the rotated grid, aeolis/wind.py:121-125, aeolis/model.py:653,658. -/
def windComponents (C : Config nx nf) (w : ℝ × ℝ) : Now :=
  let v := rotatePt C.alpha (0, 0) (Wind.components C.wind.alfa w.1 w.2)
  ⟨|w.1|, v.1, v.2, w.2 + C.alpha⟩

/-- Undisturbed shear of the step, aeolis/wind.py:127-144, in the rotated grid. -/
def shear0 (C : Config nx nf) (σ : State nx nf) (w : ℝ × ℝ) (z0 : Fin (cells nx 0) → ℝ) (j : ℕ) : Wind.Shear :=
  turn C.alpha (Wind.interpolateCell C.wind.alfa C.wind.kappa C.wind.z C.wind.rhoa w.1 w.2 (col z0 j) (σ.shear j)).2

/-- Largest coordinate of the transect, aeolis/wind.py:483. -/
def xmax (nx : ℕ) (x : ℕ → ℝ) : ℝ := (Finset.range (nx + 1)).sup' ⟨0, by simp⟩ x

/-- Separation surface of the step, if it is computed, aeolis/wind.py:241-244. -/
def surface (C : Config nx nf) (σ : State nx nf) (now : Now) : Option (ℕ → ℝ) :=
  if now.uw ≠ 0 ∧ C.wind.processShear ∧ C.wind.processSeparation then
    some (Wind.separation1d nx C.shelter.dx C.x (xmax nx C.x) σ.zb C.wind.cb C.wind.mu now.udir)
  else none

/-- Shear over the bed, aeolis/model.py:280-281, aeolis/wind.py:237-251. -/
def shear1 (C : Config nx nf) (σ : State nx nf) (now : Now) (s : ℕ → Wind.Shear) (j : ℕ) : Wind.Shear :=
  if now.uw ≠ 0 ∧ C.wind.processShear then Wind.shearTransect C.wind.rhoa nx C.x σ.zb (surface C σ now) s j else s j

/-- Fences of the step, aeolis/fences.py:59, 68-82. -/
def fences (C : Config nx nf) (σ : State nx nf) (j : ℕ) : Lee.Fence :=
  if C.shelter.processFences then Lee.fenceUpdate (σ.zb j) (σ.fence j) else σ.fence j

/-- Shear behind fences, aeolis/model.py:284-285, aeolis/fences.py:58-66. -/
def shear2 (C : Config nx nf) (σ : State nx nf) (now : Now) (s : ℕ → Wind.Shear) (j : ℕ) : Wind.Shear :=
  if C.shelter.processFences then
    Wind.velocityStress C.wind.rhoa (Lee.okin C.shelter.fenceC1 C.shelter.fenceIntercept (Lee.fenceDir now.udir) (nx + 1) C.x
      (fun j => (fences C σ j).height) s j)
  else s j

/-- Shear in vegetation, aeolis/model.py:288-289, aeolis/vegetation.py:75-83. -/
def shear3 (C : Config nx nf) (σ : State nx nf) (now : Now) (s : ℕ → Wind.Shear) (j : ℕ) : Wind.Shear :=
  if C.shelter.processVegetation then
    Wind.velocityStress C.wind.rhoa
      (if C.shelter.vegType = "okin" then
        Lee.okin C.shelter.vegC1 C.shelter.vegIntercept (Lee.plantDir now.udir) (nx + 1) C.x (fun j => (σ.veg j).h) s j
      else if h : j < cells nx 0 then
        Lee.raupach C.shelter.vegRoughness C.shelter.vegWeights (fun c => (σ.veg c).rho) (fun c : Fin (cells nx 0) => s c) ⟨j, h⟩
      else s j)
  else s j

/-- Shear of the step, aeolis/model.py:277-289. -/
def shearNow (C : Config nx nf) (σ : State nx nf) (w : ℝ × ℝ) (z0 : Fin (cells nx 0) → ℝ) : ℕ → Wind.Shear :=
  let now := windComponents C w
  shear3 C σ now (shear2 C σ now (shear1 C σ now (shear0 C σ w z0)))

/-- There is a first cell. Used for `np.max` in aeolis/model.py:623-633. -/
instance : Nonempty (Fin (cells nx 0)) := ⟨⟨0, by simp [cells]⟩⟩

/-- What the time step depends on, aeolis/model.py:622-636. -/
def tsGrids (C : Config nx nf) (σ : State nx nf) (now : Now) : TsGrids ℝ (Fin (cells nx 0)) where
  uws := fun _ => now.uws
  ds := fun c => C.core.ds 0 c
  uwn := fun _ => now.uwn
  dn := fun c => C.core.dn 0 c
  dzb := fun c => (σ.core.sand.bed c).dzb

/-- Bed and masks of the transect, aeolis/hydro.py:44-213. -/
def row (C : Config nx nf) (σ : State nx nf) : Hydro.Row := ⟨σ.zb, C.tideMask, C.waveMask, C.runupMask⟩

/-- Configuration of the groundwater on the cells of the transect (at least four), aeolis/hydro.py:283-299. -/
def groundIn (C : Config nx nf) : Hydro.GroundIn := { C.ground with n := nx + 1, ds := C.core.ds 0, x := C.x }

/-- Meteorological conditions at time `t`, read for one method of the soil moisture only, aeolis/hydro.py:193-206; without them
`s['meteo']` does not exist. -/
def meteoAt (C : Config nx nf) (t : ℝ) : Except PyErr (Option Moisture.Meteo) :=
  match C.meteoFile with
  | none => .ok none
  | some rows =>
    if C.moist.processMoist ∧ lower C.moist.method = "surf_moisture" then
      match collect fun i : Fin 5 => Hydro.series (rows.map fun x => (x.1, x.2 i)) t with
      | .error e => .error e
      | .ok m => .ok (some { T := m 0, Q := m 1, RH := m 2, P := m 3, U := m 4 })
    else .ok none

/-- Moisture and salt in all cells, aeolis/hydro.py:316-412; the outer option is none if the search for a scanning curve does not end. -/
def moistures (C : Config nx nf) (σ : State nx nf) (t dt uw : ℝ) (met : Option Moisture.Meteo) (h : Hydro.HydroState) :
    Option (Except PyErr (Fin (cells nx 0) → Moisture.Cell)) :=
  let r := fun c : Fin (cells nx 0) =>
    Moisture.update C.moist t dt met ⟨h.water.TWL c, σ.zb c, h.gw c, h.gwPrev c, h.wetting c, uw⟩ (σ.moist c)
  if hs : ∀ c, ∃ v, r c = some v then some (collect fun c => (hs c).choose) else none

/-- Configuration of the avalanching on the cells of the transect, with the non-erodible layer of the file, aeolis/avalanching.py:98-115. -/
def avaIn (C : Config nx nf) : Ava.Params :=
  { C.ava with mx := nx, my := 0, ds := C.core.ds, dn := C.core.dn, zne := fun _ j => C.zne j }

/-- Bed level after avalanching, aeolis/model.py:324-325, 336-338. -/
def slid (C : Config nx nf) (zb : ℕ → ℝ) (j : ℕ) : ℝ := Ava.avalanche (avaIn C) (fun _ j => zb j) 0 j

/-- Bed level after dune erosion and the avalanching that follows, aeolis/model.py:333-338.  The runup, set-up and swash of the first cell
count; a single cell, for which the code fails, is not a transect here. -/
def eroded (C : Config nx nf) (t dt : ℝ) (w : Hydro.Water) (zb : ℕ → ℝ) : Except PyErr (ℕ → ℝ) :=
  if C.dune.process then
    match C.water.tideFile, C.water.waveFile with
    | some tide, some wave =>
      match Hydro.series tide t, Hydro.series (wave.map fun x => (x.1, x.2.2)) t with
      | .ok wl, .ok Tp =>
        match Erosion.row nx C.dune.par ⟨w.R 0, wl, C.dune.collisions (w.eta 0) wl (w.sigma 0) dt Tp⟩ C.x zb with
        | .ok zb => .ok (slid C zb)
        | .error e => .error e
      | .error e, _ => .error e
      | _, .error e => .error e
    | _, _ => .error .typeError
  else .ok zb

/-- Changes of the levels (bed level, water level, reported change) by avalanching and the reset of the wet bed, in a step with wind, for bed
levels `lzb` before the step; aeolis/model.py:323-328. -/
def levels (C : Config nx nf) (dt : ℝ) (windy : Bool) (lzb : ℕ → ℝ) (l : Fin (cells nx 0) → ℝ × ℝ × ℝ) (c : Fin (cells nx 0)) : ℝ × ℝ × ℝ :=
  if windy then
    let zb := Bed.wetBedReset C.wetReset dt C.Tbedreset (l c).2.1 (C.zb0 c) (slid C (col fun c => (l c).1) c)
    (zb, (l c).2.1, zb - lzb c)
  else l c

/-- What the chain takes from the rest of the step, with given grain speeds for the method `duran`, aeolis/model.py:296-331. -/
def envWith (C : Config nx nf) (σ : State nx nf) (now : Now) (u0 : ℕ → Wind.Shear) (u : ℕ → Wind.Shear) (dt : ℝ) (h : Hydro.HydroState)
    (m : Fin (cells nx 0) → Moisture.Cell) (duran : Fin (cells nx 0) → Fin nf → Transport.Speed) : Env nx 0 nf where
  t := σ.clock.t
  dt := dt
  wind := fun c => ⟨now.uw, now.uws, now.uwn, (u c).ustar, (u c).ustars, (u c).ustarn, (u0 c).ustar⟩
  duran := duran
  hsmix := fun c => h.water.Hsmix c
  zs := fun c => h.water.zs c
  moist := fun c => (m c).moist
  salt := fun c => (m c).salt
  mask := fun c => C.thresholdMask c
  zne := fun c => C.zne c
  levels := levels C dt (decide (now.uw ≠ 0)) σ.zb

/-- Grain speeds of the method `duran` from the thresholds `uth0` of the step, aeolis/transport.py:40-200, 282-290; none if a
value is not a number. -/
def duranSpeeds (C : Config nx nf) (E : Env nx 0 nf) (σ : Whole.State nx 0 nf) (zsep : ℕ → ℝ) :
    Option (Fin (cells nx 0) → Fin nf → Transport.Speed) :=
  match thresholds C.core E (waves C.core E σ) with
  | .error _ => some E.duran
  | .ok thr =>
    let zb := fun (_ j : ℕ) => col (fun c => (σ.sand.bed c).zb) j
    let v : Fin (cells nx 0) → Fin nf → Option Transport.Speed := fun c f =>
      match (thr c).uth0 f with
      | XR.fin u => Duran.velocity (C.duran f) ⟨E.wind c, u, Duran.slopeS nx 0 zb (fun _ j => C.x j) 0 c, 0, zb 0 c, zsep c⟩
      | _ => none
    if h : ∀ c f, ∃ s, v c f = some s then some fun c f => (h c f).choose else none

/-- What the chain takes from the rest of the step. Models aeolis/model.py:296-338. -/
def env (C : Config nx nf) (σ : State nx nf) (now : Now) (u0 u : ℕ → Wind.Shear) (dt : ℝ) (h : Hydro.HydroState)
    (m : Fin (cells nx 0) → Moisture.Cell) (zsep : ℕ → ℝ) : Option (Env nx 0 nf) :=
  let E := envWith C σ now u0 u dt h m fun _ _ => ⟨0, 0, 0⟩
  if C.core.tr.methodGrainspeed = "duran" ∧ now.uw ≠ 0 then
    match duranSpeeds C E σ.core zsep with
    | none => none
    | some v => some { E with duran := v }
  else some E

/-- The state after the part of a step before the choice of the time step, aeolis/model.py:274-293. -/
def prepared (C : Config nx nf) (σ : State nx nf) (w : ℝ × ℝ) (z0 : Fin (cells nx 0) → ℝ) : State nx nf :=
  let now := windComponents C w
  { σ with
    clock := { σ.clock with dtPrev := σ.clock.dt }
    uw := now.uw, udir := now.udir, shear := shearNow C σ w z0, fence := fences C σ
    zsep := match surface C σ now with
      | none => σ.zsep
      | some z => z }

/-- New bed levels. Models aeolis/model.py:333-338. -/
def withLevels (τ : Whole.State nx 0 nf) (zb : ℕ → ℝ) : Whole.State nx 0 nf :=
  { τ with sand := { τ.sand with bed := fun c => { τ.sand.bed c with zb := zb c } } }

/-- The state at the end of a step: averages of the bed level change, vegetation, clock, rotation back, aeolis/model.py:330-350. `r`: random
numbers. -/
def finished (C : Config nx nf) (r : ℕ → ℝ) (σ : State nx nf) (lzb : ℕ → ℝ) (h : Hydro.HydroState) (m : Fin (cells nx 0) → Moisture.Cell)
    (τ : Whole.State nx 0 nf) : State nx nf :=
  let a := fun j => Bed.averageChange σ.clock.dt C.accfac C.avgTime (lzb j) (σ.dzbavg j) (lzb j + col (fun c => (τ.sand.bed c).dzb) j)
  let dzbavg := if σ.uw ≠ 0 then fun j => (a j).dzbavg else σ.dzbavg
  let dzbveg := if σ.uw ≠ 0 then fun j => (a j).dzbveg else σ.dzbveg
  let veg := if C.shelter.processVegetation then
      fun j => Veg.vegStep { C.shelter.veg with dtOpt := σ.clock.dt } 0 nx C.shelter.dx C.core.ds C.core.dn
        (fun _ j => ⟨col (fun c => (τ.sand.bed c).zb) j, col (fun c => (τ.sand.bed c).zs) j, dzbveg j⟩) (fun _ j => r j) (fun _ j => σ.veg j) 0 j
    else σ.veg
  { σ with
    clock := { σ.clock with t := σ.clock.t + σ.clock.dt * C.accfac }
    udir := σ.udir - C.alpha, shear := fun j => turn (-C.alpha) (σ.shear j)
    core := τ, hydro := h, moist := m, veg := veg, dzbavg := dzbavg, dzbveg := dzbveg }

/-- The part of a step after the choice of the time step, aeolis/model.py:296-350; `σ` is the prepared state, `u0` the undisturbed
shear.  The meteorological conditions are interpolated together with the water levels (an empty file raises in the first of these
calls), the last time in the last groundwater step. -/
def execute (sp : LinSolve nx 0) (C : Config nx nf) (r : ℕ → ℝ) (now : Now) (u0 : ℕ → Wind.Shear) (σ : State nx nf) :
    Option (Except PyErr (State nx nf)) :=
  match meteoAt C (Hydro.lastTime C.ground σ.clock.t σ.clock.dt) with
  | .error e => some (.error e)
  | .ok met =>
    match Hydro.hydroStep C.water (row C σ) (groundIn C) σ.clock.t σ.clock.dt σ.hydro with
    | .error e => some (.error e)
    | .ok h =>
      match moistures C σ σ.clock.t σ.clock.dt now.uw met h with
      | none => none
      | some (.error e) => some (.error e)
      | some (.ok m) =>
        match env C σ now u0 σ.shear σ.clock.dt h m σ.zsep with
        | none => none
        | some E =>
          match Whole.step sp C.core E σ.core with
          | none => none
          | some (.error e) => some (.error e)
          | some (.ok τ) =>
            match eroded C σ.clock.t σ.clock.dt h.water (col fun c => (τ.sand.bed c).zb) with
            | .error e => some (.error e)
            | .ok zb => some (.ok (finished C r σ σ.zb h m (withLevels τ zb)))

/-- `AeoLiS.update(dt)`, aeolis/model.py:241-350.  A step that is not executed (aeolis/model.py:293-294) keeps the new wind and clock.
The Boolean tells whether it was executed. -/
def update (sp : LinSolve nx 0) (C : Config nx nf) (r : ℕ → ℝ) (dt : ℝ) (σ : State nx nf) : Option (Except PyErr (State nx nf × Bool)) :=
  match windNow C σ with
  | .error e => some (.error e)
  | .ok w =>
    match roughnesses C σ w.1 with
    | none => none
    | some (.error e) => some (.error e)
    | some (.ok z0) =>
      let now := windComponents C w
      let ρ := prepared C σ w z0
      let k := setTimestep C.ts (tsGrids C ρ now) ρ.clock dt
      let ρ := { ρ with clock := k.1 }
      if k.2 then
        match execute sp C r now (shear0 C σ w z0) ρ with
        | none => none
        | some (.error e) => some (.error e)
        | some (.ok τ) => some (.ok (τ, true))
      else some (.ok (ρ, false))

/-- Calls of `update` with given time steps and random numbers. Repetition of aeolis/model.py:241-350. -/
def run (sp : LinSolve nx 0) (C : Config nx nf) : List ((ℕ → ℝ) × ℝ) → State nx nf → Option (Except PyErr (State nx nf))
  | [], σ => some (.ok σ)
  | x :: xs, σ =>
    match update sp C x.1 x.2 σ with
    | none => none
    | some (.error e) => some (.error e)
    | some (.ok (σ, _)) => run sp C xs σ

end

end Aeolis.Full
