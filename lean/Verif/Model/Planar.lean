import Verif.Model.Full
import Verif.Model.Fence2d
import Verif.Model.PlanarGround

/-!
Model of a complete time step on a planar grid, `AeoLiS.update`, aeolis/model.py:241-354, with more than one row of cells: from the time
series in the input files through wind, shear over the topography, fences, vegetation, time step, water levels, moisture and salt to the chain
of `Verif.Model.Whole`, the later changes of the bed levels (avalanching, reset of the wet bed, dune erosion) and the vegetation.

Cell `c` of the vectors over the cells is in row `c / (nx+1)` and column `c % (nx+1)`.  Simplifications beyond those of the parts and of
`Verif.Model.Full`:

* `g` holds the coordinates after the rotation of the grid by `alpha`.
-/

namespace Aeolis.Planar

open Aeolis.Sand Aeolis.Solver Aeolis.Whole Aeolis.Full

noncomputable section

open Classical

variable {nx ny nf : ℕ}

/-- Row of a cell. `reshape` in aeolis/model.py:1430-1431. -/
def rowOf (c : Fin (cells nx ny)) : ℕ := (c : ℕ) / (nx + 1)

/-- Column of a cell. `reshape` in aeolis/model.py:1430-1431. -/
def colOf (c : Fin (cells nx ny)) : ℕ := (c : ℕ) % (nx + 1)

/-- Vegetation and fences, aeolis/vegetation.py:42-291, aeolis/fences.py:49-532; on planar grids the vegetation shelters by the method of
Raupach, whatever is configured (aeolis/vegetation.py:76-79). -/
structure ShelterConfig (nx ny : ℕ) where
  processFences : Bool
  fenceC1 : ℝ
  fenceIntercept : ℝ
  processVegetation : Bool
  vegRoughness : ℝ
  vegWeights : Fin (cells nx ny) → Fin (cells nx ny) → ℝ
  veg : Veg.Config
  /-- the parameter `dx`, not the distance of the cells -/
  dx : ℝ

/-- Configuration of a planar grid, aeolis/constants.py:153-334. -/
structure Config (nx ny nf : ℕ) where
  core : Whole.Config nf
  wind : WindConfig
  /-- the wind shear module, set up before the first step (aeolis/wind.py:73-82) -/
  shearModule : Shear.Settings
  sepIterations : ℕ
  /-- weights of the smoothing of the separation surface across the wind; none without it -/
  sepWeights : Option (ℕ → ℕ → ℝ)
  shelter : ShelterConfig nx ny
  ts : TsParams ℝ
  accfac : ℝ
  alpha : ℝ
  g : ℕ → ℕ → ℝ × ℝ
  water : Hydro.WaterConfig
  tideMask : ℕ → ℕ → ℝ × ℝ
  waveMask : ℕ → ℕ → ℝ × ℝ
  runupMask : Option (ℕ → ℕ → ℝ × ℝ)
  moist : Moisture.Config
  /-- time, temperature, radiation, precipitation, pressure and humidity; none without file -/
  meteoFile : Option (List (ℝ × (Fin 5 → ℝ)))
  /-- its number of cells, cell sizes, mask and coordinates are not used: see `groundIn` and `groundRow` -/
  ground : Hydro.GroundIn
  gwMask : ℕ → ℕ → ℝ × ℝ
  thresholdMask : Fin (cells nx ny) → ℝ × ℝ
  zne : ℕ → ℕ → Option ℝ
  /-- its numbers of cells, cell sizes and non-erodible layer are not used: see `avaIn` -/
  ava : Ava.Params
  wetReset : Bool
  Tbedreset : ℝ
  zb0 : Fin (cells nx ny) → ℝ
  avgTime : ℝ
  dune : DuneConfig
  duran : Fin nf → Duran.Params

/-- State of a planar grid, aeolis/model.py:241-354. -/
structure State (nx ny nf : ℕ) where
  clock : Clock ℝ
  uw : ℝ
  udir : ℝ
  shear : Fin (cells nx ny) → Wind.Shear
  core : Whole.State nx ny nf
  /-- water levels, waves and groundwater of every row -/
  hydro : Fin (ny + 1) → Hydro.HydroState
  moist : Fin (cells nx ny) → Moisture.Cell
  veg : ℕ → ℕ → Veg.Cell
  fence : Fin (cells nx ny) → Lee.Fence
  hsep : Fin (cells nx ny) → ℝ
  zsep : Fin (cells nx ny) → ℝ
  dzbavg : Fin (cells nx ny) → ℝ
  dzbveg : Fin (cells nx ny) → ℝ

/-- A vector over the cells as a function of row and column. `reshape` in aeolis/model.py:1430-1431. -/
def grid (X : Fin (cells nx ny) → ℝ) : ℕ → ℕ → ℝ := onGrid (nx := nx) (ny := ny) X

/-- Bed levels. Models aeolis/model.py:271. -/
def State.zb (σ : State nx ny nf) : ℕ → ℕ → ℝ := grid fun c => (σ.core.sand.bed c).zb

/-- Water levels and waves of a row. Models aeolis/hydro.py:44-213. -/
def State.water (σ : State nx ny nf) (i : Fin (ny + 1)) : Hydro.Water := (σ.hydro i).water

/-- Wind speed and direction of the step, aeolis/wind.py:111-119; an empty file raises `ValueError`. -/
def windNow (C : Config nx ny nf) (σ : State nx ny nf) : Except PyErr (ℝ × ℝ) :=
  match C.wind.processWind, C.wind.file with
  | true, some file =>
    match Wind.windAt file σ.clock.t with
    | none => .error .valueError
    | some w => .ok w
  | _, _ => .ok (σ.uw, σ.udir)

/-- What the roughness depends on in a cell, aeolis/wind.py:148-207. -/
def rough (C : Config nx ny nf) (σ : State nx ny nf) (uw : ℝ) (c : Fin (cells nx ny)) : Wind.Rough nf where
  k := C.wind.k
  z := C.wind.z
  kappa := C.wind.kappa
  rhog := C.wind.rhog
  rhoa := C.wind.rhoa
  g := C.wind.g
  size := C.core.thr.grainSize
  dist := C.core.thr.grainDist
  mass := (σ.core.sand.bed c).mass 0
  uw := uw

/-- Roughness in all cells, aeolis/wind.py:130; the outer option is none if one is not a number. -/
def roughnesses (C : Config nx ny nf) (σ : State nx ny nf) (uw : ℝ) : Option (Except PyErr (Fin (cells nx ny) → ℝ)) :=
  match collect fun c => Wind.roughness C.wind.methodRoughness (rough C σ |uw| c) with
  | .error e => some (.error e)
  | .ok r => if h : ∀ c, ∃ v, r c = some v then some (.ok fun c => (h c).choose) else none

/-- Wind of the step in the rotated grid, aeolis/wind.py:121-125, aeolis/model.py:653,658. -/
def windComponents (C : Config nx ny nf) (w : ℝ × ℝ) : Now :=
  let v := rotatePt C.alpha (0, 0) (Wind.components C.wind.alfa w.1 w.2)
  ⟨|w.1|, v.1, v.2, w.2 + C.alpha⟩

/-- Undisturbed shear of the step, aeolis/wind.py:127-144, in the rotated grid. -/
def shear0 (C : Config nx ny nf) (σ : State nx ny nf) (w : ℝ × ℝ) (z0 : Fin (cells nx ny) → ℝ) (c : Fin (cells nx ny)) : Wind.Shear :=
  turn C.alpha (Wind.interpolateCell C.wind.alfa C.wind.kappa C.wind.z C.wind.rhoa w.1 w.2 (z0 c) (σ.shear c)).2

/-- There is a first cell. `[0,0]` in aeolis/wind.py:218-222. -/
def origin : Fin (cells nx ny) := ⟨0, by simp [cells]⟩

/-- The call of the wind shear module, aeolis/wind.py:216-225; none without wind or without the process (aeolis/model.py:280). -/
def stresses (C : Config nx ny nf) (σ : State nx ny nf) (now : Now) (s : Fin (cells nx ny) → Wind.Shear) : Except PyErr (Option Shear.Result) :=
  if now.uw ≠ 0 ∧ C.wind.processShear then
    (Shear.call C.shearModule (ny + 1) (nx + 1) C.g σ.zb now.uw now.udir
      (if C.wind.processSeparation then some ⟨C.wind.cb, C.wind.mu, C.sepIterations, C.sepWeights⟩ else none)
      ((s origin).taus, (s origin).taun)).map some
  else .ok none

/-- Shear over the bed for a result of the wind shear module, aeolis/wind.py:227-230. -/
def shear1 (C : Config nx ny nf) (r : Option Shear.Result) (s : Fin (cells nx ny) → Wind.Shear) (c : Fin (cells nx ny)) : Wind.Shear :=
  match r with
  | none => s c
  | some r =>
    let taus := r.taux (rowOf c) (colOf c)
    let taun := r.tauy (rowOf c) (colOf c)
    Wind.stressVelocity C.wind.rhoa { s c with taus := taus, taun := taun, tau := Wind.hypot taus taun }

/-- Fences of the step, aeolis/fences.py:59, 68-82. -/
def fences (C : Config nx ny nf) (σ : State nx ny nf) (c : Fin (cells nx ny)) : Lee.Fence :=
  if C.shelter.processFences then Lee.fenceUpdate (σ.core.sand.bed c).zb (σ.fence c) else σ.fence c

/-- Input of the sheltering by fences, aeolis/fences.py:85-108. -/
def fenceIn (C : Config nx ny nf) (σ : State nx ny nf) (now : Now) (s : Fin (cells nx ny) → Wind.Shear) : Lee.FenceIn where
  R := ny + 1
  C := nx + 1
  g := C.g
  height := grid fun c => (fences C σ c).height
  ustars := grid fun c => (s c).ustars
  ustarn := grid fun c => (s c).ustarn
  dx := C.shelter.dx
  udir := now.udir
  c1 := C.shelter.fenceC1
  intercept := C.shelter.fenceIntercept

/-- Shear behind fences, aeolis/model.py:284-285, aeolis/fences.py:58-66, 110-112. -/
def shear2 (C : Config nx ny nf) (σ : State nx ny nf) (now : Now) (s : Fin (cells nx ny) → Wind.Shear) (c : Fin (cells nx ny)) : Wind.Shear :=
  if C.shelter.processFences then
    let F := fenceIn C σ now s
    Wind.velocityStress C.wind.rhoa { s c with
      ustar := F.out (rowOf c) (colOf c), ustars := F.outS (rowOf c) (colOf c), ustarn := F.outN (rowOf c) (colOf c) }
  else s c

/-- Shear in vegetation, aeolis/model.py:288-289, aeolis/vegetation.py:75-83. -/
def shear3 (C : Config nx ny nf) (σ : State nx ny nf) (s : Fin (cells nx ny) → Wind.Shear) (c : Fin (cells nx ny)) : Wind.Shear :=
  if C.shelter.processVegetation then
    Wind.velocityStress C.wind.rhoa
      (Lee.raupach C.shelter.vegRoughness C.shelter.vegWeights (fun c => (σ.veg (rowOf c) (colOf c)).rho) s c)
  else s c

/-- Shear of the step from the undisturbed shear, aeolis/model.py:280-289. -/
def shearNow (C : Config nx ny nf) (σ : State nx ny nf) (now : Now) (r : Option Shear.Result) (s : Fin (cells nx ny) → Wind.Shear) :
    Fin (cells nx ny) → Wind.Shear :=
  shear3 C σ (shear2 C σ now (shear1 C r s))

/-- What the time step depends on, aeolis/model.py:622-636. -/
def tsGrids (C : Config nx ny nf) (σ : State nx ny nf) (now : Now) : TsGrids ℝ (Fin (cells nx ny)) where
  uws := fun _ => now.uws
  ds := fun c => C.core.ds (rowOf c) (colOf c)
  uwn := fun _ => now.uwn
  dn := fun c => C.core.dn (rowOf c) (colOf c)
  dzb := fun c => (σ.core.sand.bed c).dzb

/-- Bed and masks of a row, aeolis/hydro.py:44-213. -/
def row (C : Config nx ny nf) (σ : State nx ny nf) (i : ℕ) : Hydro.Row :=
  ⟨σ.zb i, C.tideMask i, C.waveMask i, C.runupMask.map fun m => m i⟩

/-- The groundwater in rows of the length of the grid, aeolis/hydro.py:243-313. -/
def groundIn (C : Config nx ny nf) : Hydro.GroundIn := { C.ground with n := nx + 1 }

/-- Cell sizes, mask of the groundwater and coordinates of a row, aeolis/hydro.py:283-303. -/
def groundRow (C : Config nx ny nf) (i : Fin (ny + 1)) : Hydro.GroundRow := ⟨C.core.ds i, C.gwMask i, fun j => (C.g i j).1⟩

/-- Water levels, waves and groundwater of all rows, aeolis/hydro.py:44-313. -/
def waters (C : Config nx ny nf) (σ : State nx ny nf) (t dt : ℝ) : Except PyErr (Fin (ny + 1) → Hydro.HydroState) :=
  Hydro.gridStep C.water (fun i => row C σ i) (groundIn C) (groundRow C) t dt σ.hydro

/-- Row of a cell as an index. `reshape` in aeolis/model.py:1430-1431. -/
def rowIx (c : Fin (cells nx ny)) : Fin (ny + 1) := ⟨rowOf c, Nat.div_lt_of_lt_mul (by rw [Nat.mul_comm]; exact c.2)⟩

/-- Meteorological conditions at time `t`, read for one method of the soil moisture only, aeolis/hydro.py:193-206; without them
`s['meteo']` does not exist. -/
def meteoAt (C : Config nx ny nf) (t : ℝ) : Except PyErr (Option Moisture.Meteo) :=
  match C.meteoFile with
  | none => .ok none
  | some rows =>
    if C.moist.processMoist ∧ lower C.moist.method = "surf_moisture" then
      match collect fun i : Fin 5 => Hydro.series (rows.map fun x => (x.1, x.2 i)) t with
      | .error e => .error e
      | .ok m => .ok (some { T := m 0, Q := m 1, RH := m 2, P := m 3, U := m 4 })
    else .ok none

/-- Moisture and salt in all cells, aeolis/hydro.py:316-412; the outer option is none if the search for a scanning curve does not end. -/
def moistures (C : Config nx ny nf) (σ : State nx ny nf) (t dt uw : ℝ) (met : Option Moisture.Meteo) (h : Fin (ny + 1) → Hydro.HydroState) :
    Option (Except PyErr (Fin (cells nx ny) → Moisture.Cell)) :=
  let r := fun c : Fin (cells nx ny) =>
    Moisture.update C.moist t dt met ⟨(h (rowIx c)).water.TWL (colOf c), (σ.core.sand.bed c).zb, (h (rowIx c)).gw (colOf c),
      (h (rowIx c)).gwPrev (colOf c), (h (rowIx c)).wetting (colOf c), uw⟩ (σ.moist c)
  if hs : ∀ c, ∃ v, r c = some v then some (collect fun c => (hs c).choose) else none

/-- Configuration of the avalanching on the cells of the grid, with the non-erodible layer of the file, aeolis/avalanching.py:98-115. -/
def avaIn (C : Config nx ny nf) : Ava.Params :=
  { C.ava with mx := nx, my := ny, ds := C.core.ds, dn := C.core.dn, zne := C.zne }

/-- Bed level after avalanching, aeolis/model.py:324-325, 336-338. -/
def slid (C : Config nx ny nf) (zb : ℕ → ℕ → ℝ) : ℕ → ℕ → ℝ := Ava.avalanche (avaIn C) zb

/-- Bed level after dune erosion, row by row, and the avalanching that follows, aeolis/model.py:333-338, aeolis/erosion.py:81-147.  The runup,
set-up and swash of the first cell of a row count. -/
def eroded (C : Config nx ny nf) (t dt : ℝ) (w : Fin (ny + 1) → Hydro.Water) (zb : ℕ → ℕ → ℝ) : Except PyErr (ℕ → ℕ → ℝ) :=
  if C.dune.process then
    match C.water.tideFile, C.water.waveFile with
    | some tide, some wave =>
      match Hydro.series tide t, Hydro.series (wave.map fun x => (x.1, x.2.2)) t with
      | .ok wl, .ok Tp =>
        match collect fun i : Fin (ny + 1) => Erosion.row nx C.dune.par
            ⟨(w i).R 0, wl, C.dune.collisions ((w i).eta 0) wl ((w i).sigma 0) dt Tp⟩ (fun j => (C.g i j).1) (zb i) with
        | .ok z => .ok (slid C fun i j => if h : i < ny + 1 then z ⟨i, h⟩ j else zb i j)
        | .error e => .error e
      | .error e, _ => .error e
      | _, .error e => .error e
    | _, _ => .error .typeError
  else .ok zb

/-- Changes of the levels (bed level, water level, reported change) by avalanching and the reset of the wet bed, in a step with wind, for bed
levels `lzb` before the step; aeolis/model.py:323-328. -/
def levels (C : Config nx ny nf) (dt : ℝ) (windy : Bool) (lzb : Fin (cells nx ny) → ℝ) (l : Fin (cells nx ny) → ℝ × ℝ × ℝ)
    (c : Fin (cells nx ny)) : ℝ × ℝ × ℝ :=
  if windy then
    let zb := Bed.wetBedReset C.wetReset dt C.Tbedreset (l c).2.1 (C.zb0 c) (slid C (grid fun c => (l c).1) (rowOf c) (colOf c))
    (zb, (l c).2.1, zb - lzb c)
  else l c

/-- What the chain takes from the rest of the step, with given grain speeds for the method `duran`, aeolis/model.py:296-331. -/
def envWith (C : Config nx ny nf) (σ : State nx ny nf) (now : Now) (u0 u : Fin (cells nx ny) → Wind.Shear) (dt : ℝ)
    (h : Fin (ny + 1) → Hydro.Water) (m : Fin (cells nx ny) → Moisture.Cell) (duran : Fin (cells nx ny) → Fin nf → Transport.Speed) :
    Env nx ny nf where
  t := σ.clock.t
  dt := dt
  wind := fun c => ⟨now.uw, now.uws, now.uwn, (u c).ustar, (u c).ustars, (u c).ustarn, (u0 c).ustar⟩
  duran := duran
  hsmix := fun c => (h (rowIx c)).Hsmix (colOf c)
  zs := fun c => (h (rowIx c)).zs (colOf c)
  moist := fun c => (m c).moist
  salt := fun c => (m c).salt
  mask := C.thresholdMask
  zne := fun c => C.zne (rowOf c) (colOf c)
  levels := levels C dt (decide (now.uw ≠ 0)) fun c => (σ.core.sand.bed c).zb

/-- Grain speeds of the method `duran` from the thresholds `uth0` of the step, aeolis/transport.py:40-200, 282-290; none if a
value is not a number. -/
def duranSpeeds (C : Config nx ny nf) (E : Env nx ny nf) (σ : Whole.State nx ny nf) (zsep : Fin (cells nx ny) → ℝ) :
    Option (Fin (cells nx ny) → Fin nf → Transport.Speed) :=
  match thresholds C.core E (waves C.core E σ) with
  | .error _ => some E.duran
  | .ok thr =>
    let zb := grid fun c => (σ.sand.bed c).zb
    let v : Fin (cells nx ny) → Fin nf → Option Transport.Speed := fun c f =>
      match (thr c).uth0 f with
      | XR.fin u => Duran.velocity (C.duran f) ⟨E.wind c, u, Duran.slopeS nx ny zb (fun i j => (C.g i j).1) (rowOf c) (colOf c),
          Duran.slopeN ny zb (fun i j => (C.g i j).2) (rowOf c) (colOf c), (σ.sand.bed c).zb, zsep c⟩
      | _ => none
    if h : ∀ c f, ∃ s, v c f = some s then some fun c f => (h c f).choose else none

/-- What the chain takes from the rest of the step. Models aeolis/model.py:296-338. -/
def env (C : Config nx ny nf) (σ : State nx ny nf) (now : Now) (u0 u : Fin (cells nx ny) → Wind.Shear) (dt : ℝ)
    (h : Fin (ny + 1) → Hydro.Water) (m : Fin (cells nx ny) → Moisture.Cell) (zsep : Fin (cells nx ny) → ℝ) : Option (Env nx ny nf) :=
  let E := envWith C σ now u0 u dt h m fun _ _ => ⟨0, 0, 0⟩
  if C.core.tr.methodGrainspeed = "duran" ∧ now.uw ≠ 0 then
    match duranSpeeds C E σ.core zsep with
    | none => none
    | some v => some { E with duran := v }
  else some E

/-- The state after the part of a step before the choice of the time step, aeolis/model.py:274-293, with the separation bubbles of
aeolis/wind.py:233-235. -/
def prepared (C : Config nx ny nf) (σ : State nx ny nf) (now : Now) (r : Option Shear.Result) (u : Fin (cells nx ny) → Wind.Shear) :
    State nx ny nf :=
  let bubble := match r with
    | some r => r.hsep
    | none => none
  { σ with
    clock := { σ.clock with dtPrev := σ.clock.dt }
    uw := now.uw, udir := now.udir, shear := u, fence := fences C σ
    hsep := match bubble with
      | none => σ.hsep
      | some h => fun c => h (rowOf c) (colOf c)
    zsep := match bubble with
      | none => σ.zsep
      | some h => fun c => h (rowOf c) (colOf c) + (σ.core.sand.bed c).zb }

/-- New bed levels. Models aeolis/model.py:333-338. -/
def withLevels (τ : Whole.State nx ny nf) (zb : ℕ → ℕ → ℝ) : Whole.State nx ny nf :=
  { τ with sand := { τ.sand with bed := fun c => { τ.sand.bed c with zb := zb (rowOf c) (colOf c) } } }

/-- The state at the end of a step: averages of the bed level change, vegetation, clock, rotation back, aeolis/model.py:330-350. `r`: random
numbers. -/
def finished (C : Config nx ny nf) (r : ℕ → ℕ → ℝ) (σ : State nx ny nf) (h : Fin (ny + 1) → Hydro.HydroState)
    (m : Fin (cells nx ny) → Moisture.Cell) (τ : Whole.State nx ny nf) : State nx ny nf :=
  let a := fun c => Bed.averageChange σ.clock.dt C.accfac C.avgTime (σ.core.sand.bed c).zb (σ.dzbavg c)
    ((σ.core.sand.bed c).zb + (τ.sand.bed c).dzb)
  let dzbavg := if σ.uw ≠ 0 then fun c => (a c).dzbavg else σ.dzbavg
  let dzbveg := if σ.uw ≠ 0 then fun c => (a c).dzbveg else σ.dzbveg
  let veg := if C.shelter.processVegetation then
      Veg.vegStep { C.shelter.veg with dtOpt := σ.clock.dt } ny nx C.shelter.dx C.core.ds C.core.dn
        (fun i j => ⟨grid (fun c => (τ.sand.bed c).zb) i j, grid (fun c => (τ.sand.bed c).zs) i j, grid dzbveg i j⟩) r σ.veg
    else σ.veg
  { σ with
    clock := { σ.clock with t := σ.clock.t + σ.clock.dt * C.accfac }
    udir := σ.udir - C.alpha, shear := fun c => turn (-C.alpha) (σ.shear c)
    core := τ, hydro := h, moist := m, veg := veg, dzbavg := dzbavg, dzbveg := dzbveg }

/-- The part of a step after the choice of the time step, aeolis/model.py:296-350; `σ` is the prepared state, `u0` the undisturbed shear. -/
def execute (sp : LinSolve nx ny) (C : Config nx ny nf) (r : ℕ → ℕ → ℝ) (now : Now) (u0 : Fin (cells nx ny) → Wind.Shear)
    (σ : State nx ny nf) : Option (Except PyErr (State nx ny nf)) :=
  match meteoAt C (Hydro.lastTime C.ground σ.clock.t σ.clock.dt) with
  | .error e => some (.error e)
  | .ok met =>
    match waters C σ σ.clock.t σ.clock.dt with
    | .error e => some (.error e)
    | .ok h =>
      match moistures C σ σ.clock.t σ.clock.dt now.uw met h with
      | none => none
      | some (.error e) => some (.error e)
      | some (.ok m) =>
        match env C σ now u0 σ.shear σ.clock.dt (fun i => (h i).water) m σ.zsep with
        | none => none
        | some E =>
          match Whole.step sp C.core E σ.core with
          | none => none
          | some (.error e) => some (.error e)
          | some (.ok τ) =>
            match eroded C σ.clock.t σ.clock.dt (fun i => (h i).water) (grid fun c => (τ.sand.bed c).zb) with
            | .error e => some (.error e)
            | .ok zb => some (.ok (finished C r σ h m (withLevels τ zb)))

/-- `AeoLiS.update(dt)`, aeolis/model.py:241-350.  A step that is not executed (aeolis/model.py:293-294) keeps the new wind and clock.
The Boolean tells whether it was executed. -/
def update (sp : LinSolve nx ny) (C : Config nx ny nf) (r : ℕ → ℕ → ℝ) (dt : ℝ) (σ : State nx ny nf) :
    Option (Except PyErr (State nx ny nf × Bool)) :=
  match windNow C σ with
  | .error e => some (.error e)
  | .ok w =>
    match roughnesses C σ w.1 with
    | none => none
    | some (.error e) => some (.error e)
    | some (.ok z0) =>
      let now := windComponents C w
      let u0 := shear0 C σ w z0
      match stresses C σ now u0 with
      | .error e => some (.error e)
      | .ok res =>
        let ρ := prepared C σ now res (shearNow C σ now res u0)
        let k := setTimestep C.ts (tsGrids C ρ now) ρ.clock dt
        let ρ := { ρ with clock := k.1 }
        if k.2 then
          match execute sp C r now u0 ρ with
          | none => none
          | some (.error e) => some (.error e)
          | some (.ok τ) => some (.ok (τ, true))
        else some (.ok (ρ, false))

/-- Calls of `update` with given time steps and random numbers. Repetition of aeolis/model.py:241-350. -/
def run (sp : LinSolve nx ny) (C : Config nx ny nf) : List ((ℕ → ℕ → ℝ) × ℝ) → State nx ny nf → Option (Except PyErr (State nx ny nf))
  | [], σ => some (.ok σ)
  | x :: xs, σ =>
    match update sp C x.1 x.2 σ with
    | none => none
    | some (.error e) => some (.error e)
    | some (.ok (σ, _)) => run sp C xs σ

end

end Aeolis.Planar
