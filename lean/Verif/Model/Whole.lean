import Verif.Model.SandStep
import Verif.Model.Threshold
import Verif.Model.Transport

/-!
Model of the chain from wind to bed in a time step, aeolis/model.py:297-337: mixing by waves, thresholds, grain speed and transport
capacity, saturation, weights, assembly and solution of the linear systems, exchange with the bed, later changes of the bed levels.  Wind,
water levels and moisture are inputs of the step (any values).

* `scipy.sparse.linalg.spsolve` is a parameter: any function of the matrix and the right-hand side.
* Transport capacities are real numbers; a step in which one is infinite or not a number has no result (`none`), what the code does
  with such values is not modelled.
-/

namespace Aeolis.Whole

open Aeolis.Sand Aeolis.Solver

noncomputable section

open Classical

variable {nx ny nf : ℕ}

/-- Results for all elements of an array, or the exception of one of them. Array operations in aeolis/threshold.py:43-108 and
aeolis/transport.py:255-368. -/
def collect {ι α : Type*} (f : ι → Except PyErr α) : Except PyErr (ι → α) :=
  if h : ∀ i, ∃ a, f i = .ok a then .ok fun i => (h i).choose
  else if h : ∃ e, ∃ i, f i = .error e then .error h.choose
  else .error .valueError

/-- The values of an array if they are all real numbers. -/
def reals {ι : Type*} (f : ι → XR) : Option (ι → ℝ) :=
  if h : ∀ i, ∃ r, f i = XR.fin r then some fun i => (h i).choose else none

/-- Configuration: thresholds, transport, bed, solver, grid; `alpha` and `beta` are those of the scheme.  `bedcomp` tells whether a file
with the composition of the bed is given. Models aeolis/constants.py:153-334. -/
structure Config (nf : ℕ) where
  thr : Threshold.Config nf
  tr : Transport.Params
  setup : Setup ℝ nf
  bi : ℝ
  T : ℝ
  maxIter : ℕ
  bounds : Bounds
  offshoreFlux : ℝ
  onshoreFlux : ℝ
  constOff : ℝ
  constOn : ℝ
  alpha : ℝ
  beta : ℝ
  bedcomp : Bool
  ds : ℕ → ℕ → ℝ
  dn : ℕ → ℕ → ℝ
  dsdni : ℕ → ℕ → ℝ

/-- What a time step takes from wind, water and moisture, and the changes of the bed levels after the exchange with the air (avalanching,
reset of the wet bed, dune erosion; simplification: any function of the levels). Models aeolis/model.py:274-338. -/
structure Env (nx ny nf : ℕ) where
  t : ℝ
  dt : ℝ
  wind : Fin (cells nx ny) → Transport.Wind
  duran : Fin (cells nx ny) → Fin nf → Transport.Speed
  hsmix : Fin (cells nx ny) → ℝ
  zs : Fin (cells nx ny) → ℝ
  moist : Fin (cells nx ny) → ℝ
  salt : Fin (cells nx ny) → ℝ
  mask : Fin (cells nx ny) → ℝ × ℝ
  zne : Fin (cells nx ny) → Option ℝ
  levels : (Fin (cells nx ny) → ℝ × ℝ × ℝ) → Fin (cells nx ny) → ℝ × ℝ × ℝ

/-- Transport capacities of a cell and fraction: `Cu`, `Cuf`, `Cu0`. Models aeolis/transport.py:302-368. -/
structure Capacity where
  Cu : ℝ
  Cuf : ℝ
  Cu0 : ℝ

/-- State: sand in bed and air, thresholds, capacities, grain speeds, weights. Models aeolis/model.py:297-338. -/
structure State (nx ny nf : ℕ) where
  sand : Sand.State ℝ nx ny nf
  thr : Fin (cells nx ny) → Threshold.Thr nf
  cap : Fin (cells nx ny) → Fin nf → Capacity
  speed : Fin (cells nx ny) → Fin nf → Transport.Speed
  w : Fin (cells nx ny) → Fin nf → ℝ

/-- What the thresholds depend on in a cell, aeolis/threshold.py:43-108. -/
def thrCell (E : Env nx ny nf) (σ : State nx ny nf) (c : Fin (cells nx ny)) : Threshold.Cell nf where
  zb := (σ.sand.bed c).zb
  zs := (σ.sand.bed c).zs
  moist := E.moist c
  salt := E.salt c
  ustar := (E.wind c).ustar
  mass := (σ.sand.bed c).mass 0
  maskRe := (E.mask c).1
  maskIm := (E.mask c).2
  zne := E.zne c

/-- The thresholds in all cells, aeolis/model.py:305. -/
def thresholds (C : Config nf) (E : Env nx ny nf) (σ : State nx ny nf) : Except PyErr (Fin (cells nx ny) → Threshold.Thr nf) :=
  collect fun c => Threshold.compute C.thr (thrCell E σ c) (σ.thr c)

/-- The grain speeds, aeolis/transport.py:279-300; without transport those of the previous step. -/
def speeds (C : Config nf) (E : Env nx ny nf) (σ : State nx ny nf) : Except PyErr (Fin (cells nx ny) × Fin nf → Transport.Speed) :=
  if C.tr.processTransport then collect fun x => Transport.grainspeed C.tr (E.wind x.1) (E.duran x.1 x.2)
  else .ok fun x => σ.speed x.1 x.2

/-- The transport capacities for the new thresholds, aeolis/model.py:308. -/
def capacities (C : Config nf) (E : Env nx ny nf) (σ : State nx ny nf) (thr : Fin (cells nx ny) → Threshold.Thr nf) :
    Except PyErr (Fin (cells nx ny) × Fin nf → Transport.Conc) :=
  collect fun x => Transport.equilibrium C.tr (C.thr.grainSize x.2) (E.wind x.1) (E.duran x.1 x.2)
    ⟨(thr x.1).uth x.2, (thr x.1).uthf x.2, (thr x.1).uth0 x.2⟩
    ⟨XR.fin (σ.cap x.1 x.2).Cu, XR.fin (σ.cap x.1 x.2).Cuf, XR.fin (σ.cap x.1 x.2).Cu0⟩

/-- Saturation, aeolis/model.py:1319-1322. -/
def saturation (Ct : Fin nf → ℝ) (cap : Fin nf → Capacity) : ℝ := ∑ f, if 0 < (cap f).Cu then Ct f / (cap f).Cu else 0

/-- Weights at the start of the solver, aeolis/model.py:1108-1119. -/
def initialWeights (C : Config nf) (E : Env nx ny nf) (σ : State nx ny nf) (cap : Fin (cells nx ny) → Fin nf → Capacity)
    (c : Fin (cells nx ny)) : Fin nf → ℝ :=
  if E.t = 0 ∧ C.bedcomp = false then C.thr.grainDist
  else computeWeights C.bi (σ.sand.Ct c) (fun f => (cap c f).Cu) ((σ.sand.bed c).mass 0)

/-- Coefficients of the linear system of a fraction, aeolis/model.py:1151-1194. -/
def system (C : Config nf) (E : Env nx ny nf) (speed : Fin (cells nx ny) → Fin nf → Transport.Speed) (f : Fin nf) : Adv ℝ where
  nx := nx
  ny := ny
  dt := E.dt
  T := C.T
  alpha := C.alpha
  beta := C.beta
  ds := C.ds
  dn := C.dn
  dsdni := C.dsdni
  us := onGrid (nx := nx) (ny := ny) fun c => (speed c f).us
  un := onGrid (nx := nx) (ny := ny) fun c => (speed c f).un

/-- Values in the right-hand side of a fraction for given weights, aeolis/model.py:1318-1358; the values of the previous step are those
of `σ`. -/
def values (C : Config nf) (E : Env nx ny nf) (σ : State nx ny nf) (cap : Fin (cells nx ny) → Fin nf → Capacity)
    (speed : Fin (cells nx ny) → Fin nf → Transport.Speed) (f : Fin nf) (w : Fin (cells nx ny) → ℝ) : Rhs ℝ :=
  (system C E speed f).ends
    { offshoreFlux := C.offshoreFlux, onshoreFlux := C.onshoreFlux, constOff := C.constOff, constOn := C.constOn,
      Cu0 := onGrid (nx := nx) (ny := ny) fun c => (cap c f).Cu0, u := onGrid (nx := nx) (ny := ny) fun c => (speed c f).u }
    { w := onGrid (nx := nx) (ny := ny) w
      Cu := onGrid (nx := nx) (ny := ny) fun c => (cap c f).Cu
      Cuf := onGrid (nx := nx) (ny := ny) fun c => (cap c f).Cuf
      S := onGrid (nx := nx) (ny := ny) fun c => saturation (σ.sand.Ct c) (cap c)
      lw := onGrid (nx := nx) (ny := ny) fun c => σ.w c f
      lCu := onGrid (nx := nx) (ny := ny) fun c => (σ.cap c f).Cu
      lCuf := onGrid (nx := nx) (ny := ny) fun c => (σ.cap c f).Cuf
      lCt := onGrid (nx := nx) (ny := ny) fun c => σ.sand.Ct c f
      offFlux := fun _ => 0, onFlux := fun _ => 0, offConst := fun _ => 0, onConst := fun _ => 0 }

/-- A solver of linear systems over the cells. Used in aeolis/model.py:1361. -/
abbrev LinSolve (nx ny : ℕ) := Matrix (Fin (cells nx ny)) (Fin (cells nx ny)) ℝ → (Fin (cells nx ny) → ℝ) → Fin (cells nx ny) → ℝ

/-- The matrices of all fractions, aeolis/model.py:1195-1301. -/
def matrices (C : Config nf) (E : Env nx ny nf) (speed : Fin (cells nx ny) → Fin nf → Transport.Speed) :
    Except PyErr (Fin nf → Matrix (Fin (cells nx ny)) (Fin (cells nx ny)) ℝ) :=
  collect fun f =>
    match boundaries C.bounds (system C E speed f).offRatio (system C E speed f).onRatio with
    | .error e => .error e
    | .ok bc => (system C E speed f).matrix bc

/-- The input of the loop over the fractions, aeolis/model.py:1150-1432. -/
def solverIn (sp : LinSolve nx ny) (C : Config nf) (E : Env nx ny nf) (σ : State nx ny nf)
    (cap : Fin (cells nx ny) → Fin nf → Capacity) (speed : Fin (cells nx ny) → Fin nf → Transport.Speed)
    (A : Fin nf → Matrix (Fin (cells nx ny)) (Fin (cells nx ny)) ℝ) : SolveIn ℝ (Fin (cells nx ny)) nf where
  T := C.T
  dt := E.dt
  maxError := C.setup.bed.maxError
  maxIter := C.maxIter
  Cu := fun c f => (cap c f).Cu
  mass := fun c => (σ.sand.bed c).mass 0
  lin := fun f w => sp (A f) fun c =>
    (system C E speed f).rhs C.bounds (values C E σ cap speed f w) ((c : ℕ) / (nx + 1)) ((c : ℕ) % (nx + 1))

/-- Solver and bed update with given capacities and speeds, aeolis/model.py:310-321. -/
def exchange (sp : LinSolve nx ny) (C : Config nf) (E : Env nx ny nf) (σ : State nx ny nf) (thr : Fin (cells nx ny) → Threshold.Thr nf)
    (cap : Fin (cells nx ny) → Fin nf → Capacity) (speed : Fin (cells nx ny) → Fin nf → Transport.Speed) :
    Except PyErr (State nx ny nf) :=
  match matrices C E speed with
  | .error e => .error e
  | .ok A =>
    let s := solverIn sp C E σ cap speed A
    match solve s σ.sand.Ct (fun c => (σ.sand.bed c).pickup) (initialWeights C E σ cap) with
    | .error e => .error e
    | .ok o => .ok
      { sand := { bed := fun c => Bed.update C.setup.bed { σ.sand.bed c with pickup := o.pickup c }, Ct := o.Ct }
        thr := thr, cap := cap, speed := speed, w := o.w }

/-- The part of a time step that is done only with wind, aeolis/model.py:303-321. -/
def transport (sp : LinSolve nx ny) (C : Config nf) (E : Env nx ny nf) (σ : State nx ny nf) : Option (Except PyErr (State nx ny nf)) :=
  match thresholds C E σ with
  | .error e => some (.error e)
  | .ok thr =>
    match speeds C E σ with
    | .error e => some (.error e)
    | .ok speed =>
      match capacities C E σ thr with
      | .error e => some (.error e)
      | .ok cap =>
        match reals fun x => (cap x).Cu, reals fun x => (cap x).Cuf, reals fun x => (cap x).Cu0 with
        | some Cu, some Cuf, some Cu0 =>
          some (exchange sp C E σ thr (fun c f => ⟨Cu (c, f), Cuf (c, f), Cu0 (c, f)⟩) fun c f => speed (c, f))
        | _, _, _ => none

/-- Water levels of the step and mixing by waves, aeolis/model.py:296-301. -/
def waves (C : Config nf) (E : Env nx ny nf) (σ : State nx ny nf) : State nx ny nf :=
  { σ with sand :=
      { σ.sand with bed := fun c =>
          { σ.sand.bed c with
            zs := E.zs c
            mass := Bed.mixtoplayer C.setup.bed.nl C.setup.mixing C.setup.facDOD (E.hsmix c) C.setup.thlyr
              (decide (∃ c, ∃ k ∈ Finset.range C.setup.bed.nl, Bed.mixIx0 C.setup.thlyr (C.setup.facDOD * E.hsmix c) k))
              (σ.sand.bed c).mass } } }

/-- Later changes of the levels, aeolis/model.py:323-338. -/
def relevel (E : Env nx ny nf) (σ : State nx ny nf) : State nx ny nf :=
  { σ with sand :=
      { σ.sand with bed := fun c =>
          let l := E.levels (fun c => ((σ.sand.bed c).zb, (σ.sand.bed c).zs, (σ.sand.bed c).dzb)) c
          { σ.sand.bed c with zb := l.1, zs := l.2.1, dzb := l.2.2 } } }

/-- A time step, aeolis/model.py:296-338: the transport is computed if the wind speeds do not add up to zero. -/
def step (sp : LinSolve nx ny) (C : Config nf) (E : Env nx ny nf) (σ : State nx ny nf) : Option (Except PyErr (State nx ny nf)) :=
  let σ := waves C E σ
  if ∑ c, (E.wind c).uw ≠ 0 then
    match transport sp C E σ with
    | none => none
    | some (.error e) => some (.error e)
    | some (.ok σ) => some (.ok (relevel E σ))
  else some (.ok (relevel E σ))

/-- A run, aeolis/model.py:2517-2525. -/
def run (sp : LinSolve nx ny) (C : Config nf) : List (Env nx ny nf) → State nx ny nf → Option (Except PyErr (State nx ny nf))
  | [], σ => some (.ok σ)
  | E :: Es, σ =>
    match step sp C E σ with
    | none => none
    | some (.error e) => some (.error e)
    | some (.ok σ) => run sp C Es σ

end

end Aeolis.Whole
