import Verif.Model.Sand

/-!
Model of what a time step does to the composition of the bed and to the concentrations, aeolis/model.py:297-337: mixing by waves, and with
wind the transport solver and the update of the bed; the bed levels are afterwards changed by avalanching, the reset of the wet bed and
dune erosion, none of which touches the composition.
-/

namespace Aeolis.Sand

open Aeolis.Solver

variable {K : Type*} [Field K] [LinearOrder K]

/-- Configuration of the bed: that of the bed update and that of mixing. Models aeolis/bed.py:121-190, 252-257. -/
structure Setup (K : Type*) (nf : ℕ) where
  bed : Bed.Params K nf
  mixing : Bool
  facDOD : K
  thlyr : ℕ → K

/-- What a time step takes from the rest of the model: heights of the mixing waves, whether there is wind, the input of the solver other
than the masses, the arrays it starts from, and the later change of bed and water levels (avalanching, reset of the wet bed, dune
erosion, hydrodynamics; simplification: any function of the levels). Models aeolis/model.py:290-338. -/
structure Forcing (K : Type*) (nx ny nf : ℕ) where
  hsmix : Fin (cells nx ny) → K
  windy : Bool
  solver : SolveIn K (Fin (cells nx ny)) nf
  pk : Fin (cells nx ny) → Fin nf → K
  w : Fin (cells nx ny) → Fin nf → K
  levels : (Fin (cells nx ny) → K × K × K) → Fin (cells nx ny) → K × K × K

variable {nx ny nf : ℕ}

/-- Mixing of the top layers in all cells, aeolis/bed.py:121-190; the test `np.any(ix)` concerns the whole grid. -/
def mix (S : Setup K nf) (F : Forcing K nx ny nf) (σ : State K nx ny nf) : State K nx ny nf :=
  { σ with bed := fun c =>
      { σ.bed c with
        mass := Bed.mixtoplayer S.bed.nl S.mixing S.facDOD (F.hsmix c) S.thlyr
          (decide (∃ c, ∃ k ∈ Finset.range S.bed.nl, Bed.mixIx0 S.thlyr (S.facDOD * F.hsmix c) k)) (σ.bed c).mass } }

/-- The solver is given the masses of the top layer, aeolis/model.py:1387. -/
def solverInput (F : Forcing K nx ny nf) (σ : State K nx ny nf) : SolveIn K (Fin (cells nx ny)) nf :=
  { F.solver with mass := fun c => (σ.bed c).mass 0 }

/-- Later changes of bed level, water level and reported change, aeolis/model.py:323-338. -/
def changeLevels (F : Forcing K nx ny nf) (σ : State K nx ny nf) : State K nx ny nf :=
  { σ with bed := fun c =>
      let l := F.levels (fun c => ((σ.bed c).zb, (σ.bed c).zs, (σ.bed c).dzb)) c
      { σ.bed c with zb := l.1, zs := l.2.1, dzb := l.2.2 } }

/-- A time step, aeolis/model.py:297-338. -/
def fullStep [FloorRing K] (S : Setup K nf) (F : Forcing K nx ny nf) (σ : State K nx ny nf) : Except PyErr (State K nx ny nf) := do
  let σ := mix S F σ
  let σ ← if F.windy then step S.bed (solverInput F σ) F.pk F.w σ else .ok σ
  return changeLevels F σ

/-- Any number of time steps, aeolis/model.py:2520-2525. -/
def run [FloorRing K] (S : Setup K nf) (Fs : List (Forcing K nx ny nf)) (σ : State K nx ny nf) : Except PyErr (State K nx ny nf) :=
  Fs.foldlM (fun σ F => fullStep S F σ) σ

end Aeolis.Sand
