import Verif.Model.Solver
import Verif.Model.Bed
import Verif.Model.Avalanche

/-!
Model of the part of a time step in which sand is exchanged between bed and air, aeolis/model.py:303-318: the transport solver
followed by the update of the bed.  Cells are numbered `i (nx + 1) + j`, as in the vectors of the solver.
-/

namespace Aeolis.Sand

open Aeolis.Solver

variable {K : Type*} [Field K] [LinearOrder K]

/-- Number of cells, aeolis/model.py:1283-1301. -/
abbrev cells (nx ny : ℕ) : ℕ := (ny + 1) * (nx + 1)

/-- `reshape` of a vector over the cells to the grid, aeolis/model.py:1430-1431; zero outside the grid. -/
def onGrid {nx ny : ℕ} (X : Fin (cells nx ny) → K) (i j : ℕ) : K :=
  if h : i * (nx + 1) + j < cells nx ny then X ⟨_, h⟩ else 0

/-- Sand in the bed and in the air, used in aeolis/model.py:307-321. -/
structure State (K : Type*) (nx ny nf : ℕ) where
  bed : Fin (cells nx ny) → Bed.Cell K nf
  Ct : Fin (cells nx ny) → Fin nf → K

/-- Solver and bed update of one time step, aeolis/model.py:307-321; `s` holds the linear systems of the step and `pk`, `w` the
arrays the solver starts from. -/
def step [FloorRing K] {nx ny nf : ℕ} (p : Bed.Params K nf) (s : SolveIn K (Fin (cells nx ny)) nf)
    (pk w : Fin (cells nx ny) → Fin nf → K) (σ : State K nx ny nf) : Except PyErr (State K nx ny nf) := do
  let o ← solve s σ.Ct pk w
  return { bed := fun c => Bed.update p { σ.bed c with pickup := o.pickup c }, Ct := o.Ct }

/-- Avalanching after the update of the bed, aeolis/model.py:323-325: only the bed levels change. -/
noncomputable def slideBed {nx ny nf : ℕ} (a : Ava.Params) (σ : State ℝ nx ny nf) : State ℝ nx ny nf :=
  { σ with bed := fun c =>
      { σ.bed c with zb := Ava.avalanche a (onGrid fun c => (σ.bed c).zb) ((c : ℕ) / (nx + 1)) ((c : ℕ) % (nx + 1)) } }

end Aeolis.Sand
