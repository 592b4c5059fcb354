import Verif.Model.SolverSteady
import Verif.Spec.Solver

/-! Specification of the steady solver: its system, and the time step with the same data. -/

namespace Aeolis.Solver

variable {K : Type*} [Field K] [LinearOrder K]

/-- `x` solves the assembled system of the steady solver. -/
def Steady.Solves (a : Steady K) (b : Bounds) (bc : BcRows K) (v : Rhs K) (x : ℕ → ℕ → K) : Prop :=
  ∃ A, a.matrix bc = .ok A ∧
    A.mulVec (fun c : Fin ((a.ny + 1) * (a.nx + 1)) => x ((c : ℕ) / (a.nx + 1)) ((c : ℕ) % (a.nx + 1))) =
      fun c : Fin ((a.ny + 1) * (a.nx + 1)) => a.rhs b v ((c : ℕ) / (a.nx + 1)) ((c : ℕ) % (a.nx + 1))

/-- The upwind Euler backward step of the default solver with adaptation time `T` on the same grid and
wind. -/
def Steady.inTime (a : Steady K) (dt T : K) : Adv K :=
  { nx := a.nx, ny := a.ny, dt := dt, T := T, alpha := 1, beta := 1, ds := a.ds, dn := a.dn,
    dsdni := a.dsdni, us := a.us, un := a.un }

/-- Transport in onshore direction, as `Onshore`, with a positive adaptation time. -/
structure Steady.Onshore (a : Steady K) : Prop where
  nx : 2 ≤ a.nx
  ny : a.ny ≠ 1
  T : 0 < a.T
  ds : ∀ i ≤ a.ny, ∀ j ≤ a.nx, 0 ≤ a.ds i j
  dn : ∀ i ≤ a.ny, ∀ j ≤ a.nx, 0 ≤ a.dn i j
  dsdni : ∀ i ≤ a.ny, ∀ j ≤ a.nx, 0 ≤ a.dsdni i j
  us : ∀ i ≤ a.ny, ∀ j ≤ a.nx, 0 ≤ a.us i j
  un : 0 < a.ny → ∀ i ≤ a.ny, ∀ j ≤ a.nx, 0 ≤ a.un i j
  wrap : 0 < a.ny → ∀ j ≤ a.nx, a.un 0 j ≤ a.un a.ny j
  cells : 0 < a.ny → ∀ i ≤ a.ny, ∀ j ≤ a.nx,
    a.ds i j * a.dsdni i j = a.ds 0 j * a.dsdni 0 j

end Aeolis.Solver
