import Verif.Model.Solver

/-! Specification of the transport solver: conditions on the flow, and the sediment budget. -/

namespace Aeolis.Solver

open Finset

variable {K : Type*} [Field K] [LinearOrder K]

/-- Transport in onshore direction on a grid whose cross-row flux is zero or in direction of increasing
row number and not larger at the first than at the last row. -/
structure Onshore (a : Adv K) : Prop where
  nx : 2 ≤ a.nx
  ny : a.ny ≠ 1
  dt : 0 ≤ a.dt
  T : 0 ≤ a.T
  alpha : 0 ≤ a.alpha
  beta : 1 ≤ |a.beta|
  ds : ∀ i ≤ a.ny, ∀ j ≤ a.nx, 0 ≤ a.ds i j
  dn : ∀ i ≤ a.ny, ∀ j ≤ a.nx, 0 ≤ a.dn i j
  dsdni : ∀ i ≤ a.ny, ∀ j ≤ a.nx, 0 ≤ a.dsdni i j
  us : ∀ i ≤ a.ny, ∀ j ≤ a.nx, 0 ≤ a.us i j
  un : 0 < a.ny → ∀ i ≤ a.ny, ∀ j ≤ a.nx, 0 ≤ a.un i j
  wrap : 0 < a.ny → ∀ j ≤ a.nx, a.un 0 j ≤ a.un a.ny j
  cells : 0 < a.ny → ∀ i ≤ a.ny, ∀ j ≤ a.nx,
    a.ds i j * a.dsdni i j = a.ds 0 j * a.dsdni 0 j

/-- A transect, with transport in any direction. -/
structure Transect (a : Adv K) : Prop where
  nx : 2 ≤ a.nx
  ny : a.ny = 0
  dt : 0 ≤ a.dt
  T : 0 ≤ a.T
  alpha : 0 ≤ a.alpha
  beta : 1 ≤ |a.beta|
  ds : ∀ j ≤ a.nx, 0 ≤ a.ds 0 j
  dn : ∀ j ≤ a.nx, 0 ≤ a.dn 0 j
  dsdni : ∀ j ≤ a.nx, 0 ≤ a.dsdni 0 j

/-- Transport on a transect that nowhere diverges: landward of a cell with offshore transport it is offshore too. -/
def NonDiverging (a : Adv K) : Prop := ∀ j < a.nx, a.us 0 j < 0 → a.us 0 (j + 1) < 0

/-- Total over the cells between the first and the last column. -/
def inner (a : Adv K) (g : ℕ → ℕ → K) : K :=
  ∑ i ∈ range (a.ny + 1), ∑ j ∈ Ico 1 a.nx, g i j

/-- Sediment picked up from the bed per unit area during the time step. -/
def exchange (a : Adv K) (v : Rhs K) (x : ℕ → ℕ → K) (i j : ℕ) : K :=
  (v.w i j * v.Cu i j - x i j) / a.T * a.dt

/-- Cell area. -/
def area (a : Adv K) (i j : ℕ) : K := a.ds i j * a.dn i j

/-- In every row the cross-shore velocity has one sign. -/
def OneSign (a : Adv K) : Prop :=
  ∀ i ≤ a.ny, (∀ j ≤ a.nx, 0 ≤ a.us i j) ∨ (∀ j ≤ a.nx, a.us i j < 0)

/-- Upwind fluxes into row `i` between the first and last column, minus those out of it, per unit
width: `us * x` of the cell upstream of each end. -/
def throughflow (a : Adv K) (x : ℕ → ℕ → K) (i : ℕ) : K :=
  if 0 ≤ a.us i 0 then a.us i 0 * x i 0 - a.us i (a.nx - 1) * x i (a.nx - 1)
  else a.us i 1 * x i 1 - a.us i a.nx * x i a.nx

/-- Setting of the budgets: the upwind Euler backward scheme without separate non-erodible or
reduced equilibrium concentration (`Cuf = Cu`), consistent cell areas, circular lateral boundaries. -/
structure BudgetSetting (a : Adv K) (bc : BcRows K) (v : Rhs K) : Prop where
  nx : 2 ≤ a.nx
  alpha : a.alpha = 1
  beta : 1 ≤ |a.beta|
  T : a.T ≠ 0
  lat : bc.latUnit = false
  us : OneSign a
  cell : ∀ i ≤ a.ny, ∀ j ≤ a.nx, a.ds i j * a.dn i j * a.dsdni i j = 1
  dn : ∀ i ≤ a.ny, ∀ j ≤ a.nx, a.dn i j = a.dn i 0
  Cuf : v.Cuf = v.Cu

/-- `x` solves the assembled system. -/
def Solves (a : Adv K) (b : Bounds) (bc : BcRows K) (v : Rhs K) (x : ℕ → ℕ → K) : Prop :=
  ∃ A, a.matrix bc = .ok A ∧
    A.mulVec (fun c : Fin ((a.ny + 1) * (a.nx + 1)) => x ((c : ℕ) / (a.nx + 1)) ((c : ℕ) % (a.nx + 1))) =
      fun c : Fin ((a.ny + 1) * (a.nx + 1)) => a.rhs b v ((c : ℕ) / (a.nx + 1)) ((c : ℕ) % (a.nx + 1))

/-! ### Budget for any velocities and any implicitness -/

/-- The upwind scheme on a grid with consistent cell areas and circular lateral boundaries; nothing is said about velocities,
implicitness and equilibrium concentrations. -/
structure AnyFlow (a : Adv K) (bc : BcRows K) : Prop where
  nx : 2 ≤ a.nx
  beta : 1 ≤ |a.beta|
  T : a.T ≠ 0
  lat : bc.latUnit = false
  cell : ∀ i ≤ a.ny, ∀ j ≤ a.nx, a.ds i j * a.dn i j * a.dsdni i j = 1
  dn : ∀ i ≤ a.ny, ∀ j ≤ a.nx, a.dn i j = a.dn i 0

/-- Average of the concentrations before and after the step, weighted with the implicitness. -/
def midway (a : Adv K) (v : Rhs K) (x : ℕ → ℕ → K) (i j : ℕ) : K := a.alpha * x i j + (1 - a.alpha) * v.lCt i j

/-- Equilibrium concentration: that of the saltating fluid in unsaturated, that of the impact in saturated cells, averaged
likewise. -/
def equilibrium (a : Adv K) (v : Rhs K) (i j : ℕ) : K :=
  a.alpha * (v.w i j * (v.Cuf i j * (1 - v.S i j) + v.Cu i j * v.S i j)) +
    (1 - a.alpha) * (v.lw i j * (v.lCuf i j * (1 - v.S i j) + v.lCu i j * v.S i j))

/-- Sediment picked up according to the system of equations. -/
def uptakeOf (a : Adv K) (v : Rhs K) (x : ℕ → ℕ → K) (i j : ℕ) : K :=
  (equilibrium a v i j - midway a v x i j) / a.T * a.dt

/-- Flux into the first inner cell of a row, upwind by its velocity. -/
def entering (a : Adv K) (c : ℕ → ℕ → K) (i : ℕ) : K :=
  if 0 ≤ a.us i 1 then a.us i 0 * c i 0 else a.us i 1 * c i 1

/-- Flux out of the last inner cell of a row, upwind by its velocity. -/
def leaving (a : Adv K) (c : ℕ → ℕ → K) (i : ℕ) : K :=
  if 0 ≤ a.us i (a.nx - 1) then a.us i (a.nx - 1) * c i (a.nx - 1) else a.us i a.nx * c i a.nx

/-- Sediment lost where the velocities of neighbouring cells have different directions: all that both of them carry. -/
def lostBetween (a : Adv K) (c : ℕ → ℕ → K) (i j : ℕ) : K :=
  if 0 ≤ a.us i j ↔ 0 ≤ a.us i (j + 1) then 0 else |a.us i j| * c i j + |a.us i (j + 1)| * c i (j + 1)

end Aeolis.Solver
