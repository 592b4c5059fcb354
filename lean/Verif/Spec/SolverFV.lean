import Verif.Model.SolverFV

/-! Specification of the finite-volume solvers: accepted settings and the sediment budget. -/

namespace Aeolis.Solver.FV

open Finset

variable {K : Type*} [Field K] [LinearOrder K]

/-- The conditions at both ends of the rows are known. -/
def EndsKnown (b : Bounds) : Prop :=
  (b.off = "flux" ∨ b.off = "constant" ∨ b.off = "gradient") ∧
    (b.on = "flux" ∨ b.on = "constant" ∨ b.on = "gradient")

/-- The wind across the rows: none of it matters on a transect; on a grid it blows towards higher row
numbers, or it is the same in all rows of a circular grid without fixed ends. -/
def CrossWind (a : FV K) (b : Bounds) : Prop :=
  a.ny = 0 ∨ (∀ i ≤ a.ny, ∀ j ≤ a.nx, 0 ≤ a.un i j) ∨
    (b.lat = "circular" ∧ b.off ≠ "constant" ∧ b.on ≠ "constant" ∧
      ∀ i ≤ a.ny, ∀ j ≤ a.nx, a.un i j = a.un 0 j)

/-- A regular grid with a positive time step and adaptation time, any wind along the rows. -/
structure Setting (a : FV K) (b : Bounds) : Prop where
  nx : 1 ≤ a.nx
  ny : a.ny ≠ 1
  T : 0 < a.T
  dt : 0 < a.dt
  alpha : 0 ≤ a.alpha
  dsdn : ∀ i ≤ a.ny, ∀ j ≤ a.nx, 0 < a.dsdn i j
  ds : ∀ i ≤ a.ny, ∀ j ≤ a.nx, 0 ≤ a.ds i j
  dn : ∀ i ≤ a.ny, ∀ j ≤ a.nx, 0 ≤ a.dn i j
  dnRow : ∀ i ≤ a.ny, ∀ j ≤ a.nx, a.dn i j = a.dn i 0
  dsCol : ∀ i ≤ a.ny, ∀ j ≤ a.nx, a.ds i j = a.ds 0 j
  ends : EndsKnown b
  lat : b.lat = "flux" ∨ b.lat = "constant" ∨ b.lat = "circular"
  wind : CrossWind a b

/-- Total over all cells. -/
def total (a : FV K) (g : ℕ → ℕ → K) : K := ∑ i ∈ range (a.ny + 1), ∑ j ∈ range (a.nx + 1), g i j

/-- Weight of the new concentrations: all of it in the steady solver. -/
def weight (a : FV K) : K := if a.steady = true then 1 else a.alpha

/-- Concentration the fluxes are based on: `l` before and `x` after the step. -/
def between (a : FV K) (l x : ℕ → ℕ → K) (i j : ℕ) : K := a.weight * x i j + (1 - a.weight) * l i j

/-- Growth of the sediment in the air; none in the steady solver. -/
def storage (a : FV K) (l x : ℕ → ℕ → K) (i j : ℕ) : K :=
  if a.steady = true then 0 else a.dsdn i j * (x i j - l i j) / a.dt

/-- Sediment taken from the bed: what the wind can carry, limited by the mass in the top layer and the
sediment that settles (at the last iterate `C`). -/
def uptake (a : FV K) (v : Data K) (C w : ℕ → ℕ → K) (i j : ℕ) : K :=
  a.dsdn i j / a.T * min (between a (fun i j => v.lw i j * v.lCu i j) (fun i j => w i j * v.Cu i j) i j)
    (v.mass i j + between a v.lCt C i j)

/-- Sediment settling on the bed. -/
def settling (a : FV K) (v : Data K) (x : ℕ → ℕ → K) (i j : ℕ) : K :=
  a.dsdn i j / a.T * between a v.lCt x i j

/-- Flux carried by the velocity `u` from a cell with `l` to a cell with `r`. -/
def carried (u l r : K) : K := if 0 ≤ u then u * l else u * r

/-- Flux along a row through the face between the columns `j - 1` and `j`. -/
def rowFlux (a : FV K) (c : ℕ → ℕ → K) (i j : ℕ) : K :=
  carried ((a.us i (j - 1) + a.us i j) / 2) (c i (j - 1)) (c i j)

/-- Flux from the last row to the first one around a circular grid. -/
def wrapFlux (a : FV K) (c : ℕ → ℕ → K) (j : ℕ) : K :=
  carried ((a.un a.ny j + a.un 0 j) / 2) (c a.ny j) (c 0 j)

/-- Supply through the offshore end of a row. -/
def offSupply (a : FV K) (b : Bounds) (v : Data K) (x : ℕ → ℕ → K) (i : ℕ) : K :=
  a.dn i 0 * (if b.off = "flux" then a.us i 0 * v.Cu0 i 0 * v.offFlux
    else rowFlux a (between a v.lCt x) i 1)

/-- Supply through the onshore end of a row.  The prescribed flux enters with the sign of the wind. -/
def onSupply (a : FV K) (b : Bounds) (v : Data K) (x : ℕ → ℕ → K) (i : ℕ) : K :=
  a.dn i 0 * (if b.on = "flux" then a.us i a.nx * v.Cu0 i a.nx * v.onFlux
    else -rowFlux a (between a v.lCt x) i a.nx)

/-- Supply through the lateral boundaries. -/
def latSupply (a : FV K) (b : Bounds) (v : Data K) (j : ℕ) : K :=
  if b.lat = "flux" then a.ds 0 j * (a.un 0 j * v.Cu0 0 j - a.un a.ny j * v.Cu0 a.ny j) * v.latFlux else 0

/-- The grid `x`, flattened, solves the linear system with the flattened right hand side `y`. -/
def Solves (a : FV K) (A : Matrix (Fin a.cells) (Fin a.cells) K) (x y : ℕ → ℕ → K) : Prop :=
  ∀ c : Fin a.cells, A.mulVec (fun c : Fin a.cells => a.flat x c) c = a.flat y c

/-- Non-negative inputs for one fraction. -/
structure Inputs (a : FV K) (b : Bounds) (v : Data K) : Prop where
  Cu : ∀ i ≤ a.ny, ∀ j ≤ a.nx, 0 ≤ v.Cu i j
  Cu0 : ∀ i ≤ a.ny, ∀ j ≤ a.nx, 0 ≤ v.Cu0 i j
  mass : ∀ i ≤ a.ny, ∀ j ≤ a.nx, 0 ≤ v.mass i j
  lCt : ∀ i ≤ a.ny, ∀ j ≤ a.nx, 0 ≤ v.lCt i j
  off : b.off = "flux" → ∀ i ≤ a.ny, 0 ≤ a.us i 0 * v.offFlux
  on : b.on = "flux" → ∀ i ≤ a.ny, 0 ≤ a.us i a.nx * v.onFlux
  lat : b.lat = "flux" → v.latFlux = 0
  const : a.steady = true → 0 ≤ v.offConst ∧ 0 ≤ v.onConst
  wrap : a.steady = true → b.lat = "circular" → ∀ i ≤ a.ny, ∀ j ≤ a.nx, 0 ≤ a.un i j

end Aeolis.Solver.FV
