import Verif.Model.Sand
import Verif.Spec.Solver
import Verif.Spec.Bed

/-! Specification of the exchange of sand between bed and air. -/

namespace Aeolis.Sand

open Aeolis.Solver Finset

variable {K : Type*} [Field K] [LinearOrder K]

/-- The grid: cell sizes in both directions. -/
structure Domain (K : Type*) where
  nx : ℕ
  ny : ℕ
  ds : ℕ → ℕ → K
  dn : ℕ → ℕ → K

/-- Mass of the sand between the first and last column: bed level times bulk density, and what is in the air. -/
def total {nf : ℕ} (p : Bed.Params K nf) (D : Domain K) (σ : State K D.nx D.ny nf) : K :=
  ∑ i ∈ range (D.ny + 1), ∑ j ∈ Ico 1 D.nx, D.ds i j * D.dn i j *
    (p.rhog * (1 - p.porosity) * onGrid (fun c => (σ.bed c).zb) i j + ∑ f, onGrid (fun c => σ.Ct c f) i j)

/-- Area between the first and last column. -/
def surface (D : Domain K) : K := ∑ i ∈ range (D.ny + 1), ∑ j ∈ Ico 1 D.nx, D.ds i j * D.dn i j

/-- What leaves a transect sideways per unit of time: there is no neighbour that receives it. -/
def aside (a : Adv K) (c : ℕ → ℕ → K) : K := if a.ny = 0 then ∑ j ∈ Ico 1 a.nx, a.ds 0 j * |a.un 0 j| * c 0 j else 0

/-- Supply of one fraction through the ends of the rows with concentrations `c`, less what is lost at changes of direction and sideways. -/
def supply (a : Adv K) (c : ℕ → ℕ → K) : K :=
  a.dt * (∑ i ∈ range (a.ny + 1), a.dn i 0 * (entering a c i - leaving a c i - ∑ j ∈ Ico 1 (a.nx - 1), lostBetween a c i j) - aside a c)

/-- One time step: per fraction the coefficients and right-hand side of the linear system, and the input of the solver. -/
structure Step (K : Type*) (nx ny nf : ℕ) where
  sys : Fin nf → Adv K
  bounds : Bounds
  bc : BcRows K
  rhs : Fin nf → Rhs K
  solver : SolveIn K (Fin (cells nx ny)) nf
  pk : Fin (cells nx ny) → Fin nf → K
  w : Fin (cells nx ny) → Fin nf → K

/-- A transect, or a grid of equal rows with an alongshore wind that does not vary alongshore. -/
def AlikeRows (a : Adv K) : Prop :=
  a.ny = 0 ∨
  (0 < a.ny ∧ (∀ i ≤ a.ny, ∀ j ≤ a.nx, a.ds i j = a.ds 0 j) ∧ (∀ i ≤ a.ny, a.dn i 0 = a.dn 0 0) ∧
    ∀ i ≤ a.ny, ∀ j ≤ a.nx, a.un i j = a.un 0 j)

/-- The systems of the step belong to the domain and to the state: Euler backward, one equilibrium concentration, concentrations
and masses of the state; the linear solver solves the assembled systems, with non-negative solutions. -/
structure Step.Fits {nf : ℕ} (D : Domain K) (σ : State K D.nx D.ny nf) (t : Step K D.nx D.ny nf) : Prop where
  nx : ∀ f, (t.sys f).nx = D.nx
  ny : ∀ f, (t.sys f).ny = D.ny
  ds : ∀ f, (t.sys f).ds = D.ds
  dn : ∀ f, (t.sys f).dn = D.dn
  dsPos : ∀ i ≤ D.ny, ∀ j ≤ D.nx, 0 ≤ D.ds i j
  dnPos : ∀ i ≤ D.ny, ∀ j ≤ D.nx, 0 ≤ D.dn i j
  dt : ∀ f, (t.sys f).dt = t.solver.dt
  T : ∀ f, (t.sys f).T = t.solver.T
  alpha : ∀ f, (t.sys f).alpha = 1
  flow : ∀ f, AnyFlow (t.sys f) t.bc
  side : ∀ f, AlikeRows (t.sys f)
  Cuf : ∀ f, (t.rhs f).Cuf = (t.rhs f).Cu
  Cu : ∀ f i j, (t.rhs f).Cu i j = onGrid (fun c => t.solver.Cu c f) i j
  lCt : ∀ f i j, (t.rhs f).lCt i j = onGrid (fun c => σ.Ct c f) i j
  mass : ∀ c f, t.solver.mass c f = (σ.bed c).mass 0 f
  massPos : ∀ c f, 0 ≤ (σ.bed c).mass 0 f
  CuPos : ∀ c f, 0 ≤ t.solver.Cu c f
  timePos : 0 < t.solver.T ∧ 0 < t.solver.dt ∧ 0 ≤ t.solver.maxError
  weights : ∀ c f, 0 ≤ t.w c f
  lin : ∀ f w, (∀ c, 0 ≤ w c) →
    Solves (t.sys f) t.bounds t.bc { t.rhs f with w := onGrid w } (onGrid (t.solver.lin f w)) ∧
      ∀ c, 0 ≤ t.solver.lin f w c

/-- The pickup found by the solver does not deposit more than the top layer of a cell holds. -/
def Step.Modest {nx ny nf : ℕ} (σ : State K nx ny nf) (t : Step K nx ny nf) : Prop :=
  ∀ o, solve t.solver σ.Ct t.pk t.w = .ok o → ∀ c, ∑ f, o.pickup c f < 0 →
    -∑ f, o.pickup c f < Spec.layerTotal (σ.bed c).mass 0

end Aeolis.Sand
