import Verif.Model.Solver

/-!
Model of the finite-volume solvers `AeoLiS.solve_pieter`, aeolis/model.py:1837-2257, and
`AeoLiS.solve_steadystatepieter`, aeolis/model.py:1457-1834, and of the choice between the solvers,
aeolis/model.py:662-720.

* The two functions differ in the time derivative (absent in the steady one), in the implicitness
  (`alpha` is one in the steady one), in the value used by `constant` boundaries, and in the
  concentration at the last lateral face; they are one definition with the flag `steady`.
* `beta` is one in every call (aeolis/model.py:672-716), so only the upwind form is modelled.
* `scipy.sparse.linalg.spsolve` is not modelled (see `Verif.Model.Solver`).
* Faces are numbered `0 … nx + 1` along a row and `0 … ny + 1` across the rows.
-/

namespace Aeolis.Solver

open Finset

variable {K : Type*} [Field K] [LinearOrder K]

/-! ### Choice of the solver -/

/-- The four solvers. Models aeolis/model.py:723,1066,1457,1837. -/
inductive SolverName
  | trunk
  | pieter
  | steadystate
  | steadystatepieter
deriving DecidableEq, Repr

/-- `p['solver'].lower()`, aeolis/model.py:671-678; without a match `solve` is never assigned
(`UnboundLocalError`, a `NameError`).  The argument is the lowered string. -/
def pickSolver (s : String) : Except PyErr SolverName :=
  if s = "trunk" then .ok .trunk
  else if s = "pieter" then .ok .pieter
  else if s = "steadystate" then .ok .steadystate
  else if s = "steadystatepieter" then .ok .steadystatepieter
  else .error .nameError

/-- The three schemes, aeolis/model.py:662-720. -/
inductive Scheme
  | eulerForward
  | eulerBackward
  | crankNicolson
deriving DecidableEq, Repr

/-- Implicitness handed to the solver, aeolis/model.py:672-674,693-695,712-714; the steady solvers take
none. -/
def implicitness (s : Scheme) : SolverName → Option ℚ
  | .trunk | .pieter =>
    match s with
    | .eulerForward => some 0
    | .eulerBackward => some 1
    | .crankNicolson => some (1 / 2)
  | .steadystate | .steadystatepieter => none

/-- The scheme of the given name, aeolis/model.py:311-318. -/
def pickScheme (s : String) : Except PyErr Scheme :=
  if s = "euler_forward" then .ok .eulerForward
  else if s = "euler_backward" then .ok .eulerBackward
  else if s = "crank_nicolson" then .ok .crankNicolson
  else .error .valueError

/-- The function called for given settings `scheme` and (lowered) `solver`, with its implicitness, aeolis/model.py:311-318,
662-720. -/
def dispatch (scheme solver : String) : Except PyErr (SolverName × Option ℚ) := do
  let c ← pickScheme scheme
  let n ← pickSolver solver
  return (n, implicitness c n)

/-! ### Assembly -/

/-- Inputs of the assembly for one fraction. Models aeolis/model.py:1490-1640. -/
structure FV (K : Type*) where
  nx : ℕ
  ny : ℕ
  steady : Bool
  dt : K
  T : K
  alpha : K
  ds : ℕ → ℕ → K
  dn : ℕ → ℕ → K
  dsdn : ℕ → ℕ → K
  us : ℕ → ℕ → K
  un : ℕ → ℕ → K

/-- The five grids of matrix entries: `A0`, `Apx`, `Ap1`, `Amx`, `Am1`. Models aeolis/model.py:1530-1615. -/
structure Diags (K : Type*) where
  A0 : ℕ → ℕ → K
  Apx : ℕ → ℕ → K
  Ap1 : ℕ → ℕ → K
  Amx : ℕ → ℕ → K
  Am1 : ℕ → ℕ → K

/-- Rows of the matrix replaced by unit rows, aeolis/model.py:1959-1963,1980-1984,2001-2010. -/
def Diags.unit (D : Diags K) (P : ℕ → ℕ → Prop) [∀ i j, Decidable (P i j)] : Diags K :=
  { A0 := fun i j => if P i j then 1 else D.A0 i j
    Apx := fun i j => if P i j then 0 else D.Apx i j
    Ap1 := fun i j => if P i j then 0 else D.Ap1 i j
    Amx := fun i j => if P i j then 0 else D.Amx i j
    Am1 := fun i j => if P i j then 0 else D.Am1 i j }

/-- The value `x` under a condition, else zero (an update of a slice).
Slice updates of aeolis/model.py:1530-1740. -/
def at' (P : Prop) [Decidable P] (x : K) : K := if P then x else 0

namespace FV

variable (a : FV K)

/-- `ufs`, aeolis/model.py:1908,1912-1913 and 1499,1503-1504: velocity at the faces along a row. -/
def ufs (i j : ℕ) : K :=
  if j = 0 then a.us i 0 else if j = a.nx + 1 then a.us i a.nx
  else 1 / 2 * a.us i (j - 1) + 1 / 2 * a.us i j

/-- `ufn`, aeolis/model.py:1909,1915-1920 and 1500,1506-1511: velocity at the faces across the rows. -/
def ufn (lat : String) (i j : ℕ) : K :=
  if i = 0 ∨ i = a.ny + 1 then
    if lat = "circular" then 1 / 2 * a.un 0 j + 1 / 2 * a.un a.ny j
    else if i = 0 then a.un 0 j else a.un a.ny j
  else 1 / 2 * a.un (i - 1) j + 1 / 2 * a.un i j

/-- `ixfs`, aeolis/model.py:1925 and 1516. -/
def ixfs (i j : ℕ) : K := if 0 ≤ a.ufs i j then 1 else 0
/-- `ixfn`, aeolis/model.py:1926 and 1517. -/
def ixfn (lat : String) (i j : ℕ) : K := if 0 ≤ a.ufn lat i j then 1 else 0

/-- `1/dt` in front of the time derivative; the steady version has none (aeolis/model.py:1531). -/
def invDt : K := if a.steady then 0 else 1 / a.dt

/-- Implicitness; the steady version has no weights (aeolis/model.py:1532-1540). -/
def al : K := if a.steady then 1 else a.alpha

/-- The entries before the boundary conditions, aeolis/model.py:1940-1949 and 1531-1540. -/
def core (lat : String) : Diags K :=
  { A0 := fun i j => a.dsdn i j * a.invDt + a.dsdn i j / a.T * a.al
      - at' (1 ≤ j) (a.dn i j * a.ufs i j * (1 - a.ixfs i j) * a.al)
      + at' (j < a.nx) (a.dn i j * a.ufs i (j + 1) * a.ixfs i (j + 1) * a.al)
      - at' (1 ≤ i) (a.ds i j * a.ufn lat i j * (1 - a.ixfn lat i j) * a.al)
      + at' (i < a.ny) (a.ds i j * a.ufn lat (i + 1) j * a.ixfn lat (i + 1) j * a.al)
    Apx := fun i j => at' (i < a.ny) (a.ds i j * a.ufn lat (i + 1) j * (1 - a.ixfn lat (i + 1) j) * a.al)
    Ap1 := fun i j => at' (j < a.nx) (a.dn i j * a.ufs i (j + 1) * (1 - a.ixfs i (j + 1)) * a.al)
    Amx := fun i j => -at' (1 ≤ i) (a.ds i j * a.ufn lat i j * a.ixfn lat i j * a.al)
    Am1 := fun i j => -at' (1 ≤ j) (a.dn i j * a.ufs i j * a.ixfs i j * a.al) }

/-- Offshore condition, aeolis/model.py:1954-1971 and 1545-1562. -/
def offshoreRows (b : String) (D : Diags K) : Except PyErr (Diags K) :=
  if b = "flux" then .ok D
  else if b = "constant" then .ok (D.unit fun _ j => j = 0)
  else if b = "gradient" then .ok { D with
    A0 := fun i j => D.A0 i j - at' (j = 0) (a.dn i 0 * a.ufs i 1 * a.ixfs i 1 * a.al)
    Ap1 := fun i j => D.Ap1 i j - at' (j = 0) (a.dn i 0 * a.ufs i 1 * (1 - a.ixfs i 1) * a.al) }
  else if b = "circular" then .error .notImplemented
  else .error .valueError

/-- Onshore condition, aeolis/model.py:1975-1992 and 1566-1583 (`ufs[:,-2]` is face `nx`). -/
def onshoreRows (b : String) (D : Diags K) : Except PyErr (Diags K) :=
  if b = "flux" then .ok D
  else if b = "constant" then .ok (D.unit fun _ j => j = a.nx)
  else if b = "gradient" then .ok { D with
    A0 := fun i j => D.A0 i j + at' (j = a.nx) (a.dn i a.nx * a.ufs i a.nx * (1 - a.ixfs i a.nx) * a.al)
    Am1 := fun i j => D.Am1 i j + at' (j = a.nx) (a.dn i a.nx * a.ufs i a.nx * a.ixfs i a.nx * a.al) }
  else if b = "circular" then .error .notImplemented
  else .error .valueError

/-- Lateral condition, aeolis/model.py:1996-2023 and 1587-1614 (`ufn[-2,:]` is face `ny`, `ufn[-1,:]` is
face `ny + 1`). -/
def lateralRows (b : String) (D : Diags K) : Except PyErr (Diags K) :=
  if b = "flux" then .ok D
  else if b = "constant" then .ok (D.unit fun i _ => i = 0 ∨ i = a.ny)
  else if b = "gradient" then .ok { D with
    A0 := fun i j => D.A0 i j - at' (i = 0) (a.ds 0 j * a.ufn b 1 j * a.ixfn b 1 j * a.al)
      + at' (i = a.ny) (a.ds a.ny j * a.ufn b a.ny j * (1 - a.ixfn b a.ny j) * a.al)
    Apx := fun i j => D.Apx i j - at' (i = 0) (a.ds 0 j * a.ufn b 1 j * (1 - a.ixfn b 1 j) * a.al)
    Amx := fun i j => D.Amx i j + at' (i = a.ny) (a.ds a.ny j * a.ufn b a.ny j * a.ixfn b a.ny j * a.al) }
  else if b = "circular" then .ok { D with
    A0 := fun i j => D.A0 i j - at' (i = 0) (a.ds 0 j * a.ufn b 0 j * (1 - a.ixfn b 0 j) * a.al)
      + at' (i = a.ny) (a.ds a.ny j * a.ufn b (a.ny + 1) j * a.ixfn b (a.ny + 1) j * a.al)
    Amx := fun i j => D.Amx i j - at' (i = 0) (a.ds 0 j * a.ufn b 0 j * a.ixfn b 0 j * a.al)
    Apx := fun i j => D.Apx i j
      + at' (i = a.ny) (a.ds a.ny j * a.ufn b (a.ny + 1) j * (1 - a.ixfn b (a.ny + 1) j) * a.al) }
  else .error .valueError

/-- The entries with the boundary conditions in the order of the code, aeolis/model.py:1940-2023. -/
def entries (b : Bounds) : Except PyErr (Diags K) :=
  match a.offshoreRows b.off (a.core b.lat) with
  | .error e => .error e
  | .ok D =>
    match a.onshoreRows b.on D with
    | .error e => .error e
    | .ok D => a.lateralRows b.lat D

/-- `g.flatten()`. Used in the code at aeolis/model.py:1619-1632. -/
def flat (g : ℕ → ℕ → K) (m : ℕ) : K := g (m / (a.nx + 1)) (m % (a.nx + 1))

/-- The diagonals and offsets handed to `scipy.sparse.diags`, aeolis/model.py:2026-2040 and 1617-1633. -/
def diagonals (D : Diags K) : List (ℤ × (ℕ → K)) :=
  let j := a.nx + 1
  if 0 < a.ny then
    [(-((j * a.ny : ℕ) : ℤ), fun m => a.flat D.Apx m),
     (-((j : ℕ) : ℤ), fun m => a.flat D.Amx (m + j)),
     (-1, fun m => a.flat D.Am1 (m + 1)),
     (0, fun m => a.flat D.A0 m),
     (1, fun m => a.flat D.Ap1 m),
     (((j : ℕ) : ℤ), fun m => a.flat D.Apx (m + j)),
     (((j * a.ny : ℕ) : ℤ), fun m => a.flat D.Amx m)]
  else
    [(-1, fun m => a.flat D.Am1 (m + 1)),
     (0, fun m => a.flat D.A0 m),
     (1, fun m => a.flat D.Ap1 m)]

/-- Number of cells. Models aeolis/model.py:1619-1632. -/
abbrev cells : ℕ := (a.ny + 1) * (a.nx + 1)

/-- `A`; `scipy.sparse.diags` rejects repeated offsets (`ValueError`).
Models aeolis/model.py:1617-1634,2026-2041. -/
def matrix (b : Bounds) : Except PyErr (Matrix (Fin a.cells) (Fin a.cells) K) :=
  match a.entries b with
  | .error e => .error e
  | .ok D =>
    if ((a.diagonals D).map Prod.fst).Nodup then .ok fun r c => diagsEntry (a.diagonals D) r c
    else .error .valueError

/-! ### Right hand side -/

/-- Grids used in the right hand side for one fraction, at the current and previous time.
Models aeolis/model.py:1650-1740. -/
structure Data (K : Type*) where
  Cu : ℕ → ℕ → K
  Cu0 : ℕ → ℕ → K
  mass : ℕ → ℕ → K
  lw : ℕ → ℕ → K
  lCu : ℕ → ℕ → K
  lCt : ℕ → ℕ → K
  offFlux : K
  onFlux : K
  latFlux : K
  offConst : K
  onConst : K

variable (v : Data K)

/-- Concentration weighted in time, `alpha * Ct + (1 - alpha) * l['Ct']`.
Used in the code at aeolis/model.py:2060-2155. -/
def cbar (C : ℕ → ℕ → K) (i j : ℕ) : K := a.al * C i j + (1 - a.al) * v.lCt i j

/-- `Ctxfs_i`, aeolis/model.py:2060-2063 and 1654-1655 (inner faces). -/
def faceS (C : ℕ → ℕ → K) (i j : ℕ) : K :=
  a.ixfs i j * a.cbar v C i (j - 1) + (1 - a.ixfs i j) * a.cbar v C i j

/-- `Ctxfn_i`, aeolis/model.py:2064-2074 and 1656-1661.  The steady version never sets the last face. -/
def faceN (lat : String) (C : ℕ → ℕ → K) (i j : ℕ) : K :=
  if i = 0 ∨ i = a.ny + 1 then
    if lat = "circular" ∧ (i = 0 ∨ a.steady = false) then
      a.ixfn lat 0 j * a.cbar v C a.ny j + (1 - a.ixfn lat 0 j) * a.cbar v C 0 j
    else 0
  else a.ixfn lat i j * a.cbar v C (i - 1) j + (1 - a.ixfn lat i j) * a.cbar v C i j

/-- `D_i`, aeolis/model.py:2077-2078 and 1664. -/
def depos (C : ℕ → ℕ → K) (i j : ℕ) : K := a.dsdn i j / a.T * a.cbar v C i j
/-- `U_i`, aeolis/model.py:2080-2081 and 1666. -/
def demand (w : ℕ → ℕ → K) (i j : ℕ) : K :=
  a.dsdn i j / a.T * (w i j * a.al * v.Cu i j + (1 - a.al) * v.lw i j * v.lCu i j)
/-- `E_i`, aeolis/model.py:2079,2083 and 1665,1669: not more than is available. -/
def entrain (C w : ℕ → ℕ → K) (i j : ℕ) : K :=
  min (a.demand v w i j) (a.dsdn i j / a.T * v.mass i j + a.depos v C i j)

/-- The right hand side before the boundary conditions, aeolis/model.py:2088-2095 and 1674-1680. -/
def rhsCore (lat : String) (C w : ℕ → ℕ → K) (i j : ℕ) : K :=
  -(a.dsdn i j * a.invDt * (C i j - v.lCt i j)) + (a.entrain v C w i j - a.depos v C i j)
    + at' (1 ≤ j) (a.dn i j * a.ufs i j * a.faceS v C i j)
    - at' (j < a.nx) (a.dn i j * a.ufs i (j + 1) * a.faceS v C i (j + 1))
    + at' (1 ≤ i) (a.ds i j * a.ufn lat i j * a.faceN v lat C i j)
    - at' (i < a.ny) (a.ds i j * a.ufn lat (i + 1) j * a.faceN v lat C (i + 1) j)

/-- Offshore part of the right hand side, aeolis/model.py:2100-2114 and 1685-1698. -/
def offshoreRhs (b : String) (C : ℕ → ℕ → K) (y : ℕ → ℕ → K) (i j : ℕ) : K :=
  if b = "flux" then y i j + at' (j = 0) (a.dn i 0 * a.ufs i 0 * v.Cu0 i 0 * v.offFlux)
  else if b = "constant" then (if j = 0 then (if a.steady then v.offConst else 0) else y i j)
  else y i j + at' (j = 0) (a.dn i 1 * a.ufs i 1 * a.faceS v C i 1)

/-- Onshore part, aeolis/model.py:2118-2132 and 1702-1716 (`dn[:,-2]` is column `nx - 1`). -/
def onshoreRhs (b : String) (C : ℕ → ℕ → K) (y : ℕ → ℕ → K) (i j : ℕ) : K :=
  if b = "flux" then y i j + at' (j = a.nx) (a.dn i a.nx * a.ufs i (a.nx + 1) * v.Cu0 i a.nx * v.onFlux)
  else if b = "constant" then (if j = a.nx then (if a.steady then v.onConst else 0) else y i j)
  else y i j - at' (j = a.nx) (a.dn i (a.nx - 1) * a.ufs i a.nx * a.faceS v C i a.nx)

/-- Lateral part, aeolis/model.py:2136-2153 and 1720-1736 (`ds[-2,:]` is row `ny - 1`; with one row the
gradient condition fails with an `IndexError`, see `rhsCall`). -/
def lateralRhs (b : String) (C : ℕ → ℕ → K) (y : ℕ → ℕ → K) (i j : ℕ) : K :=
  if b = "flux" then y i j + at' (i = 0) (a.ds 0 j * a.ufn b 0 j * v.Cu0 0 j * v.latFlux)
    - at' (i = a.ny) (a.ds a.ny j * a.ufn b (a.ny + 1) j * v.Cu0 a.ny j * v.latFlux)
  else if b = "constant" then (if i = 0 ∨ i = a.ny then 0 else y i j)
  else if b = "gradient" then
    y i j - at' (i = a.ny) (a.ds (a.ny - 1) j * a.ufn b a.ny j * a.faceN v b C a.ny j)
      + at' (i = 0) (a.ds 1 j * a.ufn b 1 j * a.faceN v b C 1 j)
  else y i j + at' (i = 0) (a.ds 0 j * a.ufn b 0 j * a.faceN v b C 0 j)
    - at' (i = a.ny) (a.ds a.ny j * a.ufn b (a.ny + 1) j * a.faceN v b C (a.ny + 1) j)

/-- `yCt_i`, aeolis/model.py:2088-2153 and 1674-1736.  Boundary conditions other than those handled
here have been rejected by `entries`. -/
def rhs (b : Bounds) (C w : ℕ → ℕ → K) : ℕ → ℕ → K :=
  a.lateralRhs v b.lat C (a.onshoreRhs v b.on C (a.offshoreRhs v b.off C (a.rhsCore v b.lat C w)))

/-- The row or column with index `k` (from the end if negative) of an array with `n` of them.
Used in the code at aeolis/model.py:1693-1734. -/
def slice (n : ℕ) (k : ℤ) : Except PyErr PUnit := if -n ≤ k ∧ k < n then .ok ⟨⟩ else .error .indexError

/-- The right hand side with the exceptions of the slices read for gradient conditions (`dn[:,1]`, `dn[:,-2]`,
`ds[-2,:]`, `ds[1,:]`), aeolis/model.py:2108-2112,2126-2130,2145-2148 and 1691-1694,1710-1713,1728-1731. -/
def rhsCall (b : Bounds) (C w : ℕ → ℕ → K) : Except PyErr (ℕ → ℕ → K) := do
  if b.off = "gradient" then slice (a.nx + 1) 1
  if b.on = "gradient" then slice (a.nx + 1) (-2)
  if b.lat = "gradient" then
    slice (a.ny + 1) (-2)
    slice (a.ny + 1) 1
  return a.rhs v b C w

end FV

/-! ### Iteration -/

section Iteration

variable {ι : Type*} [Fintype ι]

/-- The new concentrations of one iteration from the increments `dC`, aeolis/model.py:2160-2176 and
1743-1759.  When a negative total has to be taken from cells that sum to zero the code divides by zero
(NaN) where `removeNegatives` gives zero. -/
def fvConcentrations (f : FracIn K ι) (C dC : ι → K) : ι → K :=
  removeNegatives fun c => preventTinyNegatives f.maxError 0 (C c + dC c)

/-- The iteration for one fraction, aeolis/model.py:2052-2206 and 1646-1789, with `n` rounds left;
`lin C w` is the solution of the linear system for the concentrations `C` and weights `w`.  Unlike
in `fractionLoop` the concentrations are carried over and the pickup is stored before it is limited. -/
def fvLoop (f : FracIn K ι) (lin : (ι → K) → (ι → K) → ι → K) :
    ℕ → (ι → K) → (ι → K) → Except PyErr (FracOut K ι)
  | 0, _, _ => .error .nameError
  | n + 1, C, w =>
    let Ct := fvConcentrations f C (lin C w)
    if ∃ c, inDeficit f Ct w c then
      let w' := correctWeights f Ct w
      if n = 0 then .ok ⟨Ct, pickupOf f Ct w, w', false⟩
      else fvLoop f lin n Ct w'
    else .ok ⟨Ct, pickupOf f Ct w, w, true⟩

/-- Inputs of the loop over the fractions. Models aeolis/model.py:1457-1834,1837-2257. -/
structure FVIn (K ι : Type*) (nf : ℕ) where
  T : K
  dt : K
  maxError : K
  maxIter : ℕ
  Cu : ι → Fin nf → K
  mass : ι → Fin nf → K
  lin : Fin nf → (ι → K) → (ι → K) → ι → K

/-- The data of fraction `i`. Models aeolis/model.py:1762-1764,2179-2181. -/
def FVIn.frac {nf : ℕ} (s : FVIn K ι nf) (i : Fin nf) : FracIn K ι :=
  ⟨s.T, s.dt, s.maxError, fun c => s.Cu c i, fun c => s.mass c i⟩

/-- One round of the loop over the fractions, aeolis/model.py:2048-2230. -/
def fvStep {nf : ℕ} (s : FVIn K ι nf) (o : SolveOut K ι nf) (i : Fin nf) :
    Except PyErr (SolveOut K ι nf) := do
  let w : ι → Fin nf → K := fun c => renormalizeWeights i (o.w c)
  let r ← fvLoop (s.frac i) (s.lin i) s.maxIter (fun c => o.Ct c i) fun c => w c i
  return { Ct := fun c => Function.update (o.Ct c) i (r.Ct c)
           pickup := fun c => Function.update (o.pickup c) i (r.pickup c)
           w := fun c => Function.update (w c) i (r.w c)
           conv := Function.update o.conv i r.conv }

/-- `solve_pieter` and `solve_steadystatepieter`, aeolis/model.py:1881-2257 and 1471-1834: in the first
step (`t == 0`) only the weights are set, to the grain size distribution; afterwards the fractions are
solved in turn from the weights `w0 = w_init`. -/
def fvSolve {nf : ℕ} (s : FVIn K ι nf) (first : Bool) (dist : Fin nf → K)
    (Ct0 pickup0 w0 : ι → Fin nf → K) : Except PyErr (SolveOut K ι nf) :=
  if first then .ok ⟨Ct0, pickup0, fun _ => dist, fun _ => true⟩
  else (List.finRange nf).foldlM (fvStep s) ⟨Ct0, pickup0, w0, fun _ => false⟩

end Iteration

end Aeolis.Solver
