import Verif.Model.Solver

/-!
Model of `AeoLiS.solve_steadystate`, aeolis/model.py:723-1063: settings, matrix and right hand side for one
fraction, and the weights of the first time step.

The loops over iterations and fractions (932-1038) are those of `solve` and modelled by `fractionLoop` and
`solve` in `Verif/Model/Solver.lean`; they differ when negative concentrations are removed while the other
concentrations are all zero (`nan` here, zero there), which `C107_nonneg` excludes.
-/

namespace Aeolis.Solver

variable {K : Type*} [Field K] [LinearOrder K]

/-- Offshore condition, aeolis/model.py:854-869. -/
def steadyOffshore (b : String) (q : ℕ → K) : Except PyErr ((ℕ → K) × (ℕ → K)) :=
  if b = "flux" then .ok (fun _ => 0, fun _ => 0)
  else if b = "constant" then .ok (fun _ => 0, fun _ => 0)
  else if b = "uniform" then .ok (fun _ => -1, fun _ => 0)
  else if b = "gradient" then .ok (fun i => -1 - q i, q)
  else if b = "circular" then .error .notImplemented
  else .error .valueError

/-- Onshore condition, aeolis/model.py:871-886 (with the test of `boundary_offshore` in the code). -/
def steadyOnshore (off b : String) (q : ℕ → K) : Except PyErr ((ℕ → K) × (ℕ → K)) :=
  if b = "flux" then .ok (fun _ => 0, fun _ => 0)
  else if b = "constant" then .ok (fun _ => 0, fun _ => 0)
  else if b = "uniform" then .ok (fun _ => -1, fun _ => 0)
  else if b = "gradient" then .ok (fun i => -1 - q i, q)
  else if off = "circular" then .error .notImplemented
  else .error .valueError

/-- The three selections in the order of the code, aeolis/model.py:854-909; the lateral one is that of
`solve`. -/
def steadyBoundaries (b : Bounds) (qoff qon : ℕ → K) : Except PyErr (BcRows K) :=
  match steadyOffshore b.off qoff with
  | .error e => .error e
  | .ok o =>
    match steadyOnshore b.off b.on qon with
    | .error e => .error e
    | .ok n =>
      match lateral b.lat with
      | .error e => .error e
      | .ok l => .ok ⟨o.1, o.2, n.1, n.2, l⟩

/-- Inputs of the assembly for one fraction, aeolis/model.py:776-805. -/
structure Steady (K : Type*) where
  nx : ℕ
  ny : ℕ
  T : K
  ds : ℕ → ℕ → K
  dn : ℕ → ℕ → K
  dsdni : ℕ → ℕ → K
  us : ℕ → ℕ → K
  un : ℕ → ℕ → K

namespace Steady

variable (a : Steady K)

/-- `us_plus`, aeolis/model.py:780,790. -/
def usPlus (i j : ℕ) : K := if j = 0 then a.us i 0 else a.us i (j - 1)
/-- `un_plus`, aeolis/model.py:781,791. -/
def unPlus (i j : ℕ) : K := if i = 0 then a.un 0 j else a.un (i - 1) j
/-- `us_min`, aeolis/model.py:783,793. -/
def usMin (i j : ℕ) : K := if j = a.nx then a.us i a.nx else a.us i (j + 1)
/-- `un_min`, aeolis/model.py:784,794. -/
def unMin (i j : ℕ) : K := if i = a.ny then a.un a.ny j else a.un (i + 1) j

/-- `Ti`, aeolis/model.py:808. -/
def Ti : K := 1 / a.T

/-- `ixs`, aeolis/model.py:813 (`beta` is one, 727). -/
def ixs (i j : ℕ) : K := if 0 ≤ a.us i j then 1 else 0
/-- `ixn`, aeolis/model.py:814. -/
def ixn (i j : ℕ) : K := if 0 ≤ a.un i j then 1 else 0
/-- `sgs`, aeolis/model.py:815. -/
def sgs (i j : ℕ) : K := 2 * a.ixs i j - 1
/-- `sgn`, aeolis/model.py:816. -/
def sgn (i j : ℕ) : K := 2 * a.ixn i j - 1

/-- Row of the grid changed into unit rows by the lateral condition, aeolis/model.py:888-899. -/
def latRow (bc : BcRows K) (i : ℕ) : Prop := bc.latUnit = true ∧ (i = 0 ∨ i = a.ny)

instance (bc : BcRows K) (i : ℕ) : Decidable (a.latRow bc i) := by unfold latRow; infer_instance

/-- `A0`, aeolis/model.py:835,842,848,889,895. -/
def A0 (bc : BcRows K) (i j : ℕ) : K :=
  if a.latRow bc i then 1 else if j = 0 ∨ j = a.nx then 1
  else a.sgs i j * (a.dn i j * a.dsdni i j * a.us i j) + a.sgn i j * (a.ds i j * a.dsdni i j * a.un i j)
    + a.Ti
/-- `Apx`, aeolis/model.py:836,843,849,890,896. -/
def Apx (bc : BcRows K) (i j : ℕ) : K :=
  if a.latRow bc i then 0 else if j = 0 ∨ j = a.nx then 0
  else a.ds i j * a.dsdni i j * a.unMin i j * (1 - a.ixn i j)
/-- `Ap1`, aeolis/model.py:837,850,854-865,891,897. -/
def Ap1 (bc : BcRows K) (i j : ℕ) : K :=
  if a.latRow bc i then 0 else if j = 0 then bc.offP1 i else if j = a.nx then 0
  else a.dn i j * a.dsdni i j * a.usMin i j * (1 - a.ixs i j)
/-- `Amx`, aeolis/model.py:838,844,852,892,898. -/
def Amx (bc : BcRows K) (i j : ℕ) : K :=
  if a.latRow bc i then 0 else if j = 0 ∨ j = a.nx then 0
  else -(a.ds i j * a.dsdni i j * a.unPlus i j) * a.ixn i j
/-- `Am1`, aeolis/model.py:839,846,871-882,893,899. -/
def Am1 (bc : BcRows K) (i j : ℕ) : K :=
  if a.latRow bc i then 0 else if j = a.nx then bc.onM1 i else if j = 0 then 0
  else -(a.dn i j * a.dsdni i j * a.usPlus i j) * a.ixs i j
/-- `Ap2`, aeolis/model.py:829,851,854-864 (not touched by the lateral condition). -/
def Ap2 (_ : Steady K) (bc : BcRows K) (i j : ℕ) : K := if j = 0 then bc.offP2 i else 0
/-- `Am2`, aeolis/model.py:832,845,871-881. -/
def Am2 (bc : BcRows K) (i j : ℕ) : K := if j = a.nx then bc.onM2 i else 0

/-- The seven grids of coefficients, aeolis/model.py:835-909. -/
def bands (bc : BcRows K) : Bands K :=
  ⟨a.nx, a.ny, a.A0 bc, a.Apx bc, a.Ap1 bc, a.Amx bc, a.Am1 bc, a.Ap2 bc, a.Am2 bc⟩

/-- The matrix, aeolis/model.py:911-929. -/
def matrix (bc : BcRows K) :
    Except PyErr (Matrix (Fin ((a.ny + 1) * (a.nx + 1))) (Fin ((a.ny + 1) * (a.nx + 1))) K) :=
  (a.bands bc).matrix

/-- Right hand side, aeolis/model.py:951-968.  Of the values in `Rhs` those at the previous time are not
used. -/
def rhs (b : Bounds) (v : Rhs K) (i j : ℕ) : K :=
  let y := if 1 ≤ j ∧ j < a.nx then
      (v.w i j * v.Cuf i j * a.Ti) * (1 - v.S i j) + (v.w i j * v.Cu i j * a.Ti) * v.S i j else 0
  let y := if b.off = "flux" ∧ j = 0 then v.offFlux i else y
  let y := if b.on = "flux" ∧ j = a.nx then v.onFlux i else y
  let y := if b.off = "constant" ∧ j = 0 then v.offConst i else y
  if b.on = "constant" ∧ j = a.nx then v.onConst i else y

end Steady

/-- Initial weights, aeolis/model.py:739-748.  `grain` is the grain size distribution (`none`: `None`);
comparing an array with `None` compares its elements, and the truth value of more than one (or of none)
raises `ValueError`.  One number is taken for all fractions (the code has one fraction then). -/
def steadyWeights {nf : ℕ} {ι : Type*} (first : Bool) (grain : Option (List K)) (winit : ι → Fin nf → K) :
    Except PyErr (ι → Fin nf → K) :=
  if first then
    match grain with
    | none => .ok winit
    | some [g] => .ok fun _ _ => g
    | some _ => .error .valueError
  else .ok winit

end Aeolis.Solver
