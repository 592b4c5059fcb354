import Verif.Model.State
import Verif.Model.Weights
import Mathlib.Data.Matrix.Mul

/-!
Model of `AeoLiS.solve`, aeolis/model.py:1066-1454 (schemes `euler_forward`, `euler_backward`,
`crank_nicolson` of the default solver).

* The assembly of the linear system (boundary conditions, diagonals, `scipy.sparse.diags`, right hand
  side) is modelled on a grid of `ny + 1` rows and `nx + 1` columns for one fraction.
* `scipy.sparse.linalg.spsolve` is not modelled: the iteration takes an arbitrary function from the
  weights to a vector, and theorems about the system quantify over all its solutions.
* Logging and counters are left out.
-/

namespace Aeolis.Solver

open Finset

section
variable {K : Type*} [Field K] [LinearOrder K]

/-! ### Boundary conditions -/

/-- Offshore condition, aeolis/model.py:1225-1240: entries of the first column on the diagonals `+1`
and `+2` (`q` is `ds[:,1]/ds[:,2]`). -/
def offshore (b : String) (q : ℕ → K) : Except PyErr ((ℕ → K) × (ℕ → K)) :=
  if b = "flux" ∨ b = "noflux" then .ok (fun _ => 0, fun _ => 0)
  else if b = "constant" then .ok (fun _ => 0, fun _ => 0)
  else if b = "uniform" then .ok (fun _ => -1, fun _ => 0)
  else if b = "gradient" then .ok (fun i => -1 - q i, q)
  else if b = "circular" then .error .notImplemented
  else .error .valueError

/-- Onshore condition, aeolis/model.py:1242-1257: entries of the last column on the diagonals `-1` and
`-2` (`q` is `ds[:,-2]/ds[:,-3]`).  The tests of `boundary_offshore` are in the code. -/
def onshore (off b : String) (q : ℕ → K) : Except PyErr ((ℕ → K) × (ℕ → K)) :=
  if b = "flux" ∨ off = "noflux" then .ok (fun _ => 0, fun _ => 0)
  else if b = "constant" then .ok (fun _ => 0, fun _ => 0)
  else if b = "uniform" then .ok (fun _ => -1, fun _ => 0)
  else if b = "gradient" then .ok (fun i => -1 - q i, q)
  else if off = "circular" then .error .notImplemented
  else .error .valueError

/-- Lateral condition, aeolis/model.py:1259-1280; the result tells whether the first and last row are
replaced by unit rows. -/
def lateral (b : String) : Except PyErr Bool :=
  if b = "constant" then .ok true
  else if b = "uniform" then .error .notImplemented
  else if b = "gradient" then .error .notImplemented
  else if b = "circular" then .ok false
  else .error .valueError

/-- The three settings. Models aeolis/model.py:1225-1280. -/
structure Bounds where
  off : String
  on : String
  lat : String

/-- The entries put into the matrix by the boundary conditions. Models aeolis/model.py:1216-1280. -/
structure BcRows (K : Type*) where
  offP1 : ℕ → K
  offP2 : ℕ → K
  onM1 : ℕ → K
  onM2 : ℕ → K
  latUnit : Bool

/-- The three selections in the order of the code, aeolis/model.py:1225-1280. -/
def boundaries (b : Bounds) (qoff qon : ℕ → K) : Except PyErr (BcRows K) :=
  match offshore b.off qoff with
  | .error e => .error e
  | .ok o =>
    match onshore b.off b.on qon with
    | .error e => .error e
    | .ok n =>
      match lateral b.lat with
      | .error e => .error e
      | .ok l => .ok ⟨o.1, o.2, n.1, n.2, l⟩

/-! ### Sparse matrix -/

/-- Grids of coefficients from which `solve` and `solve_steadystate` assemble their matrix,
aeolis/model.py:856-870, 1197-1210. -/
structure Bands (K : Type*) where
  nx : ℕ
  ny : ℕ
  A0 : ℕ → ℕ → K
  Apx : ℕ → ℕ → K
  Ap1 : ℕ → ℕ → K
  Amx : ℕ → ℕ → K
  Am1 : ℕ → ℕ → K
  Ap2 : ℕ → ℕ → K
  Am2 : ℕ → ℕ → K

/-- `g.flatten()`. Used in the code at aeolis/model.py:913-930, 1285-1300. -/
def Bands.flat (B : Bands K) (g : ℕ → ℕ → K) (m : ℕ) : K := g (m / (B.nx + 1)) (m % (B.nx + 1))

/-- The diagonals and offsets handed to `scipy.sparse.diags`, aeolis/model.py:910-930, 1283-1301.
Slices `[k:]` are shifts of the index, slices `[:k]` leave it unchanged. -/
def Bands.diagonals (B : Bands K) : List (ℤ × (ℕ → K)) :=
  let j := B.nx + 1
  let core : List (ℤ × (ℕ → K)) :=
    [(-2, fun m => B.flat B.Am2 (m + 2)),
     (-1, fun m => B.flat B.Am1 (m + 1)),
     (0, fun m => B.flat B.A0 m),
     (1, fun m => B.flat B.Ap1 m),
     (2, fun m => B.flat B.Ap2 m)]
  if 0 < B.ny then
    [(-((j * B.ny : ℕ) : ℤ), fun m => B.flat B.Apx m),
     (-((j : ℕ) : ℤ), fun m => B.flat B.Amx (m + j))] ++ core ++
    [(((j : ℕ) : ℤ), fun m => B.flat B.Apx (m + j)),
     (((j * B.ny : ℕ) : ℤ), fun m => B.flat B.Amx m)]
  else core

/-- Entry of `scipy.sparse.diags(data, offsets)`: on the diagonal with offset `k` the entry in row `r`
and column `r + k` is number `min(r, r + k)` of the data. Used in the code at aeolis/model.py:913-930,
1285-1301. -/
def diagsEntry (D : List (ℤ × (ℕ → K))) (r c : ℕ) : K :=
  (D.map fun d => if (c : ℤ) - r = d.1 then d.2 (min r c) else 0).sum

/-- `scipy.sparse.diags` rejects repeated offsets (`ValueError`); the matrix has one row per cell.
Models aeolis/model.py:910-930, 1283-1301. -/
def Bands.matrix (B : Bands K) :
    Except PyErr (Matrix (Fin ((B.ny + 1) * (B.nx + 1))) (Fin ((B.ny + 1) * (B.nx + 1))) K) :=
  if (B.diagonals.map Prod.fst).Nodup then .ok fun r c => diagsEntry B.diagonals r c
  else .error .valueError

/-! ### Matrix -/

/-- Inputs of the assembly for one fraction: `us`, `un` are the grain velocities of the fraction.
Models aeolis/model.py:1100-1195. -/
structure Adv (K : Type*) where
  nx : ℕ
  ny : ℕ
  dt : K
  T : K
  alpha : K
  beta : K
  ds : ℕ → ℕ → K
  dn : ℕ → ℕ → K
  dsdni : ℕ → ℕ → K
  us : ℕ → ℕ → K
  un : ℕ → ℕ → K

namespace Adv

variable (a : Adv K)

/-- `us_plus`, aeolis/model.py:1154,1161. -/
def usPlus (i j : ℕ) : K := if j = 0 then a.us i 0 else a.us i (j - 1)
/-- `un_plus`, aeolis/model.py:1155,1162. -/
def unPlus (i j : ℕ) : K := if i = 0 then a.un 0 j else a.un (i - 1) j
/-- `us_min`, aeolis/model.py:1157,1164. -/
def usMin (i j : ℕ) : K := if j = a.nx then a.us i a.nx else a.us i (j + 1)
/-- `un_min`, aeolis/model.py:1158,1165. -/
def unMin (i j : ℕ) : K := if i = a.ny then a.un a.ny j else a.un (i + 1) j

/-- `Cs, Cs_plus, Cs_min` are this factor times a velocity, aeolis/model.py:1169,1172,1175. -/
def facS (i j : ℕ) : K := a.dt * a.dn i j * a.dsdni i j
/-- `Cn, Cn_plus, Cn_min` are this factor times a velocity, aeolis/model.py:1170,1173,1176. -/
def facN (i j : ℕ) : K := a.dt * a.ds i j * a.dsdni i j

/-- `Ti`, aeolis/model.py:1178. -/
def Ti : K := a.dt / a.T

/-- `ixs`, aeolis/model.py:1181-1192. -/
def ixs (i j : ℕ) : K := if 1 ≤ |a.beta| then (if 0 ≤ a.us i j then 1 else 0) else |a.beta|
/-- `ixn`, aeolis/model.py:1181-1192. -/
def ixn (i j : ℕ) : K := if 1 ≤ |a.beta| then (if 0 ≤ a.un i j then 1 else 0) else |a.beta|
/-- `sgs`, aeolis/model.py:1186,1193. -/
def sgs (i j : ℕ) : K := if 1 ≤ |a.beta| then 2 * a.ixs i j - 1 else 0
/-- `sgn`, aeolis/model.py:1187,1194. -/
def sgn (i j : ℕ) : K := if 1 ≤ |a.beta| then 2 * a.ixn i j - 1 else 0

/-- Row of the grid changed into unit rows by the lateral condition. Models aeolis/model.py:1259-1268. -/
def latRow (bc : BcRows K) (i : ℕ) : Prop := bc.latUnit = true ∧ (i = 0 ∨ i = a.ny)

instance (bc : BcRows K) (i : ℕ) : Decidable (a.latRow bc i) := by unfold latRow; infer_instance

/-- `A0`, aeolis/model.py:1206,1213,1219,1260,1266. -/
def A0 (bc : BcRows K) (i j : ℕ) : K :=
  if a.latRow bc i then 1 else if j = 0 ∨ j = a.nx then 1
  else 1 + (a.sgs i j * (a.facS i j * a.us i j) + a.sgn i j * (a.facN i j * a.un i j) + a.Ti) * a.alpha
/-- `Apx`, aeolis/model.py:1207,1214,1220,1261,1267. -/
def Apx (bc : BcRows K) (i j : ℕ) : K :=
  if a.latRow bc i then 0 else if j = 0 ∨ j = a.nx then 0
  else a.facN i j * a.unMin i j * a.alpha * (1 - a.ixn i j)
/-- `Ap1`, aeolis/model.py:1208,1221,1225-1237,1262,1268. -/
def Ap1 (bc : BcRows K) (i j : ℕ) : K :=
  if a.latRow bc i then 0 else if j = 0 then bc.offP1 i else if j = a.nx then 0
  else a.facS i j * a.usMin i j * a.alpha * (1 - a.ixs i j)
/-- `Amx`, aeolis/model.py:1209,1215,1223,1263,1269. -/
def Amx (bc : BcRows K) (i j : ℕ) : K :=
  if a.latRow bc i then 0 else if j = 0 ∨ j = a.nx then 0
  else -(a.facN i j * a.unPlus i j) * a.alpha * a.ixn i j
/-- `Am1`, aeolis/model.py:1210,1217,1242-1254,1264,1270. -/
def Am1 (bc : BcRows K) (i j : ℕ) : K :=
  if a.latRow bc i then 0 else if j = a.nx then bc.onM1 i else if j = 0 then 0
  else -(a.facS i j * a.usPlus i j) * a.alpha * a.ixs i j
/-- `Ap2`, aeolis/model.py:1200,1222,1225-1236 (not touched by the lateral condition). -/
def Ap2 (_ : Adv K) (bc : BcRows K) (i j : ℕ) : K := if j = 0 then bc.offP2 i else 0
/-- `Am2`, aeolis/model.py:1203,1216,1242-1253. -/
def Am2 (bc : BcRows K) (i j : ℕ) : K := if j = a.nx then bc.onM2 i else 0

/-- The seven grids of coefficients, aeolis/model.py:1206-1280. -/
def bands (bc : BcRows K) : Bands K :=
  ⟨a.nx, a.ny, a.A0 bc, a.Apx bc, a.Ap1 bc, a.Amx bc, a.Am1 bc, a.Ap2 bc, a.Am2 bc⟩

/-- The diagonals handed to `scipy.sparse.diags`, aeolis/model.py:1283-1301. -/
def diagonals (bc : BcRows K) : List (ℤ × (ℕ → K)) := (a.bands bc).diagonals

end Adv

/-- The matrix of `solve`, aeolis/model.py:1283-1301. -/
def Adv.matrix (a : Adv K) (bc : BcRows K) :
    Except PyErr (Matrix (Fin ((a.ny + 1) * (a.nx + 1))) (Fin ((a.ny + 1) * (a.nx + 1))) K) :=
  (a.bands bc).matrix

/-! ### Right hand side -/

/-- Values at the previous and current time used in the right hand side, for one fraction.
Models aeolis/model.py:1318-1358. -/
structure Rhs (K : Type*) where
  /-- current weights, `Cu`, `Cuf` and saturation -/
  w : ℕ → ℕ → K
  Cu : ℕ → ℕ → K
  Cuf : ℕ → ℕ → K
  S : ℕ → ℕ → K
  /-- previous weights, `Cu`, `Cuf` and `Ct` -/
  lw : ℕ → ℕ → K
  lCu : ℕ → ℕ → K
  lCuf : ℕ → ℕ → K
  lCt : ℕ → ℕ → K
  /-- boundary values, already evaluated: `offshore_flux * Cu0[:,0]` etc. -/
  offFlux : ℕ → K
  onFlux : ℕ → K
  offConst : ℕ → K
  onConst : ℕ → K

/-- Settings and fields from which the values at the ends are computed; `Cu0` and `u` (the grain speed) are
those of the fraction. Models aeolis/model.py:1350-1358. -/
structure EndIn (K : Type*) where
  offshoreFlux : K
  onshoreFlux : K
  constOff : K
  constOn : K
  Cu0 : ℕ → ℕ → K
  u : ℕ → ℕ → K

/-- The values put into the first and last column of the right-hand side, aeolis/model.py:1350-1358.
Division by a speed of zero gives infinity in the code; theorems assume it is not zero. -/
def Adv.ends (a : Adv K) (e : EndIn K) (v : Rhs K) : Rhs K :=
  { v with
    offFlux := fun i => e.offshoreFlux * e.Cu0 i 0
    onFlux := fun i => e.onshoreFlux * e.Cu0 i a.nx
    offConst := fun i => e.constOff / e.u i 0
    onConst := fun i => e.constOn / e.u i a.nx }

/-- `ds[:,1]/ds[:,2]`, aeolis/model.py:1235-1236. -/
def Adv.offRatio (a : Adv K) (i : ℕ) : K := a.ds i 1 / a.ds i 2
/-- `ds[:,-2]/ds[:,-3]`, aeolis/model.py:1252-1253. -/
def Adv.onRatio (a : Adv K) (i : ℕ) : K := a.ds i (a.nx - 1) / a.ds i (a.nx - 2)

/-- Row before and after, cyclically (`np.roll`). Models aeolis/model.py:1343. -/
def prevRow (ny i : ℕ) : ℕ := if i = 0 then ny else i - 1
/-- See `prevRow`. Models aeolis/model.py:1344. -/
def nextRow (ny i : ℕ) : ℕ := if i = ny then 0 else i + 1

/-- `y_im`, aeolis/model.py:1329-1332. -/
def Adv.yIm (a : Adv K) (v : Rhs K) (i j : ℕ) : K :=
  (v.w i j * v.Cuf i j * a.Ti) * (1 - v.S i j) + (v.w i j * v.Cu i j * a.Ti) * v.S i j

/-- `y_ex`, aeolis/model.py:1334-1345. -/
def Adv.yEx (a : Adv K) (v : Rhs K) (i j : ℕ) : K :=
  (v.lw i j * v.lCuf i j * a.Ti) * (1 - v.S i j) + (v.lw i j * v.lCu i j * a.Ti) * v.S i j
    - (a.sgs i j * (a.facS i j * a.us i j) + a.sgn i j * (a.facN i j * a.un i j) + a.Ti) * v.lCt i j
    + a.ixs i j * (a.facS i j * a.usPlus i j) * v.lCt i (j - 1)
    - (1 - a.ixs i j) * (a.facS i j * a.usMin i j) * v.lCt i (j + 1)
    + a.ixn i j * (a.facN i j * a.unPlus i j) * v.lCt (prevRow a.ny i) j
    - (1 - a.ixn i j) * (a.facN i j * a.unMin i j) * v.lCt (nextRow a.ny i) j

/-- `y_i`, aeolis/model.py:1325,1347-1358. -/
def Adv.rhs (a : Adv K) (b : Bounds) (v : Rhs K) (i j : ℕ) : K :=
  let y := if 1 ≤ j ∧ j < a.nx then
      v.lCt i j + a.alpha * a.yIm v i j + (1 - a.alpha) * a.yEx v i j else 0
  let y := if b.off = "flux" ∧ j = 0 then v.offFlux i else y
  let y := if b.on = "flux" ∧ j = a.nx then v.onFlux i else y
  let y := if b.off = "constant" ∧ j = 0 then v.offConst i else y
  if b.on = "constant" ∧ j = a.nx then v.onConst i else y

/-! ### Iteration for one fraction -/

section Iteration

variable {ι : Type*} [Fintype ι]

/-- Removal of negative concentrations, aeolis/model.py:1365-1382. -/
def removeNegatives (Ct : ι → K) : ι → K :=
  if ∃ c, Ct c < 0 then
    let neg := ∑ c, if Ct c < 0 then Ct c else 0
    let pos := ∑ c, if Ct c < 0 then 0 else Ct c
    fun c => if Ct c < 0 then 0 else if pos ≠ 0 then Ct c * (1 + neg / pos) else 0
  else Ct

/-- Parameters and grids used by the iteration for one fraction. Models aeolis/model.py:1312-1420. -/
structure FracIn (K ι : Type*) where
  T : K
  dt : K
  maxError : K
  Cu : ι → K
  mass : ι → K

/-- Result for one fraction; `conv` is false if the iteration limit was reached.
Models aeolis/model.py:1312-1420. -/
structure FracOut (K ι : Type*) where
  Ct : ι → K
  pickup : ι → K
  w : ι → K
  conv : Bool

/-- The concentrations of one iteration: solution of the linear system `lin w`, tiny negatives and
negatives removed, aeolis/model.py:1361-1382. -/
def concentrations (f : FracIn K ι) (lin : (ι → K) → ι → K) (w : ι → K) : ι → K :=
  removeNegatives fun c => preventTinyNegatives f.maxError 0 (lin w c)

/-- `pickup_i`, aeolis/model.py:1388. -/
def pickupOf (f : FracIn K ι) (Ct w : ι → K) (c : ι) : K := (w c * f.Cu c - Ct c) / f.T * f.dt

/-- `ix`, aeolis/model.py:1389-1391. -/
def inDeficit (f : FracIn K ι) (Ct w : ι → K) (c : ι) : Prop :=
  f.maxError < pickupOf f Ct w c - f.mass c ∧ 0 < w c * f.Cu c

instance (f : FracIn K ι) (Ct w : ι → K) (c : ι) : Decidable (inDeficit f Ct w c) := by
  unfold inDeficit; infer_instance

/-- Corrected weights, aeolis/model.py:1405-1407. -/
def correctWeights (f : FracIn K ι) (Ct w : ι → K) (c : ι) : K :=
  if inDeficit f Ct w c then (f.mass c * f.T / f.dt + Ct c) / f.Cu c else w c

/-- The iteration `for n in range(max_iter)`, aeolis/model.py:1315-1407, with `n` rounds left.  With
`max_iter = 0` the results are never assigned (`UnboundLocalError`, a `NameError`). -/
def fractionLoop (f : FracIn K ι) (lin : (ι → K) → ι → K) :
    ℕ → (ι → K) → Except PyErr (FracOut K ι)
  | 0, _ => .error .nameError
  | n + 1, w =>
    let Ct := concentrations f lin w
    if ∃ c, inDeficit f Ct w c then
      let w' := correctWeights f Ct w
      if n = 0 then .ok ⟨Ct, pickupOf f Ct w, w', false⟩
      else fractionLoop f lin n w'
    else .ok ⟨Ct, fun c => min (pickupOf f Ct w c) (f.mass c), w, true⟩

/-! ### Loop over the fractions -/

variable {nf : ℕ}

/-- Inputs of the loop over the fractions: `lin i w` is the solution of the linear system of fraction
`i` for the weights `w` of that fraction. Models aeolis/model.py:1066-1454. -/
structure SolveIn (K ι : Type*) (nf : ℕ) where
  T : K
  dt : K
  maxError : K
  maxIter : ℕ
  Cu : ι → Fin nf → K
  mass : ι → Fin nf → K
  lin : Fin nf → (ι → K) → ι → K

/-- The data of fraction `i`. Models aeolis/model.py:1385-1387. -/
def SolveIn.frac (s : SolveIn K ι nf) (i : Fin nf) : FracIn K ι :=
  ⟨s.T, s.dt, s.maxError, fun c => s.Cu c i, fun c => s.mass c i⟩

/-- Concentrations, pickup, weights and convergence flags. Models aeolis/model.py:1066-1454. -/
structure SolveOut (K ι : Type*) (nf : ℕ) where
  Ct : ι → Fin nf → K
  pickup : ι → Fin nf → K
  w : ι → Fin nf → K
  conv : Fin nf → Bool

/-- One round of the loop over the fractions, aeolis/model.py:1311,1315-1432. -/
def fractionStep (s : SolveIn K ι nf) (o : SolveOut K ι nf) (i : Fin nf) :
    Except PyErr (SolveOut K ι nf) := do
  let w : ι → Fin nf → K := fun c => renormalizeWeights i (o.w c)
  let r ← fractionLoop (s.frac i) (s.lin i) s.maxIter fun c => w c i
  return { Ct := fun c => Function.update (o.Ct c) i (r.Ct c)
           pickup := fun c => Function.update (o.pickup c) i (r.pickup c)
           w := fun c => Function.update (w c) i (r.w c)
           conv := Function.update o.conv i r.conv }

/-- `solve` from the initial weights `w0`, aeolis/model.py:1150-1432 (`Ct`, `pickup` start as copies of
the previous ones). -/
def solve (s : SolveIn K ι nf) (Ct0 pickup0 w0 : ι → Fin nf → K) : Except PyErr (SolveOut K ι nf) :=
  (List.finRange nf).foldlM (fractionStep s) ⟨Ct0, pickup0, w0, fun _ => false⟩

end Iteration

end

end Aeolis.Solver
