import Mathlib.Data.Finset.Insert
import Mathlib.Data.Finset.Erase
import Mathlib.Data.List.Sort
import Mathlib.Data.String.Basic
import Mathlib.Algebra.Order.Field.Basic
import Verif.Model.PyDict

/-!
Model of `ModelState` (aeolis/model.py:89-120), of the data access part of the BMI class `AeoLiS`
(aeolis/model.py:360-576, 2291-2346) and of the table of state variables (aeolis/constants.py).
-/

namespace Aeolis

/-- `ModelState`, aeolis/model.py:89-99: the dictionary and the set `ismutable`. -/
structure MState (V : Type*) where
  d : PyDict String V
  ismutable : Finset String

namespace MState

variable {V : Type*}

/-- `ModelState()`, aeolis/model.py:96-99. -/
def empty : MState V := ⟨[], ∅⟩

/-- `k in s`. Built-in used in aeolis/model.py:102-109. -/
def has (s : MState V) (k : String) : Bool := (s.d.get k).isSome

/-- `set_mutable`, aeolis/model.py:112-114. -/
def setMutable (s : MState V) (k : String) : MState V := { s with ismutable := insert k s.ismutable }

/-- `set_immutable`, aeolis/model.py:117-120. -/
def setImmutable (s : MState V) (k : String) : MState V :=
  if k ∈ s.ismutable then { s with ismutable := s.ismutable.erase k } else s

/-- `__setitem__`, aeolis/model.py:102-109. -/
def setItem (s : MState V) (k : String) (v : V) : MState V :=
  if ¬ s.has k ∨ k ∈ s.ismutable then
    setMutable { s with d := s.d.set k v } k
  else s

/-- `s.update({...})`: `dict.update`, which `ModelState` does not override and which therefore
neither consults nor changes `ismutable` (used in aeolis/model.py:312-316). -/
def update (s : MState V) (kvs : List (String × V)) : MState V := { s with d := s.d.update kvs }

end MState

/-! ### Array contents are shared by reference -/

/-- A `ModelState` whose values are references to arrays, with the heap of array contents (indexed
by reference).  The contents `A` are arbitrary. Models aeolis/model.py:89-120. -/
structure Store (A : Type*) where
  heap : List A
  m : MState ℕ

/-- What code can do to the model state. Uses of aeolis/model.py:89-120. -/
inductive StateOp (A : Type*) where
  /-- `s[k] = <new array>` -/
  | assign (k : String) (a : A)
  /-- `s[k] = s[j]` -/
  | share (k j : String)
  /-- `s[k] += ...`, `s[k][ix] = ...`, `s[k] *= ...`: the array object is changed in place, e.g.
  aeolis/bed.py (`s['zb'] += dz`), aeolis/avalanching.py:185, aeolis/model.py:658. -/
  | inPlace (k : String) (f : A → A)
  /-- `s.update({k: <new array>, ...})`, aeolis/model.py:312-316 -/
  | update (kvs : List (String × A))
  | setMutable (k : String)
  | setImmutable (k : String)

namespace Store

variable {A : Type*}

/-- `ModelState()` with an empty heap. -/
def empty : Store A := ⟨[], MState.empty⟩

/-- The contents of the array `s[k]`. Models aeolis/model.py:421-430. -/
def read (s : Store A) (k : String) : Option A := (s.m.d.get k).bind fun r => s.heap[r]?

/-- Allocation of a list of new arrays: keys paired with the new references.
Models aeolis/model.py:216-218. -/
def alloc (n : ℕ) : List (String × A) → List (String × ℕ)
  | [] => []
  | (k, _) :: kvs => (k, n) :: alloc (n + 1) kvs

/-- One operation.  An operation on a missing key raises `KeyError` and changes nothing.
Augmented assignment `s[k] += v` first changes the array object and then calls `__setitem__` with
the same object. Models aeolis/model.py:89-120. -/
def step (s : Store A) : StateOp A → Store A
  | .assign k a => ⟨s.heap ++ [a], s.m.setItem k s.heap.length⟩
  | .share k j =>
    match s.m.d.get j with
    | some r => { s with m := s.m.setItem k r }
    | none => s
  | .inPlace k f =>
    match s.m.d.get k with
    | some r => ⟨s.heap.modify r f, s.m.setItem k r⟩
    | none => s
  | .update kvs => ⟨s.heap ++ kvs.map Prod.snd, s.m.update (alloc s.heap.length kvs)⟩
  | .setMutable k => { s with m := s.m.setMutable k }
  | .setImmutable k => { s with m := s.m.setImmutable k }

/-- A sequence of operations. Uses of aeolis/model.py:89-120. -/
def run (s : Store A) (ops : List (StateOp A)) : Store A := ops.foldl step s

end Store

/-! ### Basic Model Interface: data access -/

/-- A value held in the grids or parameters: arrays carry their shape (`shape`) and contents.
Models aeolis/model.py:390-430. -/
inductive Val (K : Type*) where
  | num (x : K)
  | arr (shape : List ℕ) (data : List K)
  | text (x : String)
  | nothing

/-- Errors raised. Exceptions raised in aeolis/*.py. -/
inductive PyErr where
  | keyError | typeError | indexError | zeroDivision | valueError | attributeError | nameError
  | ioError | notImplemented | stopIteration
  deriving DecidableEq, Repr

/-- The BMI object as far as data access is concerned: spatial grids `s` and parameters `p`,
aeolis/model.py:159-168. -/
structure Bmi (K : Type*) where
  s : MState (Val K)
  p : PyDict String (Val K)

namespace Bmi

variable {K : Type*} [Field K] [LinearOrder K]

/-- `v / p['accfac']`.  Division by a zero acceleration factor (inf/nan in numpy) is reported as an
error here; non-numeric operands raise `TypeError`. Models aeolis/model.py:424. -/
def divide : Val K → Val K → Except PyErr (Val K)
  | .arr sh d, .num a => if a = 0 then .error .zeroDivision else .ok (.arr sh (d.map (· / a)))
  | .num x, .num a => if a = 0 then .error .zeroDivision else .ok (.num (x / a))
  | _, _ => .error .typeError

/-- `AeoLiS.get_var`, aeolis/model.py:390-430. -/
def getVar (b : Bmi K) (var : String) : Except PyErr (Option (Val K)) :=
  match b.s.d.get var with
  | some v =>
    if var = "Ct" ∨ var = "Cu" then
      match b.p.get "accfac" with
      | some a => (divide v a).map some
      | none => .error .keyError
    else .ok (some v)
  | none =>
    match b.p.get var with
    | some v => .ok (some v)
    | none => .ok none

/-- `AeoLiS.set_var`, aeolis/model.py:526-557. -/
def setVar (b : Bmi K) (var : String) (v : Val K) : Bmi K :=
  if b.s.has var then { b with s := b.s.setItem var v }
  else if (b.p.get var).isSome then { b with p := b.p.set var v }
  else b

/-- `AeoLiS.get_var_count`, aeolis/model.py:433-440. -/
def getVarCount (b : Bmi K) : ℕ := b.s.d.keys.length

/-- `sorted(s.keys())`. Models aeolis/model.py:457-460. -/
def sortedNames (b : Bmi K) : List String := b.s.d.keys.insertionSort (· ≤ ·)

/-- Python list indexing with a possibly negative index. Used in the code at aeolis/model.py:458. -/
def pyIndex {α : Type*} (l : List α) (i : ℤ) : Except PyErr α :=
  let j := if i < 0 then i + l.length else i
  if j < 0 then .error .indexError
  else match l[j.toNat]? with
    | some x => .ok x
    | none => .error .indexError

/-- `AeoLiS.get_var_name`, aeolis/model.py:443-460; `none` stands for the result `-1`. -/
def getVarName (b : Bmi K) (i : ℤ) : Except PyErr (Option String) :=
  if (b.s.d.keys.length : ℤ) > i then (pyIndex b.sortedNames i).map some
  else .ok none

/-- `AeoLiS.get_var_shape`, aeolis/model.py:481-497; `none` stands for `-1`.  Only arrays have a
shape (numpy scalars have the empty one). -/
def getVarShape (b : Bmi K) (var : String) : Except PyErr (Option (List ℕ)) :=
  match b.s.d.get var with
  | some (.arr sh _) => .ok (some sh)
  | some (.num _) => .ok (some [])
  | some _ => .error .attributeError
  | none => .ok none

/-- `AeoLiS.get_var_rank`, aeolis/model.py:462-478; `none` stands for `-1`. -/
def getVarRank (b : Bmi K) (var : String) : Except PyErr (Option ℕ) :=
  (b.getVarShape var).map fun o => o.map List.length

/-- `AeoLiS.set_var_index`, aeolis/model.py:560-572.  With the index out of range the name is `-1`,
which is neither a grid nor a parameter. -/
def setVarIndex (b : Bmi K) (i : ℤ) (v : Val K) : Except PyErr (Bmi K) :=
  match b.getVarName i with
  | .error e => .error e
  | .ok (some n) => .ok (b.setVar n v)
  | .ok none => .ok b

end Bmi

/-! ### State variable table -/

/-- Dimension names. Models aeolis/constants.py:29-149. -/
inductive Dim where
  | ny | nx | nlayers | nfractions
  deriving DecidableEq, Repr

/-- `INITIAL_STATE`, aeolis/constants.py:29-63. -/
def initialStateNames : List String :=
  ["uw", "uws", "uwn",
   "tau", "taus", "taun", "tau0", "taus0", "taun0", "taus_u", "taun_u", "dtaus", "dtaun",
   "ustar", "ustars", "ustarn", "ustar0", "ustars0", "ustarn0",
   "udir", "zs", "SWL", "Hs", "Hsmix", "Tp", "zne"]

/-- `MODEL_STATE` before merging, aeolis/constants.py:65-149. -/
def modelStateTable : List (List Dim × List String) :=
  [ ([.ny, .nx],
      ["x", "y", "ds", "dn", "dsdn", "dsdni", "zb", "zs", "zne", "zb0", "zdry", "dzdry", "dzb",
       "dzbyear", "dzbavg", "S", "moist", "moist_swr", "h_delta", "gw", "gw_prev", "wetting",
       "scan_w", "scan_d", "scan_w_moist", "scan_d_moist", "w_h", "d_h", "w_hdelta", "d_hdelta",
       "ustar", "ustars", "ustarn", "ustar0", "zsep", "hsep", "theta_stat", "theta_dyn",
       "rhoveg", "drhoveg", "hveg", "dhveg", "dzbveg", "germinate", "lateral", "vegfac",
       "fence_height", "R", "eta", "sigma_s", "TWL", "SWL", "DSWL", "Rti"]),
    ([.ny, .nx, .nfractions],
      ["Cu", "Cuf", "Cu0", "Ct", "q", "qs", "qn", "pickup", "w", "w_init", "w_air", "w_bed",
       "uth", "uthf", "uth0", "u", "us", "un", "u0"]),
    ([.ny, .nx, .nlayers], ["thlyr", "salt"]),
    ([.ny, .nx, .nlayers, .nfractions], ["mass"]) ]

/-- `MODEL_STATE` after merging, aeolis/constants.py:339-342: the only common key is
`('ny','nx')`. -/
def modelState : List (List Dim × List String) :=
  modelStateTable.map fun e => if e.1 = [.ny, .nx] then (e.1, e.2 ++ initialStateNames) else e

/-- `AeoLiS.dimensions()`, aeolis/model.py:2336-2346: dictionary comprehension name → dims. -/
def dimensions : PyDict String (List Dim) :=
  PyDict.update [] (modelState.flatMap fun e => e.2.map fun n => (n, e.1))

/-- Number of cells/layers/fractions in the parameters. Models aeolis/model.py:2291-2315. -/
structure Sizes where
  nx : ℕ
  ny : ℕ
  nlayers : ℕ
  nfractions : ℕ

/-- `_dims2shape`, aeolis/model.py:2291-2315. -/
def dims2shape (p : Sizes) (dims : List Dim) : List ℕ :=
  dims.map fun
    | .nx => p.nx + 1
    | .ny => p.ny + 1
    | .nlayers => p.nlayers
    | .nfractions => p.nfractions

/-- The loop creating the spatial grids in `AeoLiS.initialize`, aeolis/model.py:216-218. -/
def createGrids {K : Type*} [Zero K] (p : Sizes) (s : MState (Val K)) : MState (Val K) :=
  dimensions.foldl
    (fun s e => s.setItem e.1 (.arr (dims2shape p e.2) (List.replicate (dims2shape p e.2).prod 0))) s

end Aeolis
