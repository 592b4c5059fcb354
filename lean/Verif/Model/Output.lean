import Mathlib.Algebra.Order.Field.Basic
import Mathlib.Algebra.BigOperators.Group.List.Basic
import Mathlib.Order.WithBot
import Verif.Model.State

/-!
Model of the output of `AeoLiSRunner` (aeolis/model.py:2558-2805) and of appending to the netCDF
file (aeolis/netcdf.py:317-376).
-/

namespace Aeolis

variable {K : Type*} [Field K] [LinearOrder K]

/-! ### Statistics -/

/-- Requested statistics of an output variable: the membership tests on `exts` in
`output_update`, aeolis/model.py:2762-2769. -/
structure Exts where
  min : Bool
  max : Bool
  sum : Bool
  avg : Bool
  var : Bool

/-- `self.o[k]` of one cell: aeolis/model.py:2743-2746; `np.inf`/`-np.inf` are `⊤`/`⊥`. -/
structure Acc (K : Type*) where
  min : WithTop K
  max : WithBot K
  var : K
  sum : K

/-- The accumulators after `output_clear`, aeolis/model.py:2743-2746. -/
def Acc.zero : Acc K := ⟨⊤, ⊥, 0, 0⟩

/-- `output_update` for one variable and cell with current value `v`, aeolis/model.py:2760-2769. -/
def Acc.add (e : Exts) (a : Acc K) (v : K) : Acc K :=
  { min := if e.min then Min.min a.min v else a.min
    max := if e.max then Max.max a.max v else a.max
    sum := if e.sum || e.avg || e.var then a.sum + v else a.sum
    var := if e.var then a.var + v ^ 2 else a.var }

/-- Result of `get_statistic`: the value of a cell (possibly infinite for min/max), or `None`.
Models aeolis/model.py:2572-2587. -/
inductive Stat (K : Type*) where
  | lower (x : WithTop K)
  | upper (x : WithBot K)
  | value (x : K)
  | nothing

/-- The output bookkeeping of the runner for one variable (and cell): accumulators, number of
steps `self.n`, and the flag `self.clear`, which does not exist (`none`) until `get_var` is first
called (`__init__`, aeolis/model.py:2378-2423, does not set it); and `self.dt`. -/
structure Runner (K : Type*) where
  acc : Acc K
  n : ℕ
  clear : Option Bool
  dt : K

/-- `get_statistic`, aeolis/model.py:2572-2587. -/
def Runner.getStatistic (r : Runner K) (stat : String) : Stat K :=
  if stat = "min" then .lower r.acc.min
  else if stat = "max" then .upper r.acc.max
  else if stat = "sum" then .value r.acc.sum
  else if stat = "avg" then
    if 0 < r.n then .value (r.acc.sum / r.n) else .value 0
  else if stat = "var" then
    if 1 < r.n then .value ((r.acc.var - r.acc.sum ^ 2 / r.n) / (r.n - 1)) else .value 0
  else .nothing

/-- `output_clear`, aeolis/model.py:2732-2748. -/
def Runner.outputClear (r : Runner K) : Runner K := { r with acc := Acc.zero, n := 0 }

/-- After `initialize`/`output_init`, aeolis/model.py:2644-2653, 2729: statistics cleared, `clear`
still unset, `dt = 0` (aeolis/model.py:159). -/
def Runner.init : Runner K := ⟨Acc.zero, 0, none, 0⟩

/-- What happens to the runner. Models aeolis/model.py:2656-2805. -/
inductive RunnerOp (K : Type*) where
  /-- `update(dt)`: the base class sets `self.dt` to `dt'` and leaves value `v` in the cell. -/
  | step (v dt' : K)
  /-- `get_var(name, clear)` of any name by a user or callback. -/
  | get (clear : Bool)
  /-- `output_write` in which the output interval has passed. -/
  | write

/-- One operation.  `update`: aeolis/model.py:2670-2675, reading the unset flag raises
`AttributeError`; `output_update` calls `get_var(k, clear=False)`.  `output_write`:
aeolis/model.py:2787-2801, `snapshot` tells whether some output variable is requested as plain
value (`ext is None`), in which case `get_var(k, clear=False)` is called. -/
def Runner.op (e : Exts) (snapshot : Bool) (r : Runner K) : RunnerOp K → Except PyErr (Runner K)
  | .step v dt' =>
    match r.clear with
    | none => .error .attributeError
    | some c =>
      let r := if c || decide (r.dt < -1) then { r.outputClear with clear := some false } else r
      .ok { r with acc := r.acc.add e v, n := r.n + 1, dt := dt', clear := some false }
  | .get c => .ok { r with clear := some c }
  | .write => .ok { r.outputClear with clear := if snapshot then some false else r.clear }

/-- A history of operations. The calls made by aeolis/model.py:2519-2525. -/
def Runner.ops (e : Exts) (snapshot : Bool) : Runner K → List (RunnerOp K) →
    Except PyErr (Runner K)
  | r, [] => .ok r
  | r, o :: os =>
    match r.op e snapshot o with
    | .error x => .error x
    | .ok r' => Runner.ops e snapshot r' os

/-! ### Output interval -/

/-- State of `output_write`: time of the last output `tout` and the times of the records written.
Models aeolis/model.py:2777-2805. -/
structure Writer (K : Type*) where
  tout : K
  records : List K

/-- `AeoLiSRunner.__init__`: `self.tout = 0.`, aeolis/model.py:2395. -/
def Writer.init : Writer K := ⟨0, []⟩

/-- `output_write` at time `t`, aeolis/model.py:2787-2801 (the restart part is separate). -/
def Writer.write (outputTimes : K) (w : Writer K) (t : K) : Writer K :=
  if t - w.tout ≥ outputTimes ∨ t = 0 then ⟨t, w.records ++ [t]⟩ else w

/-- `output_write` called at a sequence of times. Repetition of aeolis/model.py:2777-2805. -/
def Writer.run (outputTimes : K) (w : Writer K) (ts : List K) : Writer K :=
  ts.foldl (Writer.write outputTimes) w

/-! ### netCDF file -/

/-- The netCDF file: number of entries along the unlimited time dimension, the time axis, the time
bounds, and per variable the records (missing entries are fill values, here `none`).
Models aeolis/netcdf.py:52-376. -/
structure NcFile (K V : Type*) where
  ntime : ℕ
  time : ℕ → Option K
  bounds : ℕ → Option (K × K)
  vars : List String
  vals : String → ℕ → Option V

variable {V : Type*}

/-- `netcdf.initialize`: no records, the given variables. Models aeolis/netcdf.py:80-314. -/
def NcFile.create (vars : List String) : NcFile K V :=
  ⟨0, fun _ => none, fun _ => none, vars, fun _ _ => none⟩

/-- `set_bounds`, aeolis/netcdf.py:373-376. -/
def NcFile.setBounds (f : NcFile K V) : NcFile K V :=
  let i := f.ntime - 1
  match (if i = 0 then some 0 else f.time (i - 1)), f.time i with
  | some a, some b => { f with bounds := Function.update f.bounds i (some (a, b)) }
  | _, _ => f

/-- The loop over the variables in `append`, aeolis/netcdf.py:351-354; an unknown variable raises
`KeyError` with the earlier ones already written. -/
def NcFile.writeVars (f : NcFile K V) (i : ℕ) : List (String × V) → NcFile K V × Option PyErr
  | [] => (f, none)
  | (k, v) :: kvs =>
    if k ∈ f.vars then
      let rec' := Function.update (f.vals k) i (some v)
      NcFile.writeVars { f with vals := Function.update f.vals k rec' } i kvs
    else (f, some .keyError)

/-- `append`, aeolis/netcdf.py:348-356. -/
def NcFile.append (f : NcFile K V) (t : K) (kvs : List (String × V)) : NcFile K V × Option PyErr :=
  let i := f.ntime
  let f := { f with ntime := i + 1, time := Function.update f.time i (some t) }
  match f.writeVars i kvs with
  | (f, none) => (f.setBounds, none)
  | (f, some e) => (f, some e)

/-! ### Output table and names -/

/-- `var.split(sep)` unpacked into two names; `ValueError` otherwise. Models aeolis/model.py:2705-2714. -/
def splitTwo (sep : Char) (n : List Char) : Except PyErr (List Char × List Char) :=
  match n.splitOn sep with
  | [a, b] => .ok (a, b)
  | _ => .error .valueError

/-- Splitting of an output variable name in `output_init`, aeolis/model.py:2705-2714. -/
def splitName (n : List Char) : Except PyErr (List Char × Option (List Char)) :=
  if '_' ∈ n then (splitTwo '_' n).map fun r => (r.1, some r.2)
  else if '.' ∈ n then (splitTwo '.' n).map fun r => (r.1, some r.2)
  else .ok (n, none)

/-- `if ext not in l: l.append(ext)`. Models aeolis/model.py:2716-2721. -/
def addNew {α : Type*} [DecidableEq α] (l : List α) (x : α) : List α :=
  if x ∈ l then l else l ++ [x]

/-- One round of the loop in `output_init`, aeolis/model.py:2704-2721. -/
def tableAdd (types : List (List Char)) (tbl : PyDict (List Char) (List (Option (List Char))))
    (n : List Char) : Except PyErr (PyDict (List Char) (List (Option (List Char)))) :=
  (splitName n).map fun r =>
    let l := (tbl.get r.1).getD []
    let l := addNew l r.2
    tbl.set r.1 (types.foldl (fun l t => addNew l (some t)) l)

/-- The table `_output_vars` built by `output_init`. Models aeolis/model.py:2696-2729. -/
def outputTable (types : List (List Char)) :
    PyDict (List Char) (List (Option (List Char))) → List (List Char) →
    Except PyErr (PyDict (List Char) (List (Option (List Char))))
  | tbl, [] => .ok tbl
  | tbl, n :: ns =>
    match tableAdd types tbl n with
    | .error e => .error e
    | .ok tbl' => outputTable types tbl' ns

/-- What a name asked from the runner's `get_var` resolves to. Models aeolis/model.py:2627-2642. -/
inductive Resolved where
  | statistic (var stat : List Char)
  | base (name : List Char)
  | error (e : PyErr)
  deriving DecidableEq

/-- The second half of the runner's `get_var`: deprecated dot notation,
aeolis/model.py:2635-2642. -/
def resolveDot (outputs : List (List Char)) (n : List Char) : Resolved :=
  if '.' ∈ n then
    match splitTwo '.' n with
    | .error e => .error e
    | .ok (v, s) => if v ∈ outputs then .statistic v s else .base v
  else .base n

/-- `AeoLiSRunner.get_var`, aeolis/model.py:2627-2642: how the name is resolved; `outputs` are the
keys of `self.o`.  Note that `var` is overwritten by the part before the underscore even when that
part is not an output variable. -/
def resolveName (outputs : List (List Char)) (n : List Char) : Resolved :=
  if '_' ∈ n then
    match splitTwo '_' n with
    | .error e => .error e
    | .ok (v, s) => if v ∈ outputs then .statistic v s else resolveDot outputs v
  else resolveDot outputs n

end Aeolis
