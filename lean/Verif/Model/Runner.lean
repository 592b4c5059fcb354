import Verif.Model.Output
import Verif.Model.Interp
import Verif.Model.Config

/-!
Model of `AeoLiSRunner.run`, aeolis/model.py:2426-2537, with the callback definition (2883-2919), hotstart
files (2808-2833), restart files (2836-2880), progress messages (2922-2955) and closing statistics
(2987-3007).  The physical model is arbitrary; logging and the printing of the parameters are omitted.
-/

namespace Aeolis.Runner

open Aeolis

/-! ### Callback definition -/

/-- What can be given as callback, aeolis/model.py:2883-2919: text, something callable, `None`, or anything
else. -/
inductive CallbackArg (A : Type*) where
  | text (s : List Char)
  | callable (f : A)
  | nothing
  | other

/-- `parse_callback`, aeolis/model.py:2883-2919.  `files` gives, for an existing file, what the attribute with
a name is in the module it contains (loading the module is assumed to succeed). -/
def parseCallback {A : Type*} (files : List Char → Option (List Char → Option A)) :
    CallbackArg A → Except PyErr (Option A)
  | .text s =>
    if ':' ∈ s then
      match Config.splitOn ':' s with
      | [fname, func] =>
        match files fname with
        | some mod => .ok (mod func)
        | none => .error .ioError
      | _ => .error .valueError
    else .ok none
  | .callable f => .ok (some f)
  | .nothing => .ok none
  | .other => .ok none

/-- Choice between the argument of `run` and the configured callback, aeolis/model.py:2501-2506. -/
def chooseCallback {A : Type*} (files : List Char → Option (List Char → Option A))
    (arg config : CallbackArg A) : Except PyErr (Option A) :=
  match arg with
  | .nothing => parseCallback files config
  | a => parseCallback files a

/-! ### Hotstart files -/

/-- Value of a state variable: an array with its shape and numbers, or a plain number (the masks without
file, aeolis/bed.py:110). -/
inductive HVal (K : Type*) where
  | array (shape : List ℕ) (data : List K)
  | number (x : K)

/-- `load_hotstartfiles`, aeolis/model.py:2808-2833.  The files `<stem>.hotstart` are given by their stem, in
the order of `glob`, with the numbers `np.loadtxt` reads (`none`: it raises `ValueError`). -/
def loadHotstart {K : Type*} : List (String × Option (List K)) → MState (HVal K) →
    Except PyErr (MState (HVal K))
  | [], s => .ok s
  | (var, content) :: rest, s =>
    match s.d.get var with
    | some (.array shape _) =>
      match content with
      | some nums =>
        if nums.length = shape.prod then
          loadHotstart rest ((s.setItem var (.array shape nums)).setImmutable var)
        else .error .valueError
      | none => .error .valueError
    | some (.number _) => .error .attributeError
    | none => loadHotstart rest s

/-! ### The run -/

variable {K W : Type*} [Field K] [LinearOrder K] [FloorRing K]

/-- Parameters used by the run.  `restart` is zero for `None`.  `snapshot`: some output variable is
requested as plain value.  aeolis/model.py:2513-2535, 2777-2805. -/
structure Cfg (K : Type*) where
  tstart : K
  tstop : K
  outputTimes : K
  restart : K
  snapshot : Bool

/-- The model object as seen by the runner: time, last time step and step counter of a state, the base class
`update` and the callback; the Boolean tells whether the callback called `get_var` of the runner.
aeolis/model.py:241-354, 2656-2675. -/
structure Engine (K W : Type*) where
  time : W → K
  dt : W → K
  steps : W → ℕ
  update : W → Except PyErr W
  callback : Option (W → W × Bool)

/-- A progress message: percentage and average time step, aeolis/model.py:2948-2952. -/
structure Line (K : Type*) where
  percent : K
  avg : K

/-- State of the runner during the run.  `dtArray` is `none` while the attribute does not exist; `hasClear`
tells whether `self.clear` exists.  `records`, `lines` and `called` collect the times of output records,
the progress messages, and the times at which the callback was called.  aeolis/model.py:2378-2423. -/
structure St (K W : Type*) where
  w : W
  tout : K
  trestart : K
  tlog : K
  plog : K
  dtArray : Option (List K)
  hasClear : Bool
  records : List K
  lines : List (Line K)
  called : List K

/-- State after `__init__` and `initialize`, aeolis/model.py:2392-2404. -/
def St.init (w : W) : St K W := ⟨w, 0, 0, 0, -1, none, false, [], [], []⟩

/-- `output_write`, aeolis/model.py:2777-2805; `dump_restartfile` opens the file in text mode, to which
`pickle` cannot write (`TypeError`). -/
def outputWrite (c : Cfg K) (e : Engine K W) (s : St K W) : Except PyErr (St K W) :=
  let t := e.time s.w
  let s := if t - s.tout ≥ c.outputTimes ∨ t = 0 then
      { s with records := s.records ++ [t], tout := t, hasClear := s.hasClear || c.snapshot }
    else s
  if c.restart ≠ 0 ∧ t - s.trestart ≥ c.restart then .error .typeError else .ok s

/-- `update` of the runner, aeolis/model.py:2656-2675: reading the missing flag raises `AttributeError`. -/
def runnerUpdate (e : Engine K W) (s : St K W) : Except PyErr (St K W) :=
  if s.hasClear then (e.update s.w).map fun w => { s with w := w }
  else .error .attributeError

/-- `print_progress` with its default arguments, aeolis/model.py:2922-2955; `now` and `later` are the wall
clock times read at the start and after printing.  Numbers are Python floats, so that division by zero
raises. -/
def printProgress (c : Cfg K) (e : Engine K W) (now later : K) (s : St K W) :
    Except PyErr (St K W) :=
  if c.tstop - c.tstart = 0 then .error .zeroDivision
  else
    let p := (e.time s.w - c.tstart) / (c.tstop - c.tstart)
    let pr := (⌈p / (1 / 100)⌉ : K) * (1 / 100)
    let interval := now - s.tlog
    let arr := if e.steps s.w = 1 then some [] else s.dtArray
    match arr with
    | none => .error .attributeError
    | some l =>
      let l := l ++ [e.dt s.w]
      if (npMod p (1 / 100) < 1 / 100 ∧ s.plog ≠ pr) ∨ interval > 60 then
        if p = 0 then .error .zeroDivision
        else .ok { s with lines := s.lines ++ [⟨p * 100, l.sum / l.length⟩], tlog := later, plog := pr,
                          dtArray := some [] }
      else .ok { s with dtArray := some l }

/-- Calling the callback, aeolis/model.py:2521-2522. -/
def runCallback (e : Engine K W) (s : St K W) : St K W :=
  match e.callback with
  | none => s
  | some f => { s with w := (f s.w).1, hasClear := s.hasClear || (f s.w).2, called := s.called ++ [e.time s.w] }

/-- One round of the time loop, aeolis/model.py:2521-2525. -/
def round (c : Cfg K) (e : Engine K W) (wall : K × K) (s : St K W) : Except PyErr (St K W) :=
  match runnerUpdate e (runCallback e s) with
  | .error x => .error x
  | .ok s =>
    match outputWrite c e s with
    | .error x => .error x
    | .ok s => printProgress c e wall.1 wall.2 s

/-- The time loop, aeolis/model.py:2520-2525; `walls` are the wall clock times read in the rounds, and the
loop is followed for at most as many rounds (`ok none`: still running). -/
def loop (c : Cfg K) (e : Engine K W) : List (K × K) → St K W → Except PyErr (Option (St K W))
  | [], s => if e.time s.w ≤ c.tstop then .ok none else .ok (some s)
  | wall :: walls, s =>
    if e.time s.w ≤ c.tstop then
      match round c e wall s with
      | .error x => .error x
      | .ok s' => loop c e walls s'
    else .ok (some s)

/-- A restart file given to `run`: the argument may be empty or `None` (`absent`), name a missing file, or
name a file; `pickle.load` from a file opened in text mode raises `TypeError` (or `UnicodeDecodeError`, a
`ValueError`), aeolis/model.py:2836-2866. -/
inductive RestartArg where
  | absent
  | missing
  | file (undecodable : Bool)

/-- `load_restartfile`, aeolis/model.py:2836-2866; the result tells whether a state was loaded. -/
def loadRestart : RestartArg → Except PyErr Bool
  | .absent => .ok false
  | .missing => .error .ioError
  | .file true => .error .valueError
  | .file false => .error .typeError

/-- Closing statistics, aeolis/model.py:2987-3007: average number of solves per step and average time
step. -/
def printStats (c : Cfg K) (steps solves : ℕ) : Except PyErr (K × K) :=
  if steps = 0 then .error .zeroDivision
  else .ok ((solves : K) / steps, c.tstop / steps)

/-- `run` from the initialised model on, aeolis/model.py:2513-2535; `solves` reads the counter of matrix
solutions. -/
def run (c : Cfg K) (e : Engine K W) (solves : W → ℕ) (restart : RestartArg) (walls : List (K × K)) (w : W) :
    Except PyErr (Option (St K W × (K × K))) :=
  match loadRestart restart with
  | .error x => .error x
  | .ok _ =>
    match outputWrite c e (St.init w) with
    | .error x => .error x
    | .ok s =>
      match loop c e walls s with
      | .error x => .error x
      | .ok none => .ok none
      | .ok (some s) =>
        match printStats c (e.steps s.w) (solves s.w) with
        | .error x => .error x
        | .ok r => .ok (some (s, r))

end Aeolis.Runner
