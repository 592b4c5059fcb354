import Verif.Model.Config
import Verif.Model.PyDict

/-!
Model of the use of `AeoLiSRunner` before the time loop (creation, `set_params`, `set_configfile`, `write_params`, the start of `run`;
aeolis/model.py:2376-2423, 2495-2514, 2540-2555, 2676-2693) and of the counters (aeolis/model.py:2259-2288).
-/

namespace Aeolis.Session

open Aeolis.Config

/-- How parameters are stored in a configuration file and read back: `write_configfile` and `read_configfile` (aeolis/inout.py:48-172,
modelled in Model/Config.lean); here any pair of functions. -/
structure Format (C P : Type) where
  render : PyDict String P → C
  parse : C → Except PyErr (PyDict String P)

/-- The part of `AeoLiSRunner` that concerns the configuration, with the files on disk. Names of files are absolute paths (simplification:
`os.path.abspath` is not modelled). Models aeolis/model.py:2378-2423. -/
structure Runner (C P : Type) where
  disk : Disk C
  configfile : Text
  p : PyDict String P
  changed : Bool

variable {C P : Type}

/-- `configfile.upper() == 'DEFAULT'`, aeolis/model.py:2410 (letters a-z). -/
def isDefault (name : Text) : Bool := name.map Char.toUpper == "DEFAULT".toList

/-- `AeoLiSRunner(configfile)`, aeolis/model.py:2391-2423: parameters of the file if it exists; for the name `DEFAULT` the call
`np.linspace(-5.,5.,100.)` with a real number of points is a `TypeError` (numpy 1.18 and later); otherwise `IOError`. -/
def create (fmt : Format C P) (disk : Disk C) (configfile : Text) : Except PyErr (Runner C P) :=
  match disk configfile with
  | some c => (fmt.parse c).map fun p => ⟨disk, configfile, p, false⟩
  | none => if isDefault configfile then .error .typeError else .error .ioError

/-- `set_params`, aeolis/model.py:2550-2555. -/
def setParams (r : Runner C P) (kvs : List (String × P)) : Runner C P :=
  if 0 < kvs.length then { r with changed := true, p := r.p.update kvs } else r

/-- `set_configfile`, aeolis/model.py:2540-2547. -/
def setConfigfile (r : Runner C P) (name : Text) : Runner C P := { r with changed := false, configfile := name }

/-- `write_params`, aeolis/model.py:2678-2693. -/
def writeParams (fmt : Format C P) (r : Runner C P) : Except PyErr (Runner C P) :=
  if r.changed then
    (backup r.disk r.configfile).map fun d =>
      { r with disk := writeFile d r.configfile (fmt.render r.p), changed := false }
  else .ok r

/-- The part of `run` before the time loop that concerns the configuration: `write_params` and the reading of the file in `initialize`,
aeolis/model.py:2499, 2510, 187; `IOError` if the file does not exist (aeolis/inout.py:96-97). -/
def startRun (fmt : Format C P) (r : Runner C P) : Except PyErr (Runner C P) := do
  let r ← writeParams fmt r
  match r.disk r.configfile with
  | none => .error .ioError
  | some c => (fmt.parse c).map fun p => { r with p := p }

/-- Calls of a user before `run`. Models aeolis/model.py:2540-2555. -/
inductive Call (P : Type)
  | params (kvs : List (String × P))
  | configfile (name : Text)

/-- Effect of a call, aeolis/model.py:2540-2555. -/
def call (r : Runner C P) : Call P → Runner C P
  | .params kvs => setParams r kvs
  | .configfile name => setConfigfile r name

/-- `_count`, aeolis/model.py:2275-2288. -/
def count (c : PyDict String ℤ) (name : String) (n : ℤ := 1) : PyDict String ℤ :=
  let c := if (c.get name).isSome then c else c.set name 0
  c.set name ((c.get name).getD 0 + n)

/-- `get_count`, aeolis/model.py:2259-2272. -/
def getCount (c : PyDict String ℤ) (name : String) : ℤ :=
  match c.get name with
  | some n => n
  | none => 0

end Aeolis.Session
