import Mathlib.Data.List.Basic
import Mathlib.Data.List.Nodup

/-!
Python's `dict`: an insertion-ordered list of (key, value) pairs with distinct keys.
-/

namespace Aeolis

/-- A Python `dict` as its insertion-ordered list of items. The base class in aeolis/model.py:89. -/
abbrev PyDict (κ V : Type*) := List (κ × V)

namespace PyDict

variable {κ V : Type*} [DecidableEq κ]

/-- `d.get(k)`. Built-in of the base class in aeolis/model.py:89. -/
def get : PyDict κ V → κ → Option V
  | [], _ => none
  | (k', v) :: d, k => if k' = k then some v else get d k

/-- `dict.__setitem__(d, k, v)`: replace in place, or append a new item.
Built-in called in aeolis/model.py:108. -/
def set : PyDict κ V → κ → V → PyDict κ V
  | [], k, v => [(k, v)]
  | (k', v') :: d, k, v => if k' = k then (k, v) :: d else (k', v') :: set d k v

/-- `list(d.keys())`. Built-in used in aeolis/model.py:433-460. -/
def keys (d : PyDict κ V) : List κ := d.map Prod.fst

/-- `dict.update(d, kvs)`. Built-in used in aeolis/model.py:312-316. -/
def update (d : PyDict κ V) (kvs : List (κ × V)) : PyDict κ V :=
  kvs.foldl (fun d kv => set d kv.1 kv.2) d

end PyDict

end Aeolis
