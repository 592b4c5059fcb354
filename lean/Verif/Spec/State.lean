import Verif.Model.State

/-!
Specification of a single, lockable state variable, independent of dictionaries, references and
sets: a history of events for that variable determines its value.
-/

namespace Aeolis.Spec

/-- What can happen to one variable. -/
inductive Event (A : Type _) where
  | assigned (a : A)
  | locked
  | unlocked

/-- A variable: not existing, or existing with a value and a lock. -/
inductive Var (A : Type _) where
  | missing
  | free (a : A)
  | frozen (a : A)

/-- A missing variable is created free by its first assignment; a free one takes every assigned
value; a frozen one ignores assignments until unlocked. -/
def Var.next {A : Type _} : Var A → Event A → Var A
  | .missing, .assigned a => .free a
  | .missing, _ => .missing
  | .free _, .assigned a => .free a
  | .free v, .locked => .frozen v
  | .free v, .unlocked => .free v
  | .frozen v, .assigned _ => .frozen v
  | .frozen v, .locked => .frozen v
  | .frozen v, .unlocked => .free v

/-- The value a reader sees. -/
def Var.value {A : Type _} : Var A → Option A
  | .missing => none
  | .free a => some a
  | .frozen a => some a

/-- The variable after a history of events. -/
def Var.after {A : Type _} (v : Var A) (h : List (Event A)) : Var A := h.foldl Var.next v

variable {A : Type*}

/-- The events a (non in-place) operation means for key `k`. -/
def events (k : String) : List (StateOp A) → List (Event A)
  | [] => []
  | .assign j a :: ops => if j = k then .assigned a :: events k ops else events k ops
  | .setMutable j :: ops => if j = k then .unlocked :: events k ops else events k ops
  | .setImmutable j :: ops => if j = k then .locked :: events k ops else events k ops
  | _ :: ops => events k ops

/-- Operations considered in the specification: plain assignment and (un)locking. -/
def plain : StateOp A → Prop
  | .assign _ _ => True
  | .setMutable _ => True
  | .setImmutable _ => True
  | _ => False

end Aeolis.Spec
