import Mathlib.Algebra.Order.Field.Basic
import Mathlib.Algebra.BigOperators.Group.List.Basic
import Verif.Model.Output

/-! Specification of output statistics: elementary statistics of a list of values, and the list of
values a history of runner operations accumulates. -/

namespace Aeolis.Spec

variable {K : Type*} [Field K] [LinearOrder K]

/-- Arithmetic mean. -/
def mean (l : List K) : K := l.sum / l.length

/-- Unbiased sample variance. -/
def variance (l : List K) : K := (l.map fun v => (v - mean l) ^ 2).sum / (l.length - 1)

/-- `x` is the smallest element of `l`; infinite for the empty list. -/
def IsMinOf (x : WithTop K) (l : List K) : Prop :=
  (l = [] ∧ x = ⊤) ∨ (∃ v ∈ l, x = v ∧ ∀ u ∈ l, v ≤ u)

/-- `x` is the largest element of `l`; minus infinite for the empty list. -/
def IsMaxOf (x : WithBot K) (l : List K) : Prop :=
  (l = [] ∧ x = ⊥) ∨ (∃ v ∈ l, x = v ∧ ∀ u ∈ l, u ≤ v)

/-- Observer of a history: whether the last `get_var` since the previous step asked to clear,
whether the previous step was a fast-forward, and the values at the end of the steps since the
statistics were last cleared. -/
structure Window (K : Type*) where
  asked : Bool
  fastForward : Bool
  values : List K

/-- An output record clears the window; a step first clears it if asked to or after a fast-forward
step, and then adds its value.  A plain (snapshot) output reads without asking to clear. -/
def Window.next (snapshot : Bool) (w : Window K) : RunnerOp K → Window K
  | .step v dt =>
    ⟨false, decide (dt < -1), if w.asked || w.fastForward then [v] else w.values ++ [v]⟩
  | .get c => { w with asked := c }
  | .write => ⟨if snapshot then false else w.asked, w.fastForward, []⟩

/-- The window after a history. -/
def window (snapshot : Bool) (os : List (RunnerOp K)) : Window K :=
  os.foldl (Window.next snapshot) ⟨false, false, []⟩

end Aeolis.Spec
