import Mathlib.Algebra.Order.Field.Basic

/-! Specification vocabulary for time series. -/

namespace Aeolis.Spec

variable {K : Type*} [Field K] [LinearOrder K]

/-- Strictly increasing times. -/
abbrev Increasing (ts : List (K × K)) : Prop := ts.Pairwise (fun a b => a.1 < b.1)

/-- The point `(x, y)` lies on the straight line through `a` and `b` (cross-multiplied). -/
def OnLine (a b : K × K) (x y : K) : Prop :=
  (y - a.2) * (b.1 - a.1) = (b.2 - a.2) * (x - a.1)

end Aeolis.Spec
