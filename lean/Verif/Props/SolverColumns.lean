import Verif.Props.SolverFV

/-!
C100 on grids of a single column.
-/

namespace Aeolis.Props

open Aeolis.Solver

variable {K : Type*} [Field K] [LinearOrder K]

/-- C100: on a grid of one column a gradient condition at either end ends the step with an `IndexError`, whatever the other settings; other
conditions do not. -/
theorem C100_gradient_columns (a : FV K) (b : Bounds) (v : FV.Data K) (C w : ℕ → ℕ → K) (hn : a.nx = 0) :
    (b.off = "gradient" ∨ b.on = "gradient" → a.rhsCall v b C w = .error .indexError) ∧
    (b.off ≠ "gradient" → b.on ≠ "gradient" → b.lat ≠ "gradient" → a.rhsCall v b C w = .ok (a.rhs v b C w)) := by
  unfold FV.rhsCall
  refine ⟨fun h => ?_, fun h1 h2 h3 => ?_⟩
  · by_cases ho : b.off = "gradient"
    · simp only [if_pos ho, hn]
      rfl
    · simp only [if_neg ho, if_pos (h.resolve_left ho), hn]
      rfl
  · simp only [if_neg h1, if_neg h2, if_neg h3]
    rfl

/-- A column of cells with a free landward end. -/
example (a : FV ℚ) (ha : a.nx = 0) (v : FV.Data ℚ) (C w : ℕ → ℕ → ℚ) :
    a.rhsCall v ⟨"flux", "gradient", "circular"⟩ C w = .error .indexError :=
  (C100_gradient_columns a _ v C w ha).1 (.inr rfl)

end Aeolis.Props
