import Mathlib.Algebra.BigOperators.Fin
import Mathlib.Algebra.Order.Field.Basic

/-! Specification vocabulary for the bed composition properties; independent of the model. -/

namespace Aeolis.Spec

open Finset

variable {K : Type*} [Field K] [LinearOrder K] {nf : ℕ}

/-- Total mass in layer `k`. -/
def layerTotal (m : ℕ → Fin nf → K) (k : ℕ) : K := ∑ f, m k f

/-- Mass of fraction `f` in the upper `nl` layers. -/
def columnTotal (nl : ℕ) (m : ℕ → Fin nf → K) (f : Fin nf) : K := ∑ k ∈ range nl, m k f

/-- Share of fraction `f` in a mixture. -/
def share (g : Fin nf → K) (f : Fin nf) : K := g f / ∑ j, g j

/-- What a pickup must satisfy to be compatible with the bed below it: non-negative masses, no
fraction picks up more than the top layer holds, the net exchange does not exceed the mass of any
layer, and net deposition is less than the mass of the top layer. -/
structure Admissible (nl : ℕ) (m : ℕ → Fin nf → K) (pickup : Fin nf → K) : Prop where
  layers : 0 < nl
  nonneg : ∀ k < nl, ∀ f, 0 ≤ m k f
  available : ∀ f, pickup f ≤ m 0 f
  exchange : ∀ k < nl, |∑ f, pickup f| ≤ layerTotal m k
  single : ∑ f, pickup f < 0 → -∑ f, pickup f < layerTotal m 0

end Aeolis.Spec
