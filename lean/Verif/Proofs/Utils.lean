import Verif.Model.Utils
import Verif.Proofs.Tactics

namespace Aeolis

open Finset

section
variable {K : Type*} [Field K] [LinearOrder K] {n : ℕ}

theorem normalize_sum (fill : K) (x : Fin n → K) (h : (∑ j, x j) ≠ 0) :
    ∑ i, normalize fill x i = 1 := by
  simp only [normalize, h, ne_eq, not_false_eq_true, if_true, ← Finset.sum_div]
  exact div_self h

theorem normalize_zero (fill : K) (x : Fin n → K) (h : (∑ j, x j) = 0) (i : Fin n) :
    normalize fill x i = fill := by
  simp [normalize, h]

theorem normalize_mul_sum (fill : K) (x : Fin n → K) (h : (∑ j, x j) ≠ 0) (i : Fin n) :
    normalize fill x i * ∑ j, x j = x i := by
  simp only [normalize, h, ne_eq, not_false_eq_true, if_true]
  exact div_mul_cancel₀ _ h

variable [IsStrictOrderedRing K]

theorem normalize_nonneg (x : Fin n → K) (h : ∀ i, 0 ≤ x i) (i : Fin n) :
    0 ≤ normalize 0 x i := by
  unfold normalize
  split
  · exact div_nonneg (h i) (Finset.sum_nonneg fun j _ => h j)
  · exact le_rfl

/-- `c * normalize x ≤ x` when `c` does not exceed the total. -/
theorem mul_normalize_le (x : Fin n → K) (h : ∀ i, 0 ≤ x i) (c : K) (hc : c ≤ ∑ j, x j)
    (i : Fin n) : c * normalize 0 x i ≤ x i := by
  by_cases hs : (∑ j, x j) = 0
  · rw [normalize_zero _ _ hs]; simpa using h i
  · calc c * normalize 0 x i ≤ (∑ j, x j) * normalize 0 x i :=
          mul_le_mul_of_nonneg_right hc (normalize_nonneg x h i)
      _ = x i := by rw [mul_comm, normalize_mul_sum _ _ hs]

omit [IsStrictOrderedRing K] in
theorem preventTiny_of_nonneg (me x : K) (h : 0 ≤ x) : preventTinyNegatives me 0 x = x := by
  unfold preventTinyNegatives
  rw [if_neg]
  rintro ⟨h1, _⟩
  exact absurd h1 (not_lt.mpr h)

omit [IsStrictOrderedRing K] in
theorem preventTiny_ge (me x : K) : x ≤ preventTinyNegatives me 0 x := by
  unfold preventTinyNegatives
  split
  · next h => exact h.1.le
  · exact le_rfl

end
end Aeolis
