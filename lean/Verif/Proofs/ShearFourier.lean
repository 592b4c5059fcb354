import Verif.Model.Shear
import Mathlib.Algebra.Field.GeomSum
import Mathlib.Algebra.BigOperators.Group.Finset.Sigma
import Mathlib.Tactic.Ring
import Mathlib.Tactic.Linarith
import Mathlib.Tactic.Positivity
import Mathlib.Tactic.FieldSimp

/-! Helper lemmas on the spectral computation of the stress perturbation. -/

set_option linter.unusedSectionVars false

namespace Aeolis.Shear

noncomputable section

open Classical

/-- Phase factor of wave `(q, p)` over a distance of `a` rows and `b` columns. -/
def phase (R C : ℕ) (q p : ℕ) (a b : ℤ) : ℂ :=
  Complex.exp (2 * Real.pi * Complex.I * ((q * a : ℂ) / R + (p * b : ℂ) / C))

/-- Response at distance `(a, b)` to a unit bed level in one cell. -/
def kernel (R C : ℕ) (T : ℕ → ℕ → ℂ) (a b : ℤ) : ℝ :=
  ((∑ q ∈ Finset.range R, ∑ p ∈ Finset.range C, T q p * phase R C q p a b) / (R * C)).re

theorem phase_add (R C q p : ℕ) (a b a' b' : ℤ) :
    phase R C q p (a + a') (b + b') = phase R C q p a b * phase R C q p a' b' := by
  unfold phase
  rw [← Complex.exp_add]
  congr 1
  push_cast
  ring

/-- Exchange of two double sums. -/
theorem sum_four {M : Type*} [AddCommMonoid M] (A B A' B' : Finset ℕ) (f : ℕ → ℕ → ℕ → ℕ → M) :
    ∑ q ∈ A, ∑ p ∈ B, ∑ j ∈ A', ∑ i ∈ B', f q p j i = ∑ j ∈ A', ∑ i ∈ B', ∑ q ∈ A, ∑ p ∈ B, f q p j i := by
  have h1 : ∀ q, ∑ p ∈ B, ∑ j ∈ A', ∑ i ∈ B', f q p j i = ∑ j ∈ A', ∑ i ∈ B', ∑ p ∈ B, f q p j i := by
    intro q
    rw [Finset.sum_comm]
    exact Finset.sum_congr rfl fun j _ => Finset.sum_comm
  simp only [h1]
  rw [Finset.sum_comm]
  exact Finset.sum_congr rfl fun j _ => Finset.sum_comm

/-- The spectral computation is a convolution with the kernel. -/
theorem response_eq_kernel (R C : ℕ) (T : ℕ → ℕ → ℂ) (z : ℕ → ℕ → ℝ) (j i : ℕ) :
    response R C T z j i = ∑ j' ∈ Finset.range R, ∑ i' ∈ Finset.range C, z j' i' * kernel R C T ((j : ℤ) - j') ((i : ℤ) - i') := by
  have hc : ifft2 R C (fun q p => fft2 R C (fun j i => (z j i : ℂ)) q p * T q p) j i =
      ∑ j' ∈ Finset.range R, ∑ i' ∈ Finset.range C, (z j' i' : ℂ) *
        ((∑ q ∈ Finset.range R, ∑ p ∈ Finset.range C, T q p * phase R C q p ((j : ℤ) - j') ((i : ℤ) - i')) / (R * C)) := by
    unfold ifft2 fft2
    simp only [Finset.sum_mul, Finset.mul_sum, Finset.sum_div]
    -- bring the sums into the same order
    have e1 : ∀ q p : ℕ, (∑ j' ∈ Finset.range R, ∑ i' ∈ Finset.range C,
        (z j' i' : ℂ) * Complex.exp (-(2 * Real.pi * Complex.I * ((q * j' : ℂ) / R + (p * i' : ℂ) / C))) * T q p *
          Complex.exp (2 * Real.pi * Complex.I * ((q * j : ℂ) / R + (p * i : ℂ) / C)) / (R * C)) =
        ∑ j' ∈ Finset.range R, ∑ i' ∈ Finset.range C,
          (z j' i' : ℂ) * (T q p * phase R C q p ((j : ℤ) - j') ((i : ℤ) - i') / (R * C)) := by
      intro q p
      refine Finset.sum_congr rfl fun j' _ => Finset.sum_congr rfl fun i' _ => ?_
      have : phase R C q p ((j : ℤ) - j') ((i : ℤ) - i') =
          Complex.exp (-(2 * Real.pi * Complex.I * ((q * j' : ℂ) / R + (p * i' : ℂ) / C))) *
            Complex.exp (2 * Real.pi * Complex.I * ((q * j : ℂ) / R + (p * i : ℂ) / C)) := by
        unfold phase
        rw [← Complex.exp_add]
        congr 1
        push_cast
        ring
      rw [this]
      ring
    simp only [e1]
    exact sum_four _ _ _ _ _
  unfold response
  rw [hc, Complex.re_sum]
  refine Finset.sum_congr rfl fun j' _ => ?_
  rw [Complex.re_sum]
  refine Finset.sum_congr rfl fun i' _ => ?_
  rw [Complex.re_ofReal_mul]
  rfl

theorem exp_int (n : ℤ) : Complex.exp (2 * Real.pi * Complex.I * n) = 1 := by
  rw [Complex.exp_eq_one_iff]
  exact ⟨n, by ring⟩

theorem phase_period (R C q p : ℕ) (hR : 0 < R) (hC : 0 < C) (a b m n : ℤ) :
    phase R C q p (a + m * R) (b + n * C) = phase R C q p a b := by
  rw [phase_add]
  have : phase R C q p (m * R) (n * C) = 1 := by
    unfold phase
    have hR' : (R : ℂ) ≠ 0 := by exact_mod_cast hR.ne'
    have hC' : (C : ℂ) ≠ 0 := by exact_mod_cast hC.ne'
    rw [← exp_int (q * m + p * n)]
    congr 1
    push_cast
    field_simp
  rw [this, mul_one]

theorem kernel_period (R C : ℕ) (hR : 0 < R) (hC : 0 < C) (T : ℕ → ℕ → ℂ) (a b m n : ℤ) :
    kernel R C T (a + m * R) (b + n * C) = kernel R C T a b := by
  unfold kernel
  simp only [phase_period R C _ _ hR hC]

theorem kernel_congr (R C : ℕ) (hR : 0 < R) (hC : 0 < C) (T : ℕ → ℕ → ℂ) (a b a' b' : ℤ) (ha : (R : ℤ) ∣ a - a')
    (hb : (C : ℤ) ∣ b - b') : kernel R C T a b = kernel R C T a' b' := by
  obtain ⟨m, hm⟩ := ha
  obtain ⟨n, hn⟩ := hb
  rw [show a = a' + m * R by linarith [mul_comm m (R : ℤ)], show b = b' + n * C by linarith [mul_comm n (C : ℤ)],
    kernel_period R C hR hC]

/-- A cyclic shift only changes the order of the terms of a sum. -/
theorem sum_shift (n a : ℕ) (hn : 0 < n) (f : ℕ → ℝ) :
    ∑ i ∈ Finset.range n, f ((i + a) % n) = ∑ i ∈ Finset.range n, f i := by
  refine Finset.sum_nbij (fun i => (i + a) % n) ?_ ?_ ?_ (fun _ _ => rfl)
  · intro i _
    simpa using Nat.mod_lt _ hn
  · intro i hi k hk h
    simp only [Finset.coe_range, Set.mem_Iio] at hi hk
    have h : (i + a) ≡ (k + a) [MOD n] := h
    have h := Nat.ModEq.add_right_cancel' a h
    rwa [Nat.ModEq, Nat.mod_eq_of_lt hi, Nat.mod_eq_of_lt hk] at h
  · intro k hk
    simp only [Finset.coe_range, Set.mem_Iio] at hk
    refine ⟨(k + (n - a % n)) % n, by simpa using Nat.mod_lt _ hn, ?_⟩
    show ((k + (n - a % n)) % n + a) % n = k
    have ha : a % n < n := Nat.mod_lt _ hn
    rw [Nat.mod_add_mod]
    have : k + (n - a % n) + a = k + n * (1 + a / n) := by
      have := Nat.div_add_mod a n
      have h2 : n * (1 + a / n) = n + n * (a / n) := by ring
      omega
    rw [this, Nat.add_mul_mod_self_left, Nat.mod_eq_of_lt hk]

/-- Sum of the phase factors over a row or column: zero unless the wave is constant. -/
theorem sum_phase (n q : ℕ) (hn : 0 < n) (hq : q < n) :
    ∑ j ∈ Finset.range n, Complex.exp (-(2 * Real.pi * Complex.I * ((q * j : ℂ) / n))) = if q = 0 then (n : ℂ) else 0 := by
  have hn' : (n : ℂ) ≠ 0 := by exact_mod_cast hn.ne'
  split_ifs with h
  · subst h
    simp
  · obtain ⟨ζ, hζ⟩ : ∃ ζ, ζ = Complex.exp (-(2 * Real.pi * Complex.I * ((q : ℂ) / n))) := ⟨_, rfl⟩
    have hpow : ∀ j : ℕ, Complex.exp (-(2 * Real.pi * Complex.I * ((q * j : ℂ) / n))) = ζ ^ j := by
      intro j
      rw [hζ, ← Complex.exp_nat_mul]
      congr 1
      ring
    simp only [hpow]
    have hone : ζ ^ n = 1 := by
      rw [hζ, ← Complex.exp_nat_mul, ← exp_int (-q)]
      congr 1
      push_cast
      field_simp
    have hne : ζ ≠ 1 := by
      intro h1
      rw [hζ, Complex.exp_eq_one_iff] at h1
      obtain ⟨m, hm⟩ := h1
      have hpi : (2 * Real.pi * Complex.I : ℂ) ≠ 0 := Complex.two_pi_I_ne_zero
      have h2 : (2 * Real.pi * Complex.I : ℂ) * (-((q : ℂ) / n)) = 2 * Real.pi * Complex.I * m := by
        rw [mul_comm (2 * Real.pi * Complex.I : ℂ) (m : ℂ), ← hm]; ring
      have h3 := mul_left_cancel₀ hpi h2
      have h4 : (q : ℂ) = -(m * n) := by
        field_simp at h3
        linear_combination -h3
      have h5 : (q : ℤ) = -(m * n) := by exact_mod_cast h4
      have h6 : (n : ℤ) ∣ q := ⟨-m, by rw [h5]; ring⟩
      have h7 : n ∣ q := by exact_mod_cast h6
      exact h (Nat.eq_zero_of_dvd_of_lt h7 hq)
    have hsum := mul_geom_sum ζ n
    rw [hone, sub_self] at hsum
    exact (mul_eq_zero.mp hsum).resolve_left (sub_ne_zero.mpr hne)

/-- Spectrum of a constant. -/
theorem fft2_const (R C : ℕ) (hR : 0 < R) (hC : 0 < C) (h : ℂ) (q p : ℕ) (hq : q < R) (hp : p < C) :
    fft2 R C (fun _ _ => h) q p = if q = 0 ∧ p = 0 then h * (R * C) else 0 := by
  unfold fft2
  have e : ∀ j i : ℕ, h * Complex.exp (-(2 * Real.pi * Complex.I * ((q * j : ℂ) / R + (p * i : ℂ) / C))) =
      h * Complex.exp (-(2 * Real.pi * Complex.I * ((q * j : ℂ) / R))) *
        Complex.exp (-(2 * Real.pi * Complex.I * ((p * i : ℂ) / C))) := by
    intro j i
    rw [mul_assoc h, ← Complex.exp_add]
    congr 2
    ring
  simp only [e, ← Finset.mul_sum, sum_phase C p hC hp]
  rw [← Finset.sum_mul, ← Finset.mul_sum, sum_phase R q hR hq]
  by_cases h1 : q = 0 <;> by_cases h2 : p = 0 <;> simp [h1, h2]
  ring

theorem response_add (R C : ℕ) (T : ℕ → ℕ → ℂ) (z w : ℕ → ℕ → ℝ) (a b : ℝ) (j i : ℕ) :
    response R C T (fun j i => a * z j i + b * w j i) j i = a * response R C T z j i + b * response R C T w j i := by
  simp only [response_eq_kernel, Finset.mul_sum, ← Finset.sum_add_distrib]
  refine Finset.sum_congr rfl fun j' _ => Finset.sum_congr rfl fun i' _ => ?_
  ring

/-- Response to a constant bed level. -/
theorem response_const (R C : ℕ) (hR : 0 < R) (hC : 0 < C) (T : ℕ → ℕ → ℂ) (h : ℝ) (j i : ℕ) :
    response R C T (fun _ _ => h) j i = h * (T 0 0).re := by
  unfold response ifft2
  have hR' : (R : ℂ) ≠ 0 := by exact_mod_cast hR.ne'
  have hC' : (C : ℂ) ≠ 0 := by exact_mod_cast hC.ne'
  have e : (∑ q ∈ Finset.range R, ∑ p ∈ Finset.range C,
      fft2 R C (fun _ _ => (h : ℂ)) q p * T q p *
        Complex.exp (2 * Real.pi * Complex.I * ((q * j : ℂ) / R + (p * i : ℂ) / C))) = h * (R * C) * T 0 0 := by
    rw [Finset.sum_eq_single 0]
    · rw [Finset.sum_eq_single 0]
      · rw [fft2_const R C hR hC _ 0 0 hR hC]; simp
      · intro p hp hp0
        rw [fft2_const R C hR hC _ 0 p hR (Finset.mem_range.mp hp)]; simp [hp0]
      · intro h0; exact absurd (Finset.mem_range.mpr hC) h0
    · intro q hq hq0
      refine Finset.sum_eq_zero fun p hp => ?_
      rw [fft2_const R C hR hC _ q p (Finset.mem_range.mp hq) (Finset.mem_range.mp hp)]; simp [hq0]
    · intro h0; exact absurd (Finset.mem_range.mpr hR) h0
  rw [e, show (h : ℂ) * (R * C) * T 0 0 / (R * C) = h * T 0 0 by field_simp, Complex.re_ofReal_mul]

end

end Aeolis.Shear
