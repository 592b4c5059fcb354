import Verif.Proofs.Transport
import Verif.Spec.Transport

/-!
Acceleration factor, memory and grain speed: C54, C82.
-/

set_option linter.unusedSectionVars false

namespace Aeolis.Props

open Aeolis.Transport Aeolis.Spec XR

/-! ### C54 -/

/-- C54: with transport on, the capacities of a step do not depend on those of the previous step, and
they are proportional to the acceleration factor. -/
theorem C54_proportional (p : Params) (hon : p.processTransport = true) (d : ℝ) (w : Wind)
    (duran : Speed) (th : Thresholds) (old old' r r' : Conc)
    (hr : equilibrium p d w duran th old = .ok r)
    (hr' : equilibrium { p with accfac := 1 } d w duran th old' = .ok r') :
    r.Cu = r'.Cu * fin p.accfac ∧ r.Cuf = r'.Cuf * fin p.accfac := by
  unfold equilibrium at hr hr'
  simp only [hon, if_true] at hr hr'
  have hg : grainspeed { p with accfac := 1, processTransport := true } w duran = grainspeed p w duran := rfl
  rw [hg] at hr'
  split at hr
  · exact absurd hr (by simp)
  · rename_i s hs
    simp only [hs] at hr'
    have hf : formulation { p with accfac := 1, processTransport := true } d s.u w th = formulation p d s.u w th := rfl
    rw [hf] at hr'
    split at hr
    · exact absurd hr (by simp)
    · rename_i a b c hfo
      simp only [hfo] at hr'
      split_ifs at hr hr' <;>
        (simp only [Except.ok.injEq] at hr hr'; rw [← hr, ← hr']; exact ⟨by simp [mul_one'], by simp [mul_one']⟩)

/-- `n` steps of the model with the same wind and thresholds. -/
noncomputable def steps (p : Params) (d : ℝ) (w : Wind) (duran : Speed) (th : Thresholds) (old : Conc) :
    ℕ → Except PyErr Conc
  | 0 => .ok old
  | n + 1 =>
    match steps p d w duran th old n with
    | .error e => .error e
    | .ok c => equilibrium p d w duran th c

/-- C54: with transport off (a constant concentration, say) every step multiplies all three
capacities by the acceleration factor: after `n` steps they are `accfac ^ n` times the initial ones. -/
theorem C54_off_compounds (p : Params) (hoff : p.processTransport = false) (ha : 0 < p.accfac) (d : ℝ)
    (w : Wind) (duran : Speed) (th : Thresholds) (old : Conc) (n : ℕ) :
    steps p d w duran th old n =
      .ok ⟨old.Cu * fin (p.accfac ^ n), old.Cuf * fin (p.accfac ^ n), old.Cu0 * fin (p.accfac ^ n)⟩ := by
  induction n with
  | zero => simp [steps, mul_one']
  | succ n ih =>
    have hpow : 0 < p.accfac ^ n := pow_pos ha n
    simp only [steps, ih, equilibrium, hoff, Bool.false_eq_true, if_false, mul_assoc_pos _ hpow ha,
      pow_succ]

/-- The methods that do not assign the grain size based capacity (`Cu0`). -/
def methodsWithoutCu0 : List String := ["kawamura", "lettau"]

/-- C54: the capacity that depends on grain size only (`Cu0`) is not fresh in every step: in calm cells,
and everywhere with `kawamura` and `lettau`, it is `accfac ^ n` times the initial one after `n` steps. -/
theorem C54_cu0_compounds (p : Params) (hon : p.processTransport = true) (ha : 0 < p.accfac) (d : ℝ)
    (w : Wind) (duran : Speed) (th : Thresholds) (old : Conc)
    (h : w.ustar = 0 ∨ lower p.methodTransport ∈ methodsWithoutCu0) (n : ℕ) (r : Conc)
    (hr : steps p d w duran th old n = .ok r) : r.Cu0 = old.Cu0 * fin (p.accfac ^ n) := by
  induction n generalizing r with
  | zero => simp only [steps, Except.ok.injEq] at hr; rw [← hr]; simp [mul_one']
  | succ n ih =>
    have hpow : 0 < p.accfac ^ n := pow_pos ha n
    simp only [steps] at hr
    split at hr
    · exact absurd hr (by simp)
    · rename_i c hc
      have hi := ih c hc
      unfold equilibrium at hr
      simp only [hon, if_true] at hr
      split at hr
      · exact absurd hr (by simp)
      · rename_i s hs
        split at hr
        · exact absurd hr (by simp)
        · rename_i a b x hf
          rw [pow_succ, ← mul_assoc_pos _ hpow ha, ← hi]
          split_ifs at hr with hcalm
          · simp only [Except.ok.injEq] at hr
            rw [← hr]
            have hx : x = none := by
              rcases h with h | h
              · exact absurd h hcalm.1
              · unfold formulation at hf
                simp only [methodsWithoutCu0, List.mem_cons, List.not_mem_nil, or_false] at h
                rcases h with h | h <;> simp only [h] at hf
                · rw [if_neg (by decide), if_neg (by decide), if_pos trivial] at hf
                  simp only [Except.ok.injEq, Prod.mk.injEq] at hf
                  exact hf.2.2.symm
                · rw [if_neg (by decide), if_neg (by decide), if_neg (by decide), if_pos trivial] at hf
                  simp only [Except.ok.injEq, Prod.mk.injEq] at hf
                  exact hf.2.2.symm
            rw [hx]
            rfl
          · simp only [Except.ok.injEq] at hr
            rw [← hr]

/-- Three calm steps with acceleration factor 2 give an eightfold `Cu0`. -/
example : ∃ r, steps ⟨true, "bagnold", "windspeed", 1.5, 2.78, 6.7, 5, 1.225, 9.81, 2, false⟩ 0.00025
      ⟨0, 0, 0, 0, 0, 0, 0⟩ ⟨1, 1, 0⟩ ⟨fin 0.2, fin 0.2, fin 0.2⟩ ⟨fin 0, fin 0, fin 1⟩ 3 = .ok r ∧
    r.Cu0 = fin 8 := by
  have hl : lower "bagnold" = "bagnold" := by decide
  refine ⟨⟨fin 0, fin 0, fin 8⟩, ?_, rfl⟩
  simp [steps, equilibrium, grainspeed, formulation, hl]
  norm_num

/-! ### C82 -/

/-- C82: the constant grain speed is a unit vector along the shear velocity wherever there is shear,
along the wind where there is wind without shear, and zero in calm cells. -/
theorem C82_constant_speed (w : Wind) (hs : w.ustar ^ 2 = w.ustars ^ 2 + w.ustarn ^ 2)
    (hw : w.uw ^ 2 = w.uws ^ 2 + w.uwn ^ 2) :
    (w.ustar ≠ 0 → (constantGrainspeed w).u = 1 ∧
      (constantGrainspeed w).us * w.ustar = w.ustars ∧
      (constantGrainspeed w).un * w.ustar = w.ustarn) ∧
    (w.ustar = 0 → w.uw ≠ 0 → (constantGrainspeed w).u = 1 ∧
      (constantGrainspeed w).us * w.uw = w.uws ∧ (constantGrainspeed w).un * w.uw = w.uwn) ∧
    (w.ustar = 0 → w.uw = 0 → constantGrainspeed w = ⟨0, 0, 0⟩) := by
  refine ⟨?_, ?_, ?_⟩
  · intro h
    simp only [constantGrainspeed, h, ne_eq, not_false_eq_true, if_true, false_and, if_false, one_mul]
    refine ⟨?_, div_mul_cancel₀ _ h, div_mul_cancel₀ _ h⟩
    rw [div_pow, div_pow, ← add_div, ← hs, div_self (pow_ne_zero 2 h), Real.sqrt_one]
  · intro h h'
    simp only [constantGrainspeed, h, h', ne_eq, not_true, not_false_eq_true, if_true, if_false, one_mul,
      and_self]
    refine ⟨?_, div_mul_cancel₀ _ h', div_mul_cancel₀ _ h'⟩
    rw [div_pow, div_pow, ← add_div, ← hw, div_self (pow_ne_zero 2 h'), Real.sqrt_one]
  · intro h h'
    simp [constantGrainspeed, h, h']

/-- C82: whatever the method, transport equations never divide by a zero speed: a cell with zero grain
speed or zero shear gets zero capacity, whatever the thresholds (even not-a-number) are. -/
theorem C82_calm (p : Params) (hon : p.processTransport = true) (d : ℝ) (w : Wind) (duran s : Speed)
    (th : Thresholds) (old r : Conc) (hs : grainspeed p w duran = .ok s)
    (hcalm : w.ustar = 0 ∨ s.u = 0) (hr : equilibrium p d w duran th old = .ok r) :
    r.Cu = fin 0 ∧ r.Cuf = fin 0 := by
  unfold equilibrium at hr
  simp only [hon, if_true, hs] at hr
  split at hr
  · exact absurd hr (by simp)
  · rw [if_neg (by rintro ⟨h1, h2⟩; exact hcalm.elim h1 h2)] at hr
    simp only [Except.ok.injEq] at hr
    rw [← hr]; simp

/-- A wind with a 3-4-5 shear velocity. -/
example : (constantGrainspeed ⟨10, 6, 8, 5, 3, 4, 5⟩).u = 1 ∧
    (constantGrainspeed ⟨10, 6, 8, 5, 3, 4, 5⟩).us = 3 / 5 := by
  have h := (C82_constant_speed ⟨10, 6, 8, 5, 3, 4, 5⟩ (by norm_num) (by norm_num)).1 (by norm_num)
  refine ⟨h.1, ?_⟩
  have := h.2.1
  simp only at this
  linarith

/-- C82: the speed of the grains by the three methods: the wind speed, the unit vector along the shear velocity, or that of Durán; other names
are refused with a `NameError`. -/
theorem C82_methods (p : Params) (w : Wind) (duran : Speed) :
    (p.methodGrainspeed = "windspeed" → grainspeed p w duran = .ok ⟨w.uw, w.uws, w.uwn⟩) ∧
    (p.methodGrainspeed = "constant" → grainspeed p w duran = .ok (constantGrainspeed w)) ∧
    (p.methodGrainspeed = "duran" → grainspeed p w duran = .ok duran) ∧
    (∀ e, grainspeed p w duran = .error e ↔ p.methodGrainspeed ∉ ["windspeed", "constant", "duran"] ∧ e = .nameError) := by
  unfold grainspeed
  refine ⟨fun h => by simp [h], fun h => by simp [h], fun h => by simp [h], fun e => ?_⟩
  by_cases h1 : p.methodGrainspeed = "duran"
  · simp [h1]
  by_cases h2 : p.methodGrainspeed = "windspeed"
  · simp [h2]
  by_cases h3 : p.methodGrainspeed = "constant"
  · simp [h3]
  · simp [h1, h2, h3, eq_comm]

end Aeolis.Props
