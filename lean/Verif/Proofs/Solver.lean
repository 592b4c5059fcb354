import Verif.Model.Solver
import Verif.Proofs.Utils
import Mathlib.Tactic.Linarith
import Mathlib.Tactic.FieldSimp
import Mathlib.Tactic.Ring
import Mathlib.Tactic.Positivity
import Mathlib.Tactic.NormNum
import Mathlib.Algebra.BigOperators.Field
import Mathlib.Algebra.Order.BigOperators.Group.Finset

set_option linter.unusedSectionVars false

namespace Aeolis

open Finset

variable {K : Type*} [Field K] [LinearOrder K] [IsStrictOrderedRing K] {nf : ℕ}

theorem weightsAir_nonneg (Ct Cu : Fin nf → K) (hC : ∀ k, 0 ≤ Ct k) (hU : ∀ k, 0 ≤ Cu k)
    (k : Fin nf) : 0 ≤ weightsAir Ct Cu k := by
  unfold weightsAir normalizeRef
  split
  · exact div_nonneg (hC k) (hU k)
  · exact le_rfl

/-- Sum over the fractions split at `ix`. -/
theorem sum_split (ix : ℕ) (w : Fin nf → K) :
    (∑ l : Fin nf, if (l : ℕ) < ix then w l else 0) + (∑ l : Fin nf, if ix ≤ (l : ℕ) then w l else 0)
      = ∑ l, w l := by
  rw [← sum_add_distrib]
  refine sum_congr rfl fun l _ => ?_
  by_cases h : (l : ℕ) < ix
  · rw [if_pos h, if_neg (not_le.mpr h), add_zero]
  · rw [if_neg h, if_pos (not_lt.mp h), zero_add]

/-- The array inside `renormalizeWeights` before the last normalisation. -/
def renormRaw (ix : ℕ) (w : Fin nf → K) : Fin nf → K := fun k =>
  if ix ≤ (k : ℕ) then normalizeTail ix w k * (1 - ∑ l : Fin nf, if (l : ℕ) < ix then w l else 0)
  else w k

theorem renormalizeWeights_eq (ix : ℕ) (w : Fin nf → K) :
    renormalizeWeights ix w = normalize (1 / (nf : K)) (renormRaw ix w) := rfl

theorem sum_renormRaw (ix : ℕ) (w : Fin nf → K)
    (h : (∑ l : Fin nf, if ix ≤ (l : ℕ) then w l else 0) ≠ 0) : ∑ k, renormRaw ix w k = 1 := by
  rw [← sum_split ix]
  have h1 : (∑ l : Fin nf, if (l : ℕ) < ix then renormRaw ix w l else 0)
      = ∑ l : Fin nf, if (l : ℕ) < ix then w l else 0 := by
    refine sum_congr rfl fun l _ => ?_
    split
    · rename_i hl; unfold renormRaw; rw [if_neg (not_le.mpr hl)]
    · rfl
  have h2 : (∑ l : Fin nf, if ix ≤ (l : ℕ) then renormRaw ix w l else 0)
      = 1 - ∑ l : Fin nf, if (l : ℕ) < ix then w l else 0 := by
    have : ∀ l : Fin nf, (if ix ≤ (l : ℕ) then renormRaw ix w l else 0)
        = (if ix ≤ (l : ℕ) then w l else 0) *
          ((1 - ∑ l : Fin nf, if (l : ℕ) < ix then w l else 0) /
            ∑ l : Fin nf, if ix ≤ (l : ℕ) then w l else 0) := by
      intro l
      split
      · rename_i hl
        unfold renormRaw normalizeTail
        rw [if_pos hl]
        simp only
        rw [if_pos h]
        ring
      · rw [zero_mul]
    rw [sum_congr rfl fun l _ => this l, ← sum_mul]
    field_simp
  rw [h1, h2]
  ring

theorem normalize_of_sum_one (fill : K) (x : Fin nf → K) (h : ∑ k, x k = 1) :
    normalize fill x = x := by
  funext k
  unfold normalize
  rw [h]; simp

theorem renormalize_eq_raw (ix : ℕ) (w : Fin nf → K)
    (h : (∑ l : Fin nf, if ix ≤ (l : ℕ) then w l else 0) ≠ 0) :
    renormalizeWeights ix w = renormRaw ix w := by
  rw [renormalizeWeights_eq]; exact normalize_of_sum_one _ _ (sum_renormRaw ix w h)

theorem normalize_sum_fill (x : Fin nf → K) (hn : 0 < nf) :
    ∑ k, normalize (1 / (nf : K)) x k = 1 := by
  by_cases h : (∑ j, x j) = 0
  · have : ∀ k, normalize (1 / (nf : K)) x k = 1 / (nf : K) := normalize_zero _ x h
    have hn' : (nf : K) ≠ 0 := by exact_mod_cast hn.ne'
    rw [sum_congr rfl fun k _ => this k]
    simp [hn']
  · exact normalize_sum _ x h

theorem renormRaw_nonneg (ix : ℕ) (w : Fin nf → K) (h0 : ∀ k, 0 ≤ w k)
    (h1 : (∑ l : Fin nf, if (l : ℕ) < ix then w l else 0) ≤ 1) (k : Fin nf) :
    0 ≤ renormRaw ix w k := by
  unfold renormRaw normalizeTail
  split
  · refine mul_nonneg ?_ (by linarith)
    simp only
    split
    · refine div_nonneg (h0 k) (sum_nonneg fun l _ => ?_)
      split
      · exact h0 l
      · exact le_rfl
    · exact le_rfl
  · exact h0 k

theorem normalize_nonneg_fill (fill : K) (hf : 0 ≤ fill) (x : Fin nf → K) (h : ∀ k, 0 ≤ x k)
    (k : Fin nf) : 0 ≤ normalize fill x k := by
  unfold normalize
  split
  · exact div_nonneg (h k) (sum_nonneg fun l _ => h l)
  · exact hf

namespace Solver

variable {ι : Type*} [Fintype ι]

theorem removeNegatives_facts (Ct : ι → K) :
    (∑ c, if Ct c < 0 then Ct c else 0) + (∑ c, if Ct c < 0 then 0 else Ct c) = ∑ c, Ct c ∧
    (∑ c, if Ct c < 0 then Ct c else 0) ≤ 0 ∧ 0 ≤ ∑ c, if Ct c < 0 then 0 else Ct c := by
  refine ⟨?_, ?_, ?_⟩
  · rw [← sum_add_distrib]
    refine sum_congr rfl fun c _ => ?_
    split <;> simp
  · refine sum_nonpos fun c _ => ?_
    split
    · rename_i h; exact h.le
    · exact le_rfl
  · refine sum_nonneg fun c _ => ?_
    split
    · exact le_rfl
    · rename_i h; exact not_lt.mp h

theorem sum_removeNegatives (Ct : ι → K) (h : 0 ≤ ∑ c, Ct c) :
    ∑ c, removeNegatives Ct c = ∑ c, Ct c := by
  unfold removeNegatives
  split
  · rename_i hex
    obtain ⟨c0, hc0⟩ := hex
    obtain ⟨h1, h2, h3⟩ := removeNegatives_facts Ct
    set neg := ∑ c, if Ct c < 0 then Ct c else 0
    set pos := ∑ c, if Ct c < 0 then 0 else Ct c
    have hneg : neg < 0 := by
      refine sum_neg' (fun c _ => ?_) ⟨c0, mem_univ _, ?_⟩
      · split
        · rename_i h; exact h.le
        · exact le_rfl
      · rw [if_pos hc0]; exact hc0
    have hpos : pos ≠ 0 := by
      intro h0; rw [h0] at h1; linarith
    have : ∀ c, (if Ct c < 0 then 0 else if pos ≠ 0 then Ct c * (1 + neg / pos) else 0)
        = (if Ct c < 0 then 0 else Ct c) * (1 + neg / pos) := by
      intro c
      split
      · rw [zero_mul]
      · first | rfl | rw [if_pos hpos]
    simp only [this]
    rw [← sum_mul]
    change pos * _ = _
    rw [← h1]
    field_simp
    ring
  · rfl

theorem removeNegatives_nonneg (Ct : ι → K) (h : 0 ≤ ∑ c, Ct c) (c : ι) :
    0 ≤ removeNegatives Ct c := by
  unfold removeNegatives
  split
  · obtain ⟨h1, h2, h3⟩ := removeNegatives_facts Ct
    simp only
    split
    · exact le_rfl
    · rename_i hc
      split
      · rename_i hpos
        refine mul_nonneg (not_lt.mp hc) ?_
        have hp := lt_of_le_of_ne h3 (Ne.symm hpos)
        rw [← h1] at h
        have : (1 : K) + (∑ c, if Ct c < 0 then Ct c else 0) / (∑ c, if Ct c < 0 then 0 else Ct c)
            = ((∑ c, if Ct c < 0 then Ct c else 0) + (∑ c, if Ct c < 0 then 0 else Ct c))
              / (∑ c, if Ct c < 0 then 0 else Ct c) := by
          field_simp; ring
        rw [this]
        exact div_nonneg h h3
      · exact le_rfl
  · rename_i hex
    push Not at hex
    exact hex c

/-- In a corrected cell the deficit for the same concentrations is zero. -/
theorem correct_zero_deficit (f : FracIn K ι) (Ct w : ι → K) (c : ι) (hT : f.T ≠ 0) (hdt : f.dt ≠ 0)
    (h : inDeficit f Ct w c) : pickupOf f Ct (correctWeights f Ct w) c = f.mass c := by
  have hCu : f.Cu c ≠ 0 := by
    intro h0; have := h.2; rw [h0] at this; simp at this
  unfold pickupOf correctWeights
  rw [if_pos h]
  field_simp
  ring

theorem correct_lt (f : FracIn K ι) (Ct w : ι → K) (c : ι) (hT : 0 < f.T) (hdt : 0 < f.dt)
    (he : 0 ≤ f.maxError) (hCu : 0 ≤ f.Cu c) (h : inDeficit f Ct w c) :
    correctWeights f Ct w c < w c := by
  have hz := correct_zero_deficit f Ct w c hT.ne' hdt.ne' h
  have hCu' : 0 < f.Cu c := by
    rcases hCu.lt_or_eq with h1 | h1
    · exact h1
    · have := h.2; rw [← h1] at this; simp at this
  have h1 := h.1
  have h2 : pickupOf f Ct (correctWeights f Ct w) c < pickupOf f Ct w c := by rw [hz]; linarith
  unfold pickupOf at h2
  have h3 := lt_of_mul_lt_mul_right h2 hdt.le
  rw [div_lt_div_iff_of_pos_right hT] at h3
  have h4 : correctWeights f Ct w c * f.Cu c < w c * f.Cu c := by linarith
  exact lt_of_mul_lt_mul_right h4 hCu

theorem correct_nonneg (f : FracIn K ι) (Ct w : ι → K) (c : ι) (hT : 0 < f.T) (hdt : 0 < f.dt)
    (hm : 0 ≤ f.mass c) (hC : 0 ≤ Ct c) (hCu : 0 ≤ f.Cu c) (hw : 0 ≤ w c) :
    0 ≤ correctWeights f Ct w c := by
  unfold correctWeights
  split
  · exact div_nonneg (add_nonneg (div_nonneg (mul_nonneg hm hT.le) hdt.le) hC) hCu
  · exact hw

theorem correct_le (f : FracIn K ι) (Ct w : ι → K) (c : ι) (hT : 0 < f.T) (hdt : 0 < f.dt)
    (he : 0 ≤ f.maxError) (hCu : 0 ≤ f.Cu c) : correctWeights f Ct w c ≤ w c := by
  by_cases h : inDeficit f Ct w c
  · exact (correct_lt f Ct w c hT hdt he hCu h).le
  · unfold correctWeights; rw [if_neg h]

/-- Facts about the result of the iteration of one fraction, for any linear solver. -/
theorem fractionLoop_spec (f : FracIn K ι) (lin : (ι → K) → ι → K) (n : ℕ) (w : ι → K)
    (r : FracOut K ι) (hr : fractionLoop f lin n w = .ok r) :
    (r.conv = true → ∀ c, r.pickup c ≤ f.mass c) ∧
    (r.conv = false → ∃ c, f.mass c + f.maxError < r.pickup c) ∧
    (∃ w', r.Ct = concentrations f lin w') ∧
    (r.conv = true → r.Ct = concentrations f lin r.w) := by
  induction n generalizing w with
  | zero => simp [fractionLoop] at hr
  | succ n ih =>
    unfold fractionLoop at hr
    simp only at hr
    split at hr
    · rename_i hex
      split at hr
      · cases hr
        refine ⟨by simp, fun _ => ?_, ⟨w, rfl⟩, by simp⟩
        obtain ⟨c, hc⟩ := hex
        exact ⟨c, by have := hc.1; simp only; linarith⟩
      · exact ih _ hr
    · cases hr
      exact ⟨fun _ c => min_le_right _ _, by simp, ⟨w, rfl⟩, fun _ => rfl⟩

theorem fractionLoop_weights (f : FracIn K ι) (lin : (ι → K) → ι → K) (n : ℕ) (w : ι → K)
    (r : FracOut K ι) (hr : fractionLoop f lin n w = .ok r) (hT : 0 < f.T) (hdt : 0 < f.dt)
    (he : 0 ≤ f.maxError) (hCu : ∀ c, 0 ≤ f.Cu c) (hm : ∀ c, 0 ≤ f.mass c)
    (hC : ∀ w, (∀ c, 0 ≤ w c) → ∀ c, 0 ≤ concentrations f lin w c) (hw : ∀ c, 0 ≤ w c) (c : ι) :
    0 ≤ r.w c ∧ r.w c ≤ w c ∧ 0 ≤ r.Ct c := by
  induction n generalizing w with
  | zero => simp [fractionLoop] at hr
  | succ n ih =>
    unfold fractionLoop at hr
    simp only at hr
    have a := fun c => correct_le f (concentrations f lin w) w c hT hdt he (hCu c)
    have b := fun c => correct_nonneg f (concentrations f lin w) w c hT hdt (hm c) (hC w hw c) (hCu c)
      (hw c)
    split at hr
    · split at hr
      · cases hr
        exact ⟨b c, a c, hC w hw c⟩
      · obtain ⟨h1, h2, h3⟩ := ih _ hr b
        exact ⟨h1, h2.trans (a c), h3⟩
    · cases hr
      exact ⟨hw c, le_rfl, hC w hw c⟩

end Solver

end Aeolis
