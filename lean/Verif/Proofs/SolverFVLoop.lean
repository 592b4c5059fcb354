import Verif.Proofs.SolverFVNonneg
import Verif.Proofs.Solver

/-! The iteration of the finite-volume solvers. -/

set_option linter.unusedSectionVars false

namespace Aeolis.Solver

open Finset

variable {K : Type*} [Field K] [LinearOrder K] [IsStrictOrderedRing K] {ι : Type*} [Fintype ι]

theorem fvConcentrations_nonneg (f : FracIn K ι) (C dC : ι → K) (h : ∀ c, 0 ≤ C c + dC c) :
    ∀ c, 0 ≤ fvConcentrations f C dC c := by
  refine removeNegatives_nonneg _ (sum_nonneg fun c _ => ?_)
  unfold preventTinyNegatives
  split
  · exact le_rfl
  · exact h c

theorem fvLoop_facts (f : FracIn K ι) (lin : (ι → K) → (ι → K) → ι → K) (n : ℕ) (C w : ι → K)
    (r : FracOut K ι) (hr : fvLoop f lin n C w = .ok r) (hT : 0 < f.T) (hdt : 0 < f.dt)
    (he : 0 ≤ f.maxError) (hCu : ∀ c, 0 ≤ f.Cu c) (hm : ∀ c, 0 ≤ f.mass c)
    (hlin : ∀ C w, (∀ c, 0 ≤ C c) → (∀ c, 0 ≤ w c) → ∀ c, 0 ≤ C c + lin C w c)
    (hC : ∀ c, 0 ≤ C c) (hw : ∀ c, 0 ≤ w c) :
    (∀ c, 0 ≤ r.w c ∧ r.w c ≤ w c ∧ 0 ≤ r.Ct c) ∧
    (r.conv = true → ∀ c, r.pickup c ≤ f.mass c + f.maxError ∧
      r.pickup c = (r.w c * f.Cu c - r.Ct c) / f.T * f.dt) ∧
    (r.conv = false → ∃ c, f.mass c + f.maxError < r.pickup c) := by
  induction n generalizing C w with
  | zero => simp [fvLoop] at hr
  | succ n ih =>
    have hc := fvConcentrations_nonneg f C (lin C w) (hlin C w hC hw)
    unfold fvLoop at hr
    simp only at hr
    set Ct := fvConcentrations f C (lin C w) with hCt
    have e1 := fun c => correct_le f Ct w c hT hdt he (hCu c)
    have e2 := fun c => correct_nonneg f Ct w c hT hdt (hm c) (hc c) (hCu c) (hw c)
    split at hr
    · rename_i hex
      split at hr
      · cases hr
        refine ⟨fun c => ⟨e2 c, e1 c, hc c⟩, fun h => by simp at h, fun _ => ?_⟩
        obtain ⟨c, hd⟩ := hex
        exact ⟨c, by linarith [hd.1]⟩
      · obtain ⟨i1, i2, i3⟩ := ih Ct (correctWeights f Ct w) hr hc e2
        exact ⟨fun c => ⟨(i1 c).1, le_trans (i1 c).2.1 (e1 c), (i1 c).2.2⟩, i2, i3⟩
    · rename_i hex
      cases hr
      refine ⟨fun c => ⟨hw c, le_rfl, hc c⟩, fun _ c => ⟨?_, rfl⟩, fun h => by simp at h⟩
      by_cases hp : 0 < w c * f.Cu c
      · by_contra hlt
        push Not at hlt
        exact hex ⟨c, by linarith, hp⟩
      · have hz : w c * f.Cu c - Ct c ≤ 0 := by linarith [hc c]
        have : pickupOf f Ct w c ≤ 0 := by
          unfold pickupOf
          exact mul_nonpos_of_nonpos_of_nonneg (div_nonpos_of_nonpos_of_nonneg hz hT.le) hdt.le
        linarith [hm c]

theorem fvLoop_total (f : FracIn K ι) (lin : (ι → K) → (ι → K) → ι → K) (n : ℕ) (C w : ι → K) :
    ∃ r, fvLoop f lin (n + 1) C w = .ok r := by
  induction n generalizing C w with
  | zero => unfold fvLoop; simp only; split <;> simp
  | succ n ih =>
    unfold fvLoop
    simp only
    split
    · simp only [Nat.add_eq_zero_iff, one_ne_zero, and_false, if_false]; exact ih _ _
    · exact ⟨_, rfl⟩

end Aeolis.Solver
