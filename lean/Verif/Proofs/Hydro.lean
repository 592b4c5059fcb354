import Verif.Model.Hydro
import Mathlib.Tactic.Linarith
import Mathlib.Tactic.Positivity
import Mathlib.Tactic.NormNum
import Mathlib.Tactic.SplitIfs
import Mathlib.Analysis.Real.Pi.Bounds

/-! Lemmas on water levels, waves and runup. -/

namespace Aeolis.Hydro

/-- What a successful interpolation consists of. -/
theorem interpolate_ok {c : WaterConfig} {r : Row} {t : ℝ} {w w' : Water}
    (h : interpolate c r t w = .ok w') :
    ∃ SWL Hs Tp Hm, stillWater c r t = .ok SWL ∧ waves c r t SWL = .ok (Hs, Tp) ∧
      mixing c r t (runup c r { w with SWL := SWL, Hs := Hs, Tp := Tp }) = .ok Hm ∧
      w' = { runup c r { w with SWL := SWL, Hs := Hs, Tp := Tp } with
        Hsmix := Hm, zs := fun j => if SWL j < r.zb j then r.zb j else SWL j } := by
  unfold interpolate at h
  match h1 : stillWater c r t with
  | .error e => simp [h1] at h
  | .ok SWL =>
    match h2 : waves c r t SWL with
    | .error e => simp [h1, h2] at h
    | .ok (Hs, Tp) =>
      simp only [h1, h2] at h
      match h3 : mixing c r t (runup c r { w with SWL := SWL, Hs := Hs, Tp := Tp }) with
      | .error e => simp [h3] at h
      | .ok Hm =>
        simp only [h3] at h
        refine ⟨SWL, Hs, Tp, Hm, rfl, h2, h3, ?_⟩
        have hs : (runup c r { w with SWL := SWL, Hs := Hs, Tp := Tp }).SWL = SWL := by
          unfold runup; split_ifs <;> rfl
        rw [← (Except.ok.inj h)]
        simp only [hs]

theorem runup_SWL (c : WaterConfig) (r : Row) (w : Water) : (runup c r w).SWL = w.SWL := by
  unfold runup; split_ifs <;> rfl

theorem runup_Hs (c : WaterConfig) (r : Row) (w : Water) : (runup c r w).Hs = w.Hs := by
  unfold runup; split_ifs <;> rfl

theorem runup_Tp (c : WaterConfig) (r : Row) (w : Water) : (runup c r w).Tp = w.Tp := by
  unfold runup; split_ifs <;> rfl

theorem applyMask_one (x : ℝ) : applyMask (1, 0) x = x := by unfold applyMask; ring

theorem waveLength_pos {Tp : ℝ} (h : Tp ≠ 0) : 0 < waveLength Tp := by
  unfold waveLength
  have : 0 < Tp * Tp := mul_self_pos.mpr h
  have h2 : (0 : ℝ) < 9.81 * Tp * Tp := by nlinarith
  have := Real.pi_pos
  positivity

theorem waveLength_zero : waveLength 0 = 0 := by unfold waveLength; simp

theorem dissipative_nonneg (Ho Tp : ℝ) :
    0 ≤ (dissipative Ho Tp).1 ∧ 0 ≤ (dissipative Ho Tp).2.1 ∧
      (dissipative Ho Tp).1 ≤ (dissipative Ho Tp).2.2 := by
  have := Real.sqrt_nonneg (Ho * waveLength Tp)
  unfold dissipative
  refine ⟨?_, ?_, ?_⟩ <;> norm_num <;> linarith

theorem reflective_nonneg {beta : ℝ} (hb : 0 ≤ beta) (Ho Tp : ℝ) :
    0 ≤ (reflective Ho Tp beta).1 ∧ 0 ≤ (reflective Ho Tp beta).2.1 ∧
      (reflective Ho Tp beta).1 ≤ (reflective Ho Tp beta).2.2 := by
  have h1 := Real.sqrt_nonneg (Ho * waveLength Tp)
  have h2 := Real.sqrt_nonneg (Ho * waveLength Tp * (0.563 * (beta * beta) + 0.0004))
  have h3 : 0 ≤ 0.35 * beta * Real.sqrt (Ho * waveLength Tp) := by positivity
  unfold reflective
  refine ⟨h3, by dsimp only; linarith, ?_⟩
  dsimp only
  nlinarith

end Aeolis.Hydro
