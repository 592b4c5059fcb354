import Verif.Model.Moisture
import Mathlib.Tactic.Linarith
import Mathlib.Tactic.Positivity
import Mathlib.Tactic.NormNum
import Mathlib.Tactic.SplitIfs
import Mathlib.Tactic.FieldSimp
import Mathlib.Analysis.SpecialFunctions.Pow.Asymptotics
import Mathlib.Analysis.SpecificLimits.Basic

/-! Lemmas on soil moisture. -/

namespace Aeolis.Moisture

open Filter Topology

theorem decayRate_pos {T : ℝ} (h : 0 < T) : 0 < decayRate T := by
  unfold decayRate
  have : Real.log 0.5 < 0 := Real.log_neg (by norm_num) (by norm_num)
  exact div_pos (by linarith) h

theorem exp_decay (T dt : ℝ) (_hT : T ≠ 0) : Real.exp (-decayRate T * dt) = 2 ^ (-(dt / T)) := by
  have h2 : Real.log 0.5 = -Real.log 2 := by
    rw [show (0.5 : ℝ) = 2⁻¹ by norm_num, Real.log_inv]
  rw [Real.rpow_def_of_pos (by norm_num)]
  congr 1
  unfold decayRate
  rw [h2]
  field_simp

theorem one_le_denominator (alfa n m h : ℝ) (hm : 0 ≤ m) : 1 ≤ (1 + |alfa * h| ^ n) ^ m :=
  Real.one_le_rpow (by have := Real.rpow_nonneg (abs_nonneg (alfa * h)) n; linarith) hm

/-- A retention curve stays between residual and saturated content. -/
theorem retention_bounds {res sat m : ℝ} (alfa n h : ℝ) (hrs : res ≤ sat) (hm : 0 ≤ m) :
    res ≤ retention res sat alfa n m h ∧ retention res sat alfa n m h ≤ sat := by
  have h1 := one_le_denominator alfa n m h hm
  have h0 : 0 ≤ (sat - res) / (1 + |alfa * h| ^ n) ^ m := div_nonneg (by linarith) (by linarith)
  have h2 : (sat - res) / (1 + |alfa * h| ^ n) ^ m ≤ sat - res := div_le_self (by linarith) h1
  unfold retention
  constructor <;> linarith

theorem retention_antitone {res sat n m : ℝ} (alfa : ℝ) (hrs : res ≤ sat) (hn : 0 ≤ n) (hm : 0 ≤ m)
    {h h' : ℝ} (h0 : 0 ≤ h) (hh : h ≤ h') :
    retention res sat alfa n m h' ≤ retention res sat alfa n m h := by
  unfold retention
  have ha : |alfa * h| ≤ |alfa * h'| := by
    rw [abs_mul, abs_mul, abs_of_nonneg h0, abs_of_nonneg (h0.trans hh)]
    exact mul_le_mul_of_nonneg_left hh (abs_nonneg _)
  have h1 : |alfa * h| ^ n ≤ |alfa * h'| ^ n := Real.rpow_le_rpow (abs_nonneg _) ha hn
  have hp := Real.rpow_nonneg (abs_nonneg (alfa * h)) n
  have h2 : (1 + |alfa * h| ^ n) ^ m ≤ (1 + |alfa * h'| ^ n) ^ m :=
    Real.rpow_le_rpow (by linarith) (by linarith) hm
  have h3 := one_le_denominator alfa n m h hm
  have := div_le_div_of_nonneg_left (show 0 ≤ sat - res by linarith) (by linarith) h2
  linarith

/-- Deep above the groundwater a retention curve tends to the residual content. -/
theorem retention_tendsto {res sat alfa n m : ℝ} (ha : alfa ≠ 0) (hn : 0 < n) (hm : 0 < m) :
    Tendsto (fun h => retention res sat alfa n m h) atTop (𝓝 res) := by
  unfold retention
  have h1 : Tendsto (fun h : ℝ => |alfa| * h) atTop atTop :=
    Tendsto.const_mul_atTop (abs_pos.mpr ha) tendsto_id
  have h2 : Tendsto (fun h : ℝ => |alfa * h|) atTop atTop := by
    refine h1.congr' ?_
    filter_upwards [eventually_ge_atTop (0 : ℝ)] with h hh
    rw [abs_mul, abs_of_nonneg hh]
  have h3 : Tendsto (fun h : ℝ => |alfa * h| ^ n) atTop atTop := (tendsto_rpow_atTop hn).comp h2
  have h4 : Tendsto (fun h : ℝ => 1 + |alfa * h| ^ n) atTop atTop := tendsto_atTop_add_const_left _ _ h3
  have h5 : Tendsto (fun h : ℝ => (1 + |alfa * h| ^ n) ^ m) atTop atTop := (tendsto_rpow_atTop hm).comp h4
  have h6 : Tendsto (fun h : ℝ => (sat - res) / (1 + |alfa * h| ^ n) ^ m) atTop (𝓝 0) :=
    Tendsto.div_atTop tendsto_const_nhds h5
  simpa using h6.const_add res

theorem update_moisture {c : Config} {t dt : ℝ} {met : Option Meteo} {x : Input} {s s' : Cell}
    (h : update c t dt met x s = some (.ok s')) :
    ∃ s1 ix, moisture c t dt met x s = some (.ok (s1, ix)) ∧ s'.moist = s1.moist ∧
      s'.moistSwr = s1.moistSwr ∧ s'.scanW = s1.scanW ∧ s'.scanD = s1.scanD ∧ s'.wH = s1.wH ∧
      s'.dH = s1.dH ∧ (c.processSalt = false → s' = s1) := by
  unfold update at h
  match h1 : moisture c t dt met x s with
  | none => simp [h1] at h
  | some (.error e) => simp [h1] at h
  | some (.ok (s1, ix)) =>
    refine ⟨s1, ix, rfl, ?_⟩
    simp only [h1] at h
    split_ifs at h with hs
    · match met, ix with
      | none, _ => simp at h
      | some _, none => simp at h
      | some m, some f =>
        simp only [Option.some.injEq, Except.ok.injEq] at h
        subst h
        exact ⟨rfl, rfl, rfl, rfl, rfl, rfl, fun h => absurd h (by simp [hs])⟩
    · simp only [Option.some.injEq, Except.ok.injEq] at h
      subst h
      exact ⟨rfl, rfl, rfl, rfl, rfl, rfl, fun _ => rfl⟩

theorem scanning_eq {c : Config} {x : Input} {s s' : Cell} (h : scanning c x s = some s') :
    ∃ hd, hdelta c x s = some hd ∧ s'.wH = wettingCurve c (depth x) ∧ s'.dH = dryingCurve c (depth x) ∧
      s'.scanWMoist = max (min (wettingCurve c (depth x) + (c.satw - wettingCurve c (depth x)) /
          max (c.satw - wettingCurve c hd) 0.0001 * (dryingCurve c hd - wettingCurve c hd))
          (dryingCurve c (depth x))) (wettingCurve c (depth x)) ∧
      s'.scanDMoist = max (min (wettingCurve c (depth x) + (wettingCurve c hd - wettingCurve c (depth x)) /
          max (c.satd - wettingCurve c (depth x)) 0.0001 * (dryingCurve c (depth x) - wettingCurve c (depth x)))
          (dryingCurve c (depth x))) (wettingCurve c (depth x)) ∧
      ∃ s1 : Cell, s1.wH = s'.wH ∧ s1.dH = s'.dH ∧ s1.scanWMoist = s'.scanWMoist ∧
        s1.scanDMoist = s'.scanDMoist ∧ s1.scanW = s.scanW ∧ s1.scanD = s.scanD ∧
        s1.moistSwr = s.moistSwr ∧
        swrCurve x s1 = (s'.moistSwr, s'.scanD, s'.scanW) ∧ s'.moist = s.moist ∧ s'.hDelta = hd := by
  unfold scanning at h
  match h1 : hdelta c x s with
  | none => simp [h1] at h
  | some hd =>
    simp only [h1, Option.some.injEq] at h
    subst h
    exact ⟨hd, rfl, rfl, rfl, rfl, rfl,
      { s with hDelta := hd, wH := wettingCurve c (depth x), wHdelta := wettingCurve c hd,
               dH := dryingCurve c (depth x), dHdelta := dryingCurve c hd,
               scanWMoist := _, scanDMoist := _ }, rfl, rfl, rfl, rfl, rfl, rfl, rfl, rfl, rfl, rfl⟩

end Aeolis.Moisture
