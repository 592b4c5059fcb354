import Verif.Proofs.Moisture
import Mathlib.Analysis.SpecialFunctions.ExpDeriv
import Mathlib.Analysis.Calculus.Deriv.Inv

/-! C61 (infiltration), C62 (surface moisture), C66 (salt), C89 (evaporation). -/

set_option linter.unusedSectionVars false

namespace Aeolis.Props

open Aeolis.Moisture

/-- C61: with the infiltration method the moisture is between zero and the porosity after every step, whatever
it was before, and equal to the porosity in flooded cells. -/
theorem C61_range (c : Config) (t dt : ℝ) (met : Option Meteo) (x : Input) (s s' : Cell)
    (hon : c.processMoist = true) (hm : lower c.method = "infiltration") (hp : 0 ≤ c.porosity)
    (h : update c t dt met x s = some (.ok s')) :
    0 ≤ s'.moist ∧ s'.moist ≤ c.porosity ∧ (c.eps < x.twl - x.zb → s'.moist = c.porosity) := by
  obtain ⟨s1, ix, h1, h2, _⟩ := update_moisture h
  simp only [moisture, hon, hm, if_true] at h1
  simp only [Option.some.injEq, Except.ok.injEq, Prod.mk.injEq] at h1
  rw [h2, ← h1.1]
  unfold infiltration
  refine ⟨le_max_left _ _, max_le hp (min_le_left _ _), fun hf => ?_⟩
  dsimp only
  rw [if_pos hf, min_self, max_eq_right hp]

/-- A sequence of steps with the infiltration method: step sizes and conditions. -/
noncomputable def infiltrationRun (c : Config) (steps : List (ℝ × Input)) (moist : ℝ) : ℝ :=
  steps.foldl (fun m st => infiltration c st.1 st.2 m) moist

/-- C61: while a cell is not flooded its moisture halves every `Tdry` seconds, no matter how the time is split
into steps. -/
theorem C61_half_life (c : Config) (steps : List (ℝ × Input)) (moist : ℝ) (hT : 0 < c.Tdry)
    (h0 : 0 ≤ moist) (h1 : moist ≤ c.porosity)
    (hdt : ∀ st ∈ steps, 0 ≤ st.1) (hdry : ∀ st ∈ steps, st.2.twl - st.2.zb ≤ c.eps) :
    infiltrationRun c steps moist = moist * 2 ^ (-((steps.map Prod.fst).sum / c.Tdry)) := by
  induction steps generalizing moist with
  | nil => simp [infiltrationRun]
  | cons st rest ih =>
    have hd := hdt st (by simp)
    have he : Real.exp (-decayRate c.Tdry * st.1) = 2 ^ (-(st.1 / c.Tdry)) := exp_decay _ _ hT.ne'
    have hle : (2 : ℝ) ^ (-(st.1 / c.Tdry)) ≤ 1 := by
      apply Real.rpow_le_one_of_one_le_of_nonpos (by norm_num)
      have := div_nonneg hd hT.le; linarith
    have hpos : (0 : ℝ) < 2 ^ (-(st.1 / c.Tdry)) := Real.rpow_pos_of_pos (by norm_num) _
    have hstep : infiltration c st.1 st.2 moist = moist * 2 ^ (-(st.1 / c.Tdry)) := by
      unfold infiltration
      dsimp only
      rw [if_neg (not_lt.mpr (hdry st (by simp))), he, min_eq_right (by nlinarith),
        max_eq_right (mul_nonneg h0 hpos.le)]
    show infiltrationRun c rest (infiltration c st.1 st.2 moist) = _
    rw [hstep, ih _ (mul_nonneg h0 hpos.le) (by nlinarith) (fun s hs => hdt s (by simp [hs]))
      (fun s hs => hdry s (by simp [hs])), mul_assoc, ← Real.rpow_add (by norm_num)]
    congr 2
    simp only [List.map_cons, List.sum_cons]
    ring

/-- C61: the runs of `C61_half_life` are the runs of `update`. -/
theorem C61_run_is_update (c : Config) (met : Option Meteo) (hon : c.processMoist = true)
    (hm : lower c.method = "infiltration") (hsalt : c.processSalt = false) (times : ℕ → ℝ)
    (steps : List (ℝ × Input)) (s : Cell) (k : ℕ) :
    ∃ s', (steps.zipIdx k).foldlM (m := Except PyErr)
        (fun s st => (update c (times st.2) st.1.1 met st.1.2 s).getD (.error .nameError)) s = .ok s' ∧
      s'.moist = infiltrationRun c steps s.moist := by
  induction steps generalizing s k with
  | nil => exact ⟨s, rfl, rfl⟩
  | cons st rest ih =>
    have hu : update c (times k) st.1 met st.2 s =
        some (.ok { s with moist := infiltration c st.1 st.2 s.moist }) := by
      simp [update, moisture, hon, hm, hsalt]
    obtain ⟨s', h1, h2⟩ := ih { s with moist := infiltration c st.1 st.2 s.moist } (k + 1)
    refine ⟨s', ?_, ?_⟩
    · rw [List.zipIdx_cons, List.foldlM_cons]
      simp only [hu, Option.getD_some]
      exact h1
    · rw [h2]; rfl

/-- C62: with the surface moisture method the moisture after every step is at most the saturated content,
equals it in flooded cells, and is at least the smaller of residual and saturated content elsewhere; it is never
below the capillary moisture (up to saturation). -/
theorem C62_range (c : Config) (t dt : ℝ) (met : Option Meteo) (x : Input) (s s' : Cell)
    (hon : c.processMoist = true) (hm : lower c.method = "surf_moisture")
    (h : update c t dt met x s = some (.ok s')) :
    s'.moist ≤ c.satd ∧ (x.zb < x.twl → s'.moist = c.satd) ∧ min c.resw c.satd ≤ s'.moist ∧
      min s'.moistSwr c.satd ≤ s'.moist := by
  obtain ⟨s1, ix, h1, h2, h2', _⟩ := update_moisture h
  have hne : ¬ ("surf_moisture" = "infiltration") := by decide
  simp only [moisture, hon, hm, if_true, hne, if_false] at h1
  match met with
  | none => simp at h1
  | some met =>
    simp only at h1
    match h3 : surface c t dt met x s with
    | none => simp [h3] at h1
    | some s2 =>
      simp only [h3, Option.some.injEq, Except.ok.injEq, Prod.mk.injEq] at h1
      obtain ⟨rfl, _⟩ := h1
      rw [h2, h2']
      unfold surface at h3
      dsimp only at h3
      generalize hM : (if x.zb < x.twl then if x.zb < x.twl then c.satd else
        s.moist + min 0 ((s.moist - c.fc) * (Real.exp (-decayRate c.Tdry * dt) - 1)) else
        min (max ((if x.zb < x.twl then c.satd else
        s.moist + min 0 ((s.moist - c.fc) * (Real.exp (-decayRate c.Tdry * dt) - 1))) +
        (met.RH / 3600 / 1000 - evaporation c met x.uw / 24 / 3600 / 1000) * dt / c.thick) c.resw) c.satd) = M at h3
      have hMb : (x.zb < x.twl → M = c.satd) ∧ min c.resw c.satd ≤ M ∧ M ≤ c.satd := by
        rw [← hM]
        split_ifs with hf
        · exact ⟨fun _ => rfl, min_le_right _ _, le_rfl⟩
        · exact ⟨fun h => absurd h hf, min_le_min (le_max_right _ _) le_rfl, min_le_right _ _⟩
      have hcap : ∀ s3, capillary c t x { s with moist := M } = some s3 → s3.moist = M := by
        intro s3 h4
        unfold capillary at h4
        split_ifs at h4
        · simp only [Option.some.injEq] at h4; rw [← h4]
        · obtain ⟨_, _, _, _, _, _, _, _, _, _, _, _, _, _, _, h5, _⟩ := scanning_eq h4
          exact h5
        · simp only [Option.some.injEq] at h4; rw [← h4]
        · simp only [Option.some.injEq] at h4; rw [← h4]
      match h4 : capillary c t x { s with moist := M } with
      | none => simp [h4] at h3
      | some s3 =>
        simp only [h4, Option.some.injEq] at h3
        rw [← h3]
        simp only
        rw [hcap s3 h4]
        refine ⟨min_le_right _ _, fun hf => ?_, ?_, min_le_min (le_max_right _ _) le_rfl⟩
        · rw [hMb.1 hf]; exact min_eq_right (le_max_left _ _)
        · exact le_min (hMb.2.1.trans (le_max_left _ _)) (min_le_right _ _)

/-- C62: failures: an unknown method raises `ValueError`; the surface moisture method without meteorological
conditions raises `KeyError`; moisture switched off leaves the moisture alone. -/
theorem C62_failures (c : Config) (t dt : ℝ) (met : Option Meteo) (x : Input) (s : Cell) :
    (c.processMoist = true → lower c.method ≠ "infiltration" → lower c.method ≠ "surf_moisture" →
      update c t dt met x s = some (.error .valueError)) ∧
    (c.processMoist = true → lower c.method = "surf_moisture" →
      update c t dt none x s = some (.error .keyError)) ∧
    (c.processMoist = false → c.processSalt = false → update c t dt met x s = some (.ok s)) := by
  refine ⟨fun h1 h2 h3 => ?_, fun h1 h2 => ?_, fun h1 h2 => ?_⟩
  · simp [update, moisture, h1, h2, h3]
  · simp [update, moisture, h1, h2]
  · simp [update, moisture, h1, h2]

/-- C66: the salt content of the top layer stays between zero and one, and is one in flooded cells. -/
theorem C66_range (c : Config) (t dt : ℝ) (met : Meteo) (x : Input) (s s' : Cell)
    (hon : c.processSalt = true) (hRH : 0 ≤ met.RH) (hdt : 0 ≤ dt) (hl : 0 < c.layerThickness)
    (h0 : 0 ≤ s.salt) (h : update c t dt (some met) x s = some (.ok s')) :
    0 ≤ s'.salt ∧ s'.salt ≤ 1 ∧ (lower c.method = "infiltration" → c.eps < x.twl - x.zb → s'.salt = 1) ∧
      (lower c.method = "surf_moisture" → x.zb < x.twl → s'.salt = 1) := by
  have hsalt : ∀ s1 ix, moisture c t dt (some met) x s = some (.ok (s1, ix)) → s1.salt = s.salt ∧
      (∀ f, ix = some f → (lower c.method = "infiltration" → (f ↔ c.eps < x.twl - x.zb)) ∧
        (lower c.method = "surf_moisture" → (f ↔ x.zb < x.twl))) := by
    intro s1 ix h1
    unfold moisture at h1
    split_ifs at h1 with ha hb hc
    · simp only [Option.some.injEq, Except.ok.injEq, Prod.mk.injEq] at h1
      obtain ⟨rfl, rfl⟩ := h1
      refine ⟨rfl, fun f hf => ⟨fun _ => by simp at hf; rw [← hf], fun h => ?_⟩⟩
      rw [hb] at h; exact absurd h (by decide)
    · simp only at h1
      match h3 : surface c t dt met x s with
      | none => simp [h3] at h1
      | some s2 =>
        simp only [h3, Option.some.injEq, Except.ok.injEq, Prod.mk.injEq] at h1
        obtain ⟨rfl, rfl⟩ := h1
        constructor
        · unfold surface at h3
          dsimp only at h3
          generalize (if x.zb < x.twl then if x.zb < x.twl then c.satd else
            s.moist + min 0 ((s.moist - c.fc) * (Real.exp (-decayRate c.Tdry * dt) - 1)) else
            min (max ((if x.zb < x.twl then c.satd else
            s.moist + min 0 ((s.moist - c.fc) * (Real.exp (-decayRate c.Tdry * dt) - 1))) +
            (met.RH / 3600 / 1000 - evaporation c met x.uw / 24 / 3600 / 1000) * dt / c.thick) c.resw) c.satd)
            = M at h3
          match h4 : capillary c t x { s with moist := M } with
          | none => simp [h4] at h3
          | some s3 =>
            simp only [h4, Option.some.injEq] at h3
            rw [← h3]
            show s3.salt = s.salt
            unfold capillary at h4
            split_ifs at h4
            · simp only [Option.some.injEq] at h4; rw [← h4]
            · unfold scanning at h4
              split at h4
              · simp at h4
              · simp only [Option.some.injEq] at h4; rw [← h4]
            · simp only [Option.some.injEq] at h4; rw [← h4]
            · simp only [Option.some.injEq] at h4; rw [← h4]
        · refine fun f hf => ⟨fun h => ?_, fun _ => by simp at hf; rw [← hf]⟩
          rw [hc] at h; exact absurd h (by decide)
    · simp at h1
    · simp only [Option.some.injEq, Except.ok.injEq, Prod.mk.injEq] at h1
      obtain ⟨rfl, rfl⟩ := h1
      exact ⟨rfl, fun f hf => by simp at hf⟩
  unfold update at h
  match h1 : moisture c t dt (some met) x s with
  | none => simp [h1] at h
  | some (.error e) => simp [h1] at h
  | some (.ok (s1, none)) => simp [h1, hon] at h
  | some (.ok (s1, some f)) =>
    simp only [h1, hon, if_true, Option.some.injEq, Except.ok.injEq] at h
    rw [← h]
    obtain ⟨hs, hf⟩ := hsalt s1 _ h1
    have hf := hf f rfl
    have hp : 0 ≤ met.RH / 3600 / 1000 * dt / c.layerThickness := by positivity
    have hflood : f → ∀ {i : Decidable f}, salting c dt met f s1.salt = 1 := by
      intro hf i
      unfold salting
      dsimp only
      rw [if_pos hf, min_eq_left (by linarith)]
    refine ⟨?_, min_le_left _ _, fun hm hx => ?_, fun hm hx => ?_⟩
    · show 0 ≤ @salting c dt met f (Classical.propDecidable f) s1.salt
      unfold salting
      dsimp only
      refine le_min zero_le_one (add_nonneg ?_ hp)
      split_ifs
      · exact zero_le_one
      · rw [hs]; exact mul_nonneg h0 (Real.exp_pos _).le
    · exact hflood ((hf.1 hm).mpr hx)
    · exact hflood ((hf.2 hm).mpr hx)

/-- C66: the salt computation always fails when no meteorological conditions were read (as for the default
infiltration method), and also when the moisture computation is off. -/
theorem C66_failures (c : Config) (t dt : ℝ) (x : Input) (s : Cell)
    (hon : c.processSalt = true) :
    (∀ r, update c t dt none x s = some r → ∃ e, r = .error e) ∧
    (lower c.method = "infiltration" → update c t dt none x s = some (.error .keyError)) ∧
    (c.processMoist = false → ∀ m, update c t dt (some m) x s = some (.error .nameError)) := by
  refine ⟨fun r h => ?_, fun h1 => ?_, fun h1 m => ?_⟩
  · unfold update at h
    match h1 : moisture c t dt none x s with
    | none => simp [h1] at h
    | some (.error e) =>
      simp only [h1, Option.some.injEq] at h
      exact ⟨_, h.symm⟩
    | some (.ok (s1, ix)) =>
      simp only [h1, hon, if_true, Option.some.injEq] at h
      exact ⟨_, h.symm⟩
  · unfold update moisture
    cases c.processMoist <;> simp [h1, hon]
  · simp [update, moisture, h1, hon]

/-- C89: the saturation pressure is positive and rises with the temperature. -/
theorem C89_saturation_pressure (T T' : ℝ) (h : -237.3 < T) (hT : T < T') :
    0 < saturationPressure T ∧ saturationPressure T < saturationPressure T' := by
  have h1 : 0 < T + 237.3 := by linarith
  have h2 : 0 < T' + 237.3 := by linarith
  unfold saturationPressure
  refine ⟨by positivity, ?_⟩
  have : 17.27 * T / (T + 237.3) < 17.27 * T' / (T' + 237.3) := by
    rw [div_lt_div_iff₀ h1 h2]; nlinarith
  have := Real.exp_lt_exp.mpr this
  linarith

/-- C89: the slope of the vapour pressure that Penman's formula takes is, up to rounding of a constant (`17.27 · 237.3 = 4098.171`), the derivative
of the saturation pressure. -/
theorem C89_slope (T : ℝ) (h : -237.3 < T) : HasDerivAt saturationPressure (4098.171 / 4098 * vaporationPressureSlope T) T := by
  have h1 : T + 237.3 ≠ 0 := by linarith
  have h2 : HasDerivAt (fun T : ℝ => 17.27 * T / (T + 237.3)) ((17.27 * 1 * (T + 237.3) - 17.27 * T * 1) / (T + 237.3) ^ 2) T :=
    ((hasDerivAt_id T).const_mul 17.27).div ((hasDerivAt_id T).add_const 237.3) h1
  refine (h2.exp.const_mul 0.6108).congr_deriv ?_
  unfold vaporationPressureSlope saturationPressure
  field_simp
  ring

/-- C89: in saturated air and at any wind, evaporation takes no more than the energy of the radiation, divided by the latent heat of 2.26 MJ/kg;
without radiation there is none. -/
theorem C89_saturated_air (c : Config) (met : Meteo) (uw : ℝ) (hT : -237.3 < met.T) (hQ : 0 ≤ met.Q) (hU : met.U = 100) (hP : 0 ≤ met.P)
    (hcp : 0 ≤ c.cpair) : evaporation c met uw ≤ met.Q / 2.26 ∧ (met.Q = 0 → evaporation c met uw = 0) := by
  have hm : 0 < vaporationPressureSlope met.T := by
    have : 0 < met.T + 237.3 := by linarith
    unfold vaporationPressureSlope saturationPressure; positivity
  have hg : 0 ≤ c.cpair * met.P / (0.622 * 2.26) := by positivity
  have e : evaporation c met uw =
      vaporationPressureSlope met.T * met.Q / (2.26 * (vaporationPressureSlope met.T + c.cpair * met.P / (0.622 * 2.26))) := by
    unfold evaporation
    dsimp only
    rw [hU]
    norm_num
  rw [e]
  refine ⟨?_, fun h => by rw [h]; simp⟩
  rw [div_le_div_iff₀ (by positivity) (by norm_num)]
  nlinarith [mul_nonneg hQ hg]

/-- C89: evaporation is not negative for radiation that is not negative, humidity up to 100 % and wind measured
above 2 m, and does not decrease with radiation and wind speed. -/
theorem C89_evaporation (c : Config) (met : Meteo) (uw : ℝ) (hT : -237.3 < met.T) (hQ : 0 ≤ met.Q)
    (hU : met.U ≤ 100) (hP : 0 ≤ met.P) (hcp : 0 ≤ c.cpair) (hz : 2 < c.z) (huw : 0 ≤ uw) :
    0 ≤ evaporation c met uw ∧
    (∀ Q', met.Q ≤ Q' → evaporation c met uw ≤ evaporation c { met with Q := Q' } uw) ∧
    (∀ uw', uw ≤ uw' → evaporation c met uw ≤ evaporation c met uw') := by
  have hs : 0 < saturationPressure met.T := by unfold saturationPressure; positivity
  have hm : 0 < vaporationPressureSlope met.T := by
    have : 0 < met.T + 237.3 := by linarith
    unfold vaporationPressureSlope; positivity
  have hd : 0 ≤ saturationPressure met.T * (1 - met.U / 100) :=
    mul_nonneg hs.le (by linarith)
  have hg : 0 ≤ c.cpair * met.P / (0.622 * 2.26) := by positivity
  have hl : 0 < Real.logb 10 (c.z / 2) := Real.logb_pos (by norm_num) (by linarith)
  have hk : 0 ≤ 0.174 / Real.logb 10 (c.z / 2) := by positivity
  have hden : 0 < 2.26 * (vaporationPressureSlope met.T + c.cpair * met.P / (0.622 * 2.26)) := by
    positivity
  have hgd : 0 ≤ 6.43 * (c.cpair * met.P / (0.622 * 2.26)) *
      (saturationPressure met.T * (1 - met.U / 100)) := by positivity
  unfold evaporation
  dsimp only
  refine ⟨?_, fun Q' h => ?_, fun uw' h => ?_⟩
  · refine div_nonneg (add_nonneg (mul_nonneg hm.le hQ) (mul_nonneg hgd ?_)) hden.le
    have := mul_nonneg hk huw; linarith
  · refine div_le_div_of_nonneg_right ?_ hden.le
    have := mul_le_mul_of_nonneg_left h hm.le
    linarith
  · refine div_le_div_of_nonneg_right ?_ hden.le
    have h1 := mul_le_mul_of_nonneg_left h hk
    have := mul_le_mul_of_nonneg_left (show 1 + 0.86 * (0.174 / Real.logb 10 (c.z / 2) * uw) ≤
      1 + 0.86 * (0.174 / Real.logb 10 (c.z / 2) * uw') by linarith) hgd
    linarith

/-! Concrete cases. -/

/-- At 20 degrees. -/
example : HasDerivAt saturationPressure (4098.171 / 4098 * vaporationPressureSlope 20) 20 := C89_slope 20 (by norm_num)


/-- The default moisture parameters. -/
noncomputable def moistDefaults : Moisture.Config where
  processMoist := true
  processScanning := true
  processSalt := true
  method := "Infiltration"
  porosity := 0.4
  eps := 0.001
  Tdry := 5400
  Tsalt := 2592000
  fc := 0.11
  thick := 0.002
  layerThickness := 0.01
  satw := 0.35
  satd := 0.5
  resw := 0.01
  resd := 0.01
  alfaw := -0.070
  alfad := -0.035
  nw := 2.3
  nd := 4.5
  mw := 0.57
  md := 0.42
  cpair := 1.0035e-3
  z := 10

/-- A cell with 20 % moisture. -/
noncomputable def moistCell : Cell := ⟨0.2, 0, 0, false, false, 0, 0, 0, 0, 0, 0, 0.5⟩

/-- A dry summer hour. -/
noncomputable def summer : Meteo := ⟨20, 15, 101, 60, 0⟩

/-- 0.2 becomes 0.1 in 5400 s whether in one step or in two. -/
example : infiltrationRun moistDefaults [(5400, ⟨0, 1, 0, 0, false, 5⟩)] 0.2 = 0.1 ∧
    infiltrationRun moistDefaults [(1400, ⟨0, 1, 0, 0, false, 5⟩), (4000, ⟨-1, 1, 0, 0, false, 5⟩)] 0.2 = 0.1 := by
  constructor
  · rw [C61_half_life _ _ _ (by norm_num [moistDefaults]) (by norm_num) (by norm_num [moistDefaults])
      (by simp) (by norm_num [moistDefaults])]
    norm_num [moistDefaults, Real.rpow_neg_one]
  · rw [C61_half_life _ _ _ (by norm_num [moistDefaults]) (by norm_num) (by norm_num [moistDefaults])
      (by simp) (by norm_num [moistDefaults])]
    norm_num [moistDefaults, Real.rpow_neg_one]

/-- The update succeeds with both methods, and with salt, once there are meteorological conditions. -/
example : ∃ s', update moistDefaults 0 60 (some summer) ⟨2, 1, 0, 0, false, 5⟩ moistCell = some (.ok s') ∧
    s'.moist = 0.4 ∧ s'.salt = 1 := by
  have hm : lower moistDefaults.method = "infiltration" := by
    show lower "Infiltration" = _; decide
  have h : ∃ s', update moistDefaults 0 60 (some summer) ⟨2, 1, 0, 0, false, 5⟩ moistCell = some (.ok s') := by
    simp only [update, moisture, hm, show moistDefaults.processMoist = true from rfl,
      show moistDefaults.processSalt = true from rfl, if_true]
    exact ⟨_, rfl⟩
  obtain ⟨s', h⟩ := h
  refine ⟨s', h, ?_, ?_⟩
  · exact (C61_range _ _ _ _ _ _ _ rfl hm (by norm_num [moistDefaults]) h).2.2 (by norm_num [moistDefaults])
  · exact (C66_range _ _ _ _ _ _ _ rfl (by norm_num [summer]) (by norm_num) (by norm_num [moistDefaults])
      (by norm_num [moistCell]) h).2.2.1 hm (by norm_num [moistDefaults])

example : ∃ s', update { moistDefaults with method := "surf_moisture" } 0 60 (some summer)
    ⟨0, 1, 0, 0, false, 5⟩ moistCell = some (.ok s') ∧ s'.moist ≤ 0.5 ∧ 0.01 ≤ s'.moist := by
  have hm : lower ({ moistDefaults with method := "surf_moisture" } : Config).method = "surf_moisture" := by
    show lower "surf_moisture" = _; decide
  have h : ∃ s', update { moistDefaults with method := "surf_moisture" } 0 60 (some summer)
      ⟨0, 1, 0, 0, false, 5⟩ moistCell = some (.ok s') := by
    simp only [update, moisture, hm, show moistDefaults.processMoist = true from rfl,
      show moistDefaults.processSalt = true from rfl, if_true, show ¬ ("surf_moisture" = "infiltration") by decide,
      if_false, surface, capillary, show moistDefaults.processScanning = true from rfl]
    exact ⟨_, rfl⟩
  obtain ⟨s', h⟩ := h
  have := C62_range _ _ _ _ _ _ _ rfl hm h
  refine ⟨s', h, this.1, ?_⟩
  have h2 := this.2.2.1
  norm_num [moistDefaults] at h2
  norm_num
  exact h2

example : 0 ≤ evaporation moistDefaults summer 5 :=
  (C89_evaporation _ _ _ (by norm_num [summer]) (by norm_num [summer]) (by norm_num [summer])
    (by norm_num [summer]) (by norm_num [moistDefaults]) (by norm_num [moistDefaults]) (by norm_num)).1

/-- Two time steps without salt: flooded, then drying for an hour. -/
example : ∃ s', ([(60, ⟨2, 1, 0, 0, false, 5⟩), (3600, ⟨0, 1, 0, 0, false, 5⟩)].zipIdx 0).foldlM (m := Except PyErr)
      (fun s (st : (ℝ × Input) × ℕ) => (update { moistDefaults with processSalt := false } st.2 st.1.1 none st.1.2 s).getD (.error .nameError)) moistCell = .ok s' ∧
    s'.moist = infiltrationRun { moistDefaults with processSalt := false } [(60, ⟨2, 1, 0, 0, false, 5⟩), (3600, ⟨0, 1, 0, 0, false, 5⟩)] moistCell.moist :=
  C61_run_is_update { moistDefaults with processSalt := false } none rfl (by show lower "Infiltration" = _; decide) rfl (fun k => k) _ moistCell 0

example (t dt : ℝ) (met : Option Meteo) (x : Input) (s : Cell) :
    update { moistDefaults with method := "none" } t dt met x s = some (.error .valueError) ∧
    update { moistDefaults with method := "surf_moisture" } t dt none x s = some (.error .keyError) :=
  ⟨(C62_failures _ _ _ _ _ _).1 rfl (by show lower "none" ≠ _; decide) (by show lower "none" ≠ _; decide),
    (C62_failures _ _ _ none _ _).2.1 rfl (by show lower "surf_moisture" = _; decide)⟩

example (t dt : ℝ) (x : Input) (s : Cell) : update moistDefaults t dt none x s = some (.error .keyError) :=
  (C66_failures _ _ _ _ _ rfl).2.1 (by show lower "Infiltration" = _; decide)

example : 0 < saturationPressure 10 ∧ saturationPressure 10 < saturationPressure 20 :=
  C89_saturation_pressure 10 20 (by norm_num) (by norm_num)

example : evaporation moistDefaults { summer with U := 100 } 5 ≤ summer.Q / 2.26 :=
  (C89_saturated_air moistDefaults { summer with U := 100 } 5 (by norm_num [summer]) (by norm_num [summer]) rfl (by norm_num [summer])
    (by norm_num [moistDefaults])).1

end Aeolis.Props
