import Verif.Proofs.Hydro
import Verif.Props.Interp

/-! C60 (water level and waves), C63 (runup). -/

set_option linter.unusedSectionVars false

namespace Aeolis.Props

open Aeolis.Hydro Aeolis.Spec

/-- C60: the water level is the higher of still water and bed; so it is never below the bed, and it is the
still water level where that is above the bed. -/
theorem C60_water_level (c : WaterConfig) (r : Row) (t : ℝ) (w w' : Water)
    (h : interpolate c r t w = .ok w') (j : ℕ) :
    w'.zs j = max (w'.SWL j) (r.zb j) ∧ r.zb j ≤ w'.zs j ∧
      (r.zb j ≤ w'.SWL j → w'.zs j = w'.SWL j) := by
  obtain ⟨SWL, Hs, Tp, Hm, _, _, _, rfl⟩ := interpolate_ok h
  simp only [runup_SWL]
  split_ifs with h1
  · exact ⟨(max_eq_right h1.le).symm, le_rfl, fun h2 => absurd h1 (not_lt.mpr h2)⟩
  · exact ⟨(max_eq_left (not_lt.mp h1)).symm, not_lt.mp h1, fun _ => rfl⟩

/-- C60: the still water level is the (masked) value of the tidal series, zero without series or tide. -/
theorem C60_still_water (c : WaterConfig) (r : Row) (t : ℝ) (w w' : Water)
    (h : interpolate c r t w = .ok w') (j : ℕ) :
    (c.processTide = false → w'.SWL j = 0) ∧
    (c.processTide = true → c.tideFile = none → w'.SWL j = (r.tideMask j).2) ∧
    (∀ ts, c.processTide = true → c.tideFile = some ts →
      ∃ v, interpCircular ts t = some v ∧ w'.SWL j = v * (r.tideMask j).1 + (r.tideMask j).2) := by
  obtain ⟨SWL, Hs, Tp, Hm, h1, _, _, rfl⟩ := interpolate_ok h
  simp only [runup_SWL]
  unfold stillWater at h1
  refine ⟨fun h2 => ?_, fun h2 h3 => ?_, fun ts h2 h3 => ?_⟩
  · simp [h2] at h1; rw [← h1]
  · simp [h2, h3] at h1; rw [← h1]; simp [applyMask]
  · simp only [h2, h3, if_true] at h1
    unfold series at h1
    match hv : interpCircular ts t with
    | none => simp [hv] at h1
    | some v =>
      simp [hv] at h1
      exact ⟨v, rfl, by rw [← h1]; rfl⟩

/-- C60: where the wave mask leaves the waves alone, wave heights are not negative, are at most `gamma` times
the water depth, and at most every bound on the series. -/
theorem C60_waves (c : WaterConfig) (r : Row) (t : ℝ) (w w' : Water) (ts : List (ℝ × ℝ × ℝ))
    (hon : c.processWave = true) (hfile : c.waveFile = some ts)
    (hinc : ts.Pairwise fun a b => a.1 < b.1) (hi : ℝ)
    (hH : ∀ x ∈ ts, 0 ≤ x.2.1 ∧ x.2.1 ≤ hi) (hgamma : 0 ≤ c.gamma)
    (h : interpolate c r t w = .ok w') (j : ℕ) (hmask : r.waveMask j = (1, 0)) :
    0 ≤ w'.Hs j ∧ w'.Hs j ≤ c.gamma * max 0 (w'.SWL j - r.zb j) ∧ w'.Hs j ≤ hi ∧
      (w'.SWL j ≤ r.zb j → w'.Hs j = 0) ∧
      0 ≤ w'.Hsmix j ∧ w'.Hsmix j ≤ c.gamma * max 0 (w'.TWL j - r.zb j) ∧ w'.Hsmix j ≤ hi := by
  obtain ⟨SWL, Hs, Tp, Hm, _, h2, h3, rfl⟩ := interpolate_ok h
  simp only [runup_SWL, runup_Hs]
  have hv : ∃ v, series (ts.map fun x => (x.1, x.2.1)) t = .ok v ∧ 0 ≤ v ∧ v ≤ hi := by
    by_cases hne : ts = []
    · subst hne
      simp only [waves, hon, hfile, series, interpCircular, List.map_nil] at h2
      exact absurd h2 (by simp)
    · obtain ⟨v, hv, hl, hu⟩ := C10_within_data_range (ts.map fun x => (x.1, x.2.1))
        (by simpa using hne) (by
          unfold Increasing
          rw [List.pairwise_map]; exact hinc) t 0 hi (by
          intro k hk
          obtain ⟨x, hx, rfl⟩ := List.mem_map.mp hk
          exact hH x hx)
      exact ⟨v, by simp [series, hv], hl, hu⟩
  obtain ⟨v, hv, hl, hu⟩ := hv
  have hHs : Hs j = min (max 0 (SWL j - r.zb j) * c.gamma) v := by
    simp only [waves, hon, hfile, hv] at h2
    match hT : series (ts.map fun x => (x.1, x.2.2)) t with
    | .error e => simp [hT] at h2
    | .ok T =>
      simp only [hT, Except.ok.injEq, Prod.mk.injEq] at h2
      rw [← h2.1]; beta_reduce; rw [hmask, applyMask_one]
  have hHm : Hm j = min (max 0 ((runup c r { w with SWL := SWL, Hs := Hs, Tp := Tp }).TWL j - r.zb j)
      * c.gamma) v := by
    simp only [mixing, hon, hfile, hv, Except.ok.injEq] at h3
    rw [← h3]; beta_reduce; rw [hmask, applyMask_one]
  rw [hHs, hHm]
  have hd : ∀ y : ℝ, 0 ≤ max 0 y * c.gamma := fun y => mul_nonneg (le_max_left _ _) hgamma
  refine ⟨le_min (hd _) hl, (min_le_left _ _).trans (mul_comm _ _).le, (min_le_right _ _).trans hu, ?_,
    le_min (hd _) hl, (min_le_left _ _).trans (mul_comm _ _).le, (min_le_right _ _).trans hu⟩
  intro hdry
  rw [max_eq_left (by linarith), zero_mul, min_eq_left hl]

/-- C60: wave height and period are zero when waves are off or have no series. -/
theorem C60_no_waves (c : WaterConfig) (r : Row) (t : ℝ) (w w' : Water)
    (hoff : c.processWave = false ∨ c.waveFile = none)
    (h : interpolate c r t w = .ok w') (j : ℕ) : w'.Hs j = 0 ∧ w'.Tp j = 0 := by
  obtain ⟨SWL, Hs, Tp, Hm, _, h2, h3, rfl⟩ := interpolate_ok h
  simp only [runup_Hs, runup_Tp]
  unfold waves at h2
  rcases hoff with hoff | hoff <;> simp [hoff] at h2 <;> rw [← h2.1, ← h2.2] <;> simp

/-- C63: no waves, no runup; otherwise setup, swash and runup are not negative and runup is at least the
setup. -/
theorem C63_runup (Ho Tp beta : ℝ) :
    (¬ (0 < Ho ∧ 0 < Tp ∧ 0 < beta) → stockdon Ho Tp beta = (0, 0, 0)) ∧
    0 ≤ (stockdon Ho Tp beta).1 ∧ 0 ≤ (stockdon Ho Tp beta).2.1 ∧
    (stockdon Ho Tp beta).1 ≤ (stockdon Ho Tp beta).2.2 ∧
    (0 < Ho ∧ 0 < Tp ∧ 0 < beta → 0 < (stockdon Ho Tp beta).2.2) := by
  unfold stockdon
  refine ⟨fun h => if_neg h, ?_⟩
  split_ifs with h h1
  · obtain ⟨a, b, d⟩ := dissipative_nonneg Ho Tp
    refine ⟨a, b, d, fun _ => ?_⟩
    have hL := waveLength_pos h.2.1.ne'
    have : 0 < Real.sqrt (Ho * waveLength Tp) := Real.sqrt_pos.mpr (mul_pos h.1 hL)
    unfold dissipative; dsimp only; linarith
  · obtain ⟨a, b, d⟩ := reflective_nonneg h.2.2.le Ho Tp
    refine ⟨a, b, d, fun _ => ?_⟩
    have hL := waveLength_pos h.2.1.ne'
    have : 0 < Real.sqrt (Ho * waveLength Tp) := Real.sqrt_pos.mpr (mul_pos h.1 hL)
    refine lt_of_lt_of_le ?_ d
    unfold reflective; dsimp only
    have := h.2.2
    positivity
  · exact ⟨le_rfl, le_rfl, le_rfl, fun h2 => absurd h2 h⟩

/-- C63: the scalar and the array form agree for a beach slope above zero and periods that are not negative,
except at an Iribarren number of exactly 0.3. -/
theorem C63_forms_agree (Ho Tp beta : ℝ) (hb : 0 < beta) (hT : 0 ≤ Tp)
    (hi : iribarren Ho Tp beta ≠ 0.3) : stockdonArray Ho Tp beta = stockdon Ho Tp beta := by
  unfold stockdonArray stockdon
  dsimp only
  rcases le_or_gt Ho 0 with hH | hH
  · rw [if_neg (fun h => absurd h.1 (not_lt.mpr hH)), if_neg (fun h => absurd h.1 (not_lt.mpr hH)),
      if_neg (fun h => absurd h.1 (not_lt.mpr hH))]
  rcases eq_or_lt_of_le hT with h0 | hT
  · subst h0
    have hz : iribarren Ho 0 beta = 0 := by unfold iribarren; rw [if_pos waveLength_zero]
    rw [hz, if_neg (by norm_num), if_pos ⟨hH, by norm_num⟩, if_neg (fun h => lt_irrefl _ h.2.1)]
    unfold dissipative; rw [waveLength_zero]; simp
  rw [if_pos (⟨hH, hT, hb⟩ : 0 < Ho ∧ 0 < Tp ∧ 0 < beta)]
  rcases lt_or_gt_of_ne hi with h | h
  · rw [if_neg (fun h' => absurd h'.2 (not_lt.mpr h.le)), if_pos ⟨hH, h⟩, if_pos h]
  · rw [if_pos ⟨hH, h⟩, if_neg (not_lt.mpr h.le)]

/-- C63: at an Iribarren number of exactly 0.3 the array form gives no runup while the scalar form does; this
happens for a wave as high as the deep water wave is long on a slope of 0.3. -/
theorem C63_forms_differ_at_0_3 :
    (∀ Ho Tp beta, iribarren Ho Tp beta = 0.3 → stockdonArray Ho Tp beta = (0, 0, 0)) ∧
    (∃ Ho Tp beta, iribarren Ho Tp beta = 0.3 ∧ 0 < (stockdon Ho Tp beta).2.2) := by
  constructor
  · intro Ho Tp beta h
    unfold stockdonArray
    rw [h, if_neg (fun h => lt_irrefl _ h.2), if_neg (fun h => lt_irrefl _ h.2)]
  · have hL := waveLength_pos (one_ne_zero : (1 : ℝ) ≠ 0)
    refine ⟨waveLength 1, 1, 0.3, ?_, (C63_runup _ _ _).2.2.2.2 ⟨hL, one_pos, by norm_num⟩⟩
    unfold iribarren
    rw [if_neg hL.ne', div_self hL.ne', Real.sqrt_one, div_one]

/-- C63: for a slope of zero or below the array form still gives runup, the scalar form does not. -/
theorem C63_forms_differ_on_flat_beach (Ho Tp beta : ℝ) (hH : 0 < Ho) (hT : 0 < Tp) (hb : beta ≤ 0) :
    (stockdon Ho Tp beta).2.2 = 0 ∧ 0 < (stockdonArray Ho Tp beta).2.2 := by
  have hL := waveLength_pos hT.ne'
  have hi : iribarren Ho Tp beta < 0.3 := by
    unfold iribarren
    rw [if_neg hL.ne']
    have : beta / Real.sqrt (Ho / waveLength Tp) ≤ 0 :=
      div_nonpos_of_nonpos_of_nonneg hb (Real.sqrt_nonneg _)
    linarith
  constructor
  · rw [(C63_runup Ho Tp beta).1 (fun h => absurd h.2.2 (not_lt.mpr hb))]
  · unfold stockdonArray
    dsimp only
    rw [if_neg (fun h => absurd h.2 (not_lt.mpr hi.le)), if_pos ⟨hH, hi⟩]
    have : 0 < Real.sqrt (Ho * waveLength Tp) := Real.sqrt_pos.mpr (mul_pos hH hL)
    unfold dissipative; dsimp only; linarith

/-- C63: with runup on and no runup mask, still water, set-up level and total water level are ordered in every
cell, and the set-up and the runup are the same in all cells of the row. -/
theorem C63_levels_ordered (c : WaterConfig) (r : Row) (t : ℝ) (w w' : Water)
    (hon : c.processRunup = true) (hmask : r.runupMask = none)
    (h : interpolate c r t w = .ok w') (j : ℕ) :
    w'.SWL j ≤ w'.DSWL j ∧ w'.DSWL j ≤ w'.TWL j ∧
      (∀ i, w'.TWL i - w'.SWL i = w'.TWL j - w'.SWL j) ∧
      (∀ i, w'.DSWL i - w'.SWL i = w'.DSWL j - w'.SWL j) ∧
      (w'.Hs 0 ≤ 0 → w'.TWL j = w'.SWL j ∧ w'.DSWL j = w'.SWL j) := by
  obtain ⟨SWL, Hs, Tp, Hm, _, _, _, rfl⟩ := interpolate_ok h
  obtain ⟨h0, ha, _, hb, _⟩ := C63_runup (Hs 0) (Tp 0) c.beachSlope
  simp only [runup, hon, hmask, if_true]
  refine ⟨by linarith, by linarith, fun i => by ring, fun i => by ring, fun hH => ?_⟩
  rw [h0 (fun h => absurd h.1 (not_lt.mpr hH))]
  simp

/-- C63: the runup of Stockdon et al. (2006): with the deep water wave length `L` of the period, on dissipative
beaches (`beta / sqrt (Ho / L) < 0.3`) runup is `0.043 sqrt (Ho L)`, shared between setup and swash; otherwise setup is
`0.35 beta sqrt (Ho L)`, swash half of `sqrt (Ho L (0.563 beta² + 0.0004))`, and runup 1.1 times their sum. -/
theorem C63_stockdon (Ho Tp beta L : ℝ) (hH : 0 < Ho) (hT : 0 < Tp) (hb : 0 < beta)
    (hL : L = 9.81 * Tp ^ 2 / (2 * Real.pi)) :
    (beta / Real.sqrt (Ho / L) < 0.3 →
      (stockdon Ho Tp beta).2.2 = 0.043 * Real.sqrt (Ho * L) ∧
      (stockdon Ho Tp beta).1 + (stockdon Ho Tp beta).2.1 = (stockdon Ho Tp beta).2.2 ∧
      (stockdon Ho Tp beta).2.1 = 0.023 * Real.sqrt (Ho * L)) ∧
    (0.3 ≤ beta / Real.sqrt (Ho / L) →
      (stockdon Ho Tp beta).1 = 0.35 * beta * Real.sqrt (Ho * L) ∧
      (stockdon Ho Tp beta).2.1 = Real.sqrt (Ho * L * (0.563 * beta ^ 2 + 0.0004)) / 2 ∧
      (stockdon Ho Tp beta).2.2 = 1.1 * ((stockdon Ho Tp beta).1 + (stockdon Ho Tp beta).2.1)) := by
  have hw : waveLength Tp = L := by rw [hL]; unfold waveLength; ring
  have hi : iribarren Ho Tp beta = beta / Real.sqrt (Ho / L) := by
    unfold iribarren
    rw [if_neg (waveLength_pos hT.ne').ne', hw]
  unfold stockdon
  rw [if_pos ⟨hH, hT, hb⟩, hi]
  constructor
  · intro h
    rw [if_pos h]
    unfold dissipative
    rw [hw]
    refine ⟨rfl, by ring, by ring⟩
  · intro h
    rw [if_neg (not_lt.mpr h)]
    unfold reflective
    rw [hw, show beta * beta = beta ^ 2 by ring]
    refine ⟨rfl, by ring, rfl⟩

/-- C63: with runup on, the runup of the whole row is computed from the wave at its first cell; the total water level
is the still water level plus runup and the set-up level the still water level plus setup, both as written to the
state. -/
theorem C63_levels (c : WaterConfig) (r : Row) (t : ℝ) (w w' : Water) (hon : c.processRunup = true)
    (h : interpolate c r t w = .ok w') (j : ℕ) :
    w'.TWL j = w'.SWL j + w'.R j ∧ w'.DSWL j = w'.SWL j + w'.eta j ∧
    (∀ m, r.runupMask = some m → w'.R j = (stockdon (w'.Hs 0) (w'.Tp 0) c.beachSlope).2.2 * (m j).1 + (m j).2 ∧
      w'.eta j = (stockdon (w'.Hs 0) (w'.Tp 0) c.beachSlope).1 * (m j).1 + (m j).2) ∧
    (r.runupMask = none → w'.R j = (stockdon (w'.Hs 0) (w'.Tp 0) c.beachSlope).2.2 ∧
      w'.eta j = (stockdon (w'.Hs 0) (w'.Tp 0) c.beachSlope).1) := by
  obtain ⟨SWL, Hs, Tp, Hm, _, _, _, rfl⟩ := interpolate_ok h
  simp only [runup, hon, if_true]
  refine ⟨trivial, trivial, fun m hm => ?_, fun hm => ?_⟩
  · rw [hm]; exact ⟨rfl, rfl⟩
  · rw [hm]; exact ⟨rfl, rfl⟩

/-- C63: with runup off (the default) the total water level and the set-up level are never computed: they keep
the values they had, whatever tide and waves do. -/
theorem C63_levels_frozen_without_runup (c : WaterConfig) (r : Row) (hoff : c.processRunup = false)
    (times : List ℝ) (w w' : Water)
    (h : times.foldlM (fun w t => interpolate c r t w) w = .ok w') :
    w'.TWL = w.TWL ∧ w'.DSWL = w.DSWL := by
  induction times generalizing w with
  | nil => cases h; exact ⟨rfl, rfl⟩
  | cons t ts ih =>
    rw [List.foldlM_cons] at h
    match h1 : interpolate c r t w with
    | .error e => rw [h1] at h; cases h
    | .ok w1 =>
      rw [h1] at h
      obtain ⟨a, b⟩ := ih w1 h
      obtain ⟨SWL, Hs, Tp, Hm, _, _, _, rfl⟩ := interpolate_ok h1
      rw [a, b]
      simp [runup, hoff]

/-! Concrete cases. -/

/-- A beach with bed level `j - 1`, tide 0.5 m, waves of 2 m, runup on. -/
def beachConfig : WaterConfig where
  processTide := true
  processWave := true
  processRunup := true
  tideFile := some [(0, 0.5), (10, 0.5)]
  waveFile := some [(0, 2, 6), (10, 2, 6)]
  gamma := 0.5
  beachSlope := 0.1

/-- The row of the beach. -/
def beachRow : Row where
  zb := fun j => j - 1
  tideMask := fun _ => (1, 0)
  waveMask := fun _ => (1, 0)
  runupMask := none

/-- All levels zero. -/
def calmWater : Water :=
  ⟨fun _ => 0, fun _ => 0, fun _ => 0, fun _ => 0, fun _ => 0, fun _ => 0, fun _ => 0, fun _ => 0, fun _ => 0,
    fun _ => 0⟩

theorem series_total (ts : List (ℝ × ℝ)) (hne : ts ≠ []) (hinc : Increasing ts) (t : ℝ) :
    ∃ v, series ts t = .ok v := by
  have : ∃ lo hi : ℝ, ∀ k ∈ ts, lo ≤ k.2 ∧ k.2 ≤ hi := by
    clear hinc hne
    induction ts with
    | nil => exact ⟨0, 0, by simp⟩
    | cons a l ih =>
      obtain ⟨lo, hi, h⟩ := ih
      refine ⟨min a.2 lo, max a.2 hi, ?_⟩
      intro k hk
      rcases List.mem_cons.mp hk with rfl | hk
      · exact ⟨min_le_left _ _, le_max_left _ _⟩
      · exact ⟨(min_le_right _ _).trans (h k hk).1, (h k hk).2.trans (le_max_right _ _)⟩
  obtain ⟨lo, hi, hb⟩ := this
  obtain ⟨v, hv, _⟩ := C10_within_data_range ts hne hinc t lo hi hb
  exact ⟨v, by simp [series, hv]⟩

/-- C60: series that are not empty and increase in time can always be interpolated; nothing else can go
wrong. -/
theorem C60_never_fails (c : WaterConfig) (r : Row) (t : ℝ) (w : Water)
    (htide : ∀ ts, c.tideFile = some ts → ts ≠ [] ∧ Increasing ts)
    (hwave : ∀ ts, c.waveFile = some ts → ts ≠ [] ∧ ts.Pairwise fun a b => a.1 < b.1) :
    ∃ w', interpolate c r t w = .ok w' := by
  have h1 : ∃ S, stillWater c r t = .ok S := by
    unfold stillWater
    split_ifs
    · match hf : c.tideFile with
      | none => exact ⟨_, rfl⟩
      | some ts =>
        obtain ⟨v, hv⟩ := series_total ts (htide ts hf).1 (htide ts hf).2 t
        simp only [hv]; exact ⟨_, rfl⟩
    · exact ⟨_, rfl⟩
  obtain ⟨S, hS⟩ := h1
  have hcol : ∀ (ts : List (ℝ × ℝ × ℝ)) (f : ℝ × ℝ × ℝ → ℝ), ts ≠ [] →
      (ts.Pairwise fun a b => a.1 < b.1) → ∃ v, series (ts.map fun x => (x.1, f x)) t = .ok v := by
    intro ts f hne hp
    exact series_total _ (by simpa using hne) (by unfold Increasing; rw [List.pairwise_map]; exact hp) t
  have h2 : ∃ p, waves c r t S = .ok p := by
    unfold waves
    match c.processWave, hf : c.waveFile with
    | false, _ => exact ⟨_, rfl⟩
    | true, none => exact ⟨_, rfl⟩
    | true, some ts =>
      obtain ⟨v, hv⟩ := hcol ts (fun x => x.2.1) (hwave ts hf).1 (hwave ts hf).2
      obtain ⟨v', hv'⟩ := hcol ts (fun x => x.2.2) (hwave ts hf).1 (hwave ts hf).2
      simp only [hv, hv']; exact ⟨_, rfl⟩
  obtain ⟨⟨H, T⟩, hp⟩ := h2
  have h3 : ∀ w, ∃ m, mixing c r t w = .ok m := by
    intro w
    unfold mixing
    match c.processWave, hf : c.waveFile with
    | false, _ => exact ⟨_, rfl⟩
    | true, none => exact ⟨_, rfl⟩
    | true, some ts =>
      obtain ⟨v, hv⟩ := hcol ts (fun x => x.2.1) (hwave ts hf).1 (hwave ts hf).2
      simp only [hv]; exact ⟨_, rfl⟩
  unfold interpolate
  simp only [hS, hp]
  obtain ⟨m, hm⟩ := h3 (runup c r { w with SWL := S, Hs := H, Tp := T })
  simp only [hm]
  exact ⟨_, rfl⟩

private theorem beach_interpolates (t : ℝ) : ∃ w', interpolate beachConfig beachRow t calmWater = .ok w' := by
  refine C60_never_fails _ _ _ _ ?_ ?_
  · intro ts h
    obtain rfl : [((0 : ℝ), (0.5 : ℝ)), (10, 0.5)] = ts := Option.some.inj h
    exact ⟨by simp, by simp [Increasing]⟩
  · intro ts h
    obtain rfl : [((0 : ℝ), (2 : ℝ), (6 : ℝ)), (10, 2, 6)] = ts := Option.some.inj h
    exact ⟨by simp, by simp⟩

/-- On the beach, cell 1 (bed at 0) is under water of 0.5 m and the waves are broken to at most 0.25 m; cell 3
(bed at 2) is dry and the water level there is the bed level. -/
example (t : ℝ) : ∃ w', interpolate beachConfig beachRow t calmWater = .ok w' ∧
    w'.SWL 1 = 0.5 ∧ w'.zs 1 = 0.5 ∧ w'.Hs 1 ≤ 0.25 ∧ w'.zs 3 = 2 ∧ w'.Hs 3 = 0 ∧ w'.SWL 3 ≤ w'.TWL 3 := by
  obtain ⟨w', hw⟩ := beach_interpolates t
  have hs : ∀ j, w'.SWL j = 0.5 := by
    intro j
    obtain ⟨v, hv, hj⟩ := (C60_still_water _ _ _ _ _ hw j).2.2 _ rfl rfl
    obtain ⟨v', hv', h1, h2⟩ := C10_within_data_range [((0 : ℝ), (0.5 : ℝ)), (10, 0.5)] (by simp)
      (by simp [Increasing]) t 0.5 0.5 (by simp)
    rw [hv] at hv'
    obtain rfl := Option.some.inj hv'
    rw [hj]; simp only [beachRow]; linarith
  have hwv := fun j => C60_waves _ _ _ _ _ _ rfl rfl (by simp) 2 (by simp) (by norm_num [beachConfig]) hw j rfl
  have hl := fun j => C60_water_level _ _ _ _ _ hw j
  have hr := C63_levels_ordered _ _ _ _ _ rfl rfl hw 3
  refine ⟨w', hw, hs 1, ?_, ?_, ?_, ?_, hr.1.trans hr.2.1⟩
  · rw [(hl 1).2.2 (by rw [hs]; norm_num [beachRow]), hs]
  · have := (hwv 1).2.1
    rw [hs] at this
    simp only [beachConfig, beachRow] at this
    norm_num at this
    linarith
  · rw [(hl 3).1, hs]; norm_num [beachRow]
  · exact (hwv 3).2.2.2.1 (by rw [hs]; norm_num [beachRow])

/-- A wave of 1 m and 5 s on a slope of 1:10 runs up. -/
example : 0 < (stockdon 1 5 0.1).2.2 := (C63_runup _ _ _).2.2.2.2 (by norm_num)

example : (stockdon 2 10 0.01).2.2 = 0.043 * Real.sqrt (2 * (9.81 * 10 ^ 2 / (2 * Real.pi))) := by
  refine ((C63_stockdon 2 10 0.01 _ (by norm_num) (by norm_num) (by norm_num) rfl).1 ?_).1
  have hpi := Real.pi_gt_three
  have hs : (0.1 : ℝ) ≤ Real.sqrt (2 / (9.81 * 10 ^ 2 / (2 * Real.pi))) := by
    apply Real.le_sqrt_of_sq_le
    rw [le_div_iff₀ (by positivity), ← mul_div_assoc, div_le_iff₀ (by positivity)]
    nlinarith
  rw [div_lt_iff₀ (by linarith)]
  nlinarith

/-- Waves switched off. -/
example (t : ℝ) (w' : Water) (h : interpolate { beachConfig with processWave := false } beachRow t calmWater = .ok w') :
    w'.Hs 1 = 0 :=
  (C60_no_waves _ _ _ _ _ (.inl rfl) h 1).1

/-- A negative slope. -/
example : (stockdon 1 5 (-0.1)).2.2 = 0 ∧ 0 < (stockdonArray 1 5 (-0.1)).2.2 :=
  C63_forms_differ_on_flat_beach 1 5 (-0.1) (by norm_num) (by norm_num) (by norm_num)

/-- Runup on a beach: the two levels. -/
example (t : ℝ) : ∃ w', interpolate beachConfig beachRow t calmWater = .ok w' ∧ w'.TWL 2 = w'.SWL 2 + w'.R 2 ∧
    w'.R 2 = (stockdon (w'.Hs 0) (w'.Tp 0) 0.1).2.2 := by
  obtain ⟨w', hw⟩ := beach_interpolates t
  have h := C63_levels _ _ _ _ _ rfl hw 2
  exact ⟨w', hw, h.1, (h.2.2.2 rfl).1⟩

end Aeolis.Props
