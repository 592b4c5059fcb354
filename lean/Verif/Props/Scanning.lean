import Verif.Props.Moisture

/-! C64 (soil water retention), C88 (suction head at reversals). -/

set_option linter.unusedSectionVars false

namespace Aeolis.Props

open Aeolis.Moisture Filter Topology

/-- C64: a retention curve stays between residual and saturated content, is saturated at the groundwater table,
does not rise with the distance to the groundwater, and tends to the residual content. -/
theorem C64_curve (res sat alfa n m : ℝ) (hrs : res ≤ sat) (hn : 0 < n) (hm : 0 < m) :
    (∀ h, res ≤ retention res sat alfa n m h ∧ retention res sat alfa n m h ≤ sat) ∧
    retention res sat alfa n m 0 = sat ∧
    (∀ h h', 0 ≤ h → h ≤ h' → retention res sat alfa n m h' ≤ retention res sat alfa n m h) ∧
    (alfa ≠ 0 → Tendsto (fun h => retention res sat alfa n m h) atTop (𝓝 res)) := by
  refine ⟨fun h => retention_bounds _ _ _ hrs hm.le, ?_, fun h h' h0 hh => retention_antitone _ hrs hn.le hm.le h0 hh,
    fun ha => retention_tendsto ha hn hm⟩
  unfold retention
  rw [mul_zero, abs_zero, Real.zero_rpow hn.ne', add_zero, Real.one_rpow]
  ring

/-- C64: after a step on the scanning curves, with the main wetting curve not above the main drying curve at the
present groundwater level, both scanning curves and the selected moisture lie between the main curves. -/
theorem C64_between (c : Config) (x : Input) (s s' : Cell) (h : scanning c x s = some s')
    (hwd : wettingCurve c (depth x) ≤ dryingCurve c (depth x)) :
    (wettingCurve c (depth x) ≤ s'.scanWMoist ∧ s'.scanWMoist ≤ dryingCurve c (depth x)) ∧
    (wettingCurve c (depth x) ≤ s'.scanDMoist ∧ s'.scanDMoist ≤ dryingCurve c (depth x)) ∧
    (wettingCurve c (depth x) ≤ s'.moistSwr ∧ s'.moistSwr ≤ dryingCurve c (depth x)) := by
  obtain ⟨hd, _, h2, h3, h4, h5, s1, h6, h7, h8, h9, h10, h11, h12, h13, _⟩ := scanning_eq h
  have hW : wettingCurve c (depth x) ≤ s'.scanWMoist ∧ s'.scanWMoist ≤ dryingCurve c (depth x) := by
    rw [h4]; exact ⟨le_max_right _ _, max_le (min_le_right _ _) hwd⟩
  have hD : wettingCurve c (depth x) ≤ s'.scanDMoist ∧ s'.scanDMoist ≤ dryingCurve c (depth x) := by
    rw [h5]; exact ⟨le_max_right _ _, max_le (min_le_right _ _) hwd⟩
  refine ⟨hW, hD, ?_⟩
  unfold swrCurve at h13
  rw [h6, h7, h8, h9, h10, h11, h12, h2, h3] at h13
  split_ifs at h13 with a1 a2 a3 a4 a5 a6
  all_goals simp only [Prod.mk.injEq] at h13; try rw [← h13.1]
  · exact ⟨le_rfl, hwd⟩
  · exact hW
  · exact hW
  · exact ⟨hwd, le_rfl⟩
  · exact hD
  · exact hD
  · exfalso
    cases hx : x.wetting <;> cases hs : s.scanW <;> cases hs' : s.scanD <;>
      rcases le_or_gt x.gwPrev x.gw with hg | hg <;> simp_all

/-- C64: which curve is followed. Rising or equal groundwater: the main wetting curve if already wetting on it,
otherwise the wetting scanning curve; falling groundwater: the main drying curve if already drying on it,
otherwise the drying scanning curve. -/
theorem C64_selection (x : Input) (s : Cell) :
    (x.gwPrev ≤ x.gw → (swrCurve x s).1 =
      if x.wetting = true ∧ s.scanW = false then s.wH else s.scanWMoist) ∧
    (x.gw < x.gwPrev → (swrCurve x s).1 =
      if x.wetting = false ∧ s.scanD = false then s.dH else s.scanDMoist) := by
  constructor
  · intro hg
    unfold swrCurve
    cases hx : x.wetting <;> cases hs : s.scanW <;> simp [hg]
  · intro hg
    unfold swrCurve
    cases hx : x.wetting <;> cases hs : s.scanD <;> simp [hg, hg.not_ge]

/-- C64: after a step at most one scanning flag is set; the wetting flag only with groundwater that did not
fall and a moisture above the main wetting curve, the drying flag only with falling groundwater and a moisture below
the main drying curve. -/
theorem C64_flags (c : Config) (x : Input) (s s' : Cell) (h : scanning c x s = some s') :
    ¬ (s'.scanW = true ∧ s'.scanD = true) ∧
    (s'.scanW = true → x.gwPrev ≤ x.gw ∧ wettingCurve c (depth x) < s'.moistSwr) ∧
    (s'.scanD = true → x.gw < x.gwPrev ∧ s'.moistSwr < dryingCurve c (depth x)) := by
  obtain ⟨hd, _, h2, h3, h4, h5, s1, h6, h7, h8, h9, h10, h11, h12, h13, _⟩ := scanning_eq h
  unfold swrCurve at h13
  rw [h6, h7, h8, h9, h10, h11, h12, h2, h3] at h13
  split_ifs at h13 with a1 a2 a3 a4 a5 a6
  all_goals simp only [Prod.mk.injEq] at h13; obtain ⟨b1, b2, b3⟩ := h13
  · rw [← b2, ← b3]; simp
  · rw [← b1, ← b2, ← b3]; simp [a2.1]
  · rw [← b1, ← b2, ← b3]; simp [a3.1]
  · rw [← b2, ← b3]; simp
  · rw [← b1, ← b2, ← b3]; simp [a5.1]
  · rw [← b1, ← b2, ← b3]; simp [a6.1]
  · exfalso
    cases hx : x.wetting <;> cases hs : s.scanW <;> cases hs' : s.scanD <;>
      rcases le_or_gt x.gwPrev x.gw with hg | hg <;> simp_all

/-- C64: the main curves are in order for all groundwater levels if they differ only in that the wetting curve has
the smaller contents and the larger `alfa`. -/
theorem C64_main_curves_ordered (c : Config) (h : ℝ) (hr : c.resw ≤ c.resd) (hs : c.satw ≤ c.satd)
    (hd : c.resd ≤ c.satd) (ha : |c.alfad| ≤ |c.alfaw|) (hn : c.nw = c.nd) (hm : c.mw = c.md)
    (hn0 : 0 ≤ c.nd) (hm0 : 0 ≤ c.md) : wettingCurve c h ≤ dryingCurve c h := by
  unfold wettingCurve dryingCurve retention
  rw [hn, hm]
  have h1 : |c.alfad * h| ≤ |c.alfaw * h| := by
    rw [abs_mul, abs_mul]; exact mul_le_mul_of_nonneg_right ha (abs_nonneg _)
  have h2 := Real.rpow_le_rpow (abs_nonneg _) h1 hn0
  have h3 := Real.rpow_nonneg (abs_nonneg (c.alfad * h)) c.nd
  have h4 : (1 + |c.alfad * h| ^ c.nd) ^ c.md ≤ (1 + |c.alfaw * h| ^ c.nd) ^ c.md :=
    Real.rpow_le_rpow (by linarith) (by linarith) hm0
  have h5 := one_le_denominator c.alfad c.nd c.md h hm0
  generalize (1 + |c.alfad * h| ^ c.nd) ^ c.md = D at *
  generalize (1 + |c.alfaw * h| ^ c.nd) ^ c.md = W at *
  have hW : 0 < W := by linarith
  have hD : 0 < D := by linarith
  have e1 : c.resw + (c.satw - c.resw) / W = c.resw * (1 - 1 / W) + c.satw * (1 / W) := by
    field_simp; ring
  have e2 : c.resd + (c.satd - c.resd) / W = c.resd * (1 - 1 / W) + c.satd * (1 / W) := by
    field_simp; ring
  have i1 : 0 ≤ 1 / W := by positivity
  have i2 : 1 / W ≤ 1 := by rw [div_le_one hW]; linarith
  have e3 : (c.satd - c.resd) / W ≤ (c.satd - c.resd) / D :=
    div_le_div_of_nonneg_left (by linarith) hD h4
  have : c.resw * (1 - 1 / W) + c.satw * (1 / W) ≤ c.resd * (1 - 1 / W) + c.satd * (1 / W) :=
    add_le_add (mul_le_mul_of_nonneg_right hr (by linarith)) (mul_le_mul_of_nonneg_right hs i1)
  linarith

/-- C64: with the default parameters the main curves are not in order everywhere: 32/0.035 cm (about 9 m) above the
groundwater the drying curve is below the wetting curve. -/
theorem C64_default_curves_cross :
    dryingCurve moistDefaults (32 / 0.035) < wettingCurve moistDefaults (32 / 0.035) := by
  unfold wettingCurve dryingCurve retention moistDefaults
  dsimp only
  have a1 : |(-0.035 : ℝ) * (32 / 0.035)| = 2 ^ (5 : ℝ) := by norm_num
  have a2 : |(-0.070 : ℝ) * (32 / 0.035)| = 2 ^ (6 : ℝ) := by norm_num
  rw [a1, a2, ← Real.rpow_mul (by norm_num), ← Real.rpow_mul (by norm_num)]
  have two : (0 : ℝ) < 2 := by norm_num
  -- bound on the drying denominator
  have d1 : (2 : ℝ) ^ (9.45 : ℝ) ≤ (1 + 2 ^ ((5 : ℝ) * 4.5)) ^ (0.42 : ℝ) := by
    have h : (2 : ℝ) ^ (9.45 : ℝ) = (2 ^ ((5 : ℝ) * 4.5)) ^ (0.42 : ℝ) := by
      rw [← Real.rpow_mul two.le]; norm_num
    rw [h]
    exact Real.rpow_le_rpow (Real.rpow_nonneg two.le _) (by linarith) (by norm_num)
  -- bound on the wetting denominator
  have w1 : (1 + 2 ^ ((6 : ℝ) * 2.3)) ^ (0.57 : ℝ) ≤ (2 : ℝ) ^ (8.436 : ℝ) := by
    have h : (2 : ℝ) ^ (8.436 : ℝ) = (2 ^ (14.8 : ℝ)) ^ (0.57 : ℝ) := by
      rw [← Real.rpow_mul two.le]; norm_num
    rw [h]
    refine Real.rpow_le_rpow (by positivity) ?_ (by norm_num)
    have h14 : (2 : ℝ) ^ (14.8 : ℝ) = 2 * 2 ^ ((6 : ℝ) * 2.3) := by
      rw [show (14.8 : ℝ) = 1 + 6 * 2.3 by norm_num, Real.rpow_add two, Real.rpow_one]
    have h1 : (1 : ℝ) ≤ 2 ^ ((6 : ℝ) * 2.3) := Real.one_le_rpow (by norm_num) (by norm_num)
    linarith
  have w0 : (0 : ℝ) < (1 + 2 ^ ((6 : ℝ) * 2.3)) ^ (0.57 : ℝ) := by positivity
  have e1 : (2 : ℝ) * 2 ^ (8.436 : ℝ) ≤ 2 ^ (9.45 : ℝ) := by
    have : (2 : ℝ) * 2 ^ (8.436 : ℝ) = 2 ^ (9.436 : ℝ) := by
      rw [show (9.436 : ℝ) = 1 + 8.436 by norm_num, Real.rpow_add two, Real.rpow_one]
    rw [this]
    exact Real.rpow_le_rpow_of_exponent_le (by norm_num) (by norm_num)
  generalize (1 + (2 : ℝ) ^ ((6 : ℝ) * 2.3)) ^ (0.57 : ℝ) = W at *
  generalize (1 + (2 : ℝ) ^ ((5 : ℝ) * 4.5)) ^ (0.42 : ℝ) = D at *
  generalize (2 : ℝ) ^ (8.436 : ℝ) = q at *
  generalize (2 : ℝ) ^ (9.45 : ℝ) = r at *
  have hD : 2 * W ≤ D := by linarith
  have : ((0.5 : ℝ) - 0.01) / D < (0.35 - 0.01) / W := by
    rw [div_lt_div_iff₀ (by linarith) w0]; nlinarith
  linarith

/-- C88: the search for the suction head ends whenever the residual content of the drying curve is not above that
of the wetting curve, and returns the first multiple of 0.01 cm at which the wetting scanning curve is within 0.01
of the drying scanning curve. -/
theorem C88_search_ends (c : Config) (s : Cell) (hr : c.resd ≤ c.resw)
    (haw : c.alfaw ≠ 0) (had : c.alfad ≠ 0) (hnw : 0 < c.nw) (hnd : 0 < c.nd) (hmw : 0 < c.mw) (hmd : 0 < c.md)
    (hw : s.wH ≤ c.satw) (hs : s.wH ≤ s.scanDMoist) :
    ∃ k : ℕ, search c s = some (0.01 * ((k : ℝ) + 1)) ∧ searchValue c s k ≤ 0.01 ∧
      ∀ i < k, 0.01 < searchValue c s i := by
  have hex : ∃ k, ¬ 0.01 < searchValue c s k := by
    have hseq : Tendsto (fun k : ℕ => (0.01 : ℝ) * ((k : ℝ) + 1)) atTop atTop :=
      Tendsto.const_mul_atTop (by norm_num)
        (tendsto_atTop_add_const_right _ _ tendsto_natCast_atTop_atTop)
    have hW : Tendsto (fun k : ℕ => wettingCurve c (0.01 * ((k : ℝ) + 1))) atTop (𝓝 c.resw) :=
      (retention_tendsto haw hnw hmw).comp hseq
    have hD : Tendsto (fun k : ℕ => dryingCurve c (0.01 * ((k : ℝ) + 1))) atTop (𝓝 c.resd) :=
      (retention_tendsto had hnd hmd).comp hseq
    have hden : max (c.satw - c.resw) 0.0001 ≠ 0 := by
      have : (0.0001 : ℝ) ≤ max (c.satw - c.resw) 0.0001 := le_max_right _ _
      intro h0; rw [h0] at this; norm_num at this
    have hlim : Tendsto (fun k : ℕ => searchValue c s k) atTop
        (𝓝 (s.wH + (c.satw - s.wH) / max (c.satw - c.resw) 0.0001 * (c.resd - c.resw) - s.scanDMoist)) := by
      unfold searchValue
      refine Tendsto.sub_const (Tendsto.const_add _ ?_) _
      refine Tendsto.mul (Tendsto.div tendsto_const_nhds ?_ hden) (hD.sub hW)
      exact (tendsto_const_nhds.sub hW).max tendsto_const_nhds
    have hle : s.wH + (c.satw - s.wH) / max (c.satw - c.resw) 0.0001 * (c.resd - c.resw) - s.scanDMoist ≤ 0 := by
      have h1 : 0 ≤ (c.satw - s.wH) / max (c.satw - c.resw) 0.0001 :=
        div_nonneg (by linarith) (le_trans (by norm_num) (le_max_right _ _))
      have h2 := mul_nonneg h1 (show 0 ≤ c.resw - c.resd by linarith)
      linarith
    have hev := hlim.eventually (gt_mem_nhds (lt_of_le_of_lt hle (by norm_num : (0 : ℝ) < 0.01)))
    obtain ⟨k, hk⟩ := hev.exists
    exact ⟨k, not_lt.mpr hk.le⟩
  classical
  refine ⟨Nat.find hex, ?_, not_lt.mp (Nat.find_spec hex), fun i hi => ?_⟩
  · unfold search
    rw [dif_pos hex]
  · exact not_not.mp (Nat.find_min hex hi)

/-- Parameters whose drying curve has the higher residual content. -/
noncomputable def highResidual : Config :=
  { moistDefaults with resd := 0.2, alfaw := 0.05, alfad := 0.05, nw := 2, nd := 2, mw := 1, md := 1 }

/-- C88: otherwise the search may run for ever: with a residual content of 0.2 on the drying curve and 0.01 on the
wetting curve no suction head satisfies the criterion. -/
theorem C88_search_may_not_end :
    ∃ s : Cell, s.wH ≤ highResidual.satw ∧ s.wH ≤ s.scanDMoist ∧ search highResidual s = none := by
  refine ⟨{ moistCell with wH := 0.02, scanDMoist := 0.02 }, by norm_num [highResidual, moistDefaults], le_rfl, ?_⟩
  unfold search
  rw [dif_neg]
  rintro ⟨k, hk⟩
  apply hk
  unfold searchValue wettingCurve dryingCurve retention
  dsimp only
  simp only [highResidual, moistDefaults]
  have h1 := one_le_denominator 0.05 2 1 (0.01 * ((k : ℝ) + 1)) (by norm_num)
  generalize (1 + |(0.05 : ℝ) * (0.01 * ((k : ℝ) + 1))| ^ (2 : ℝ)) ^ (1 : ℝ) = D at *
  have hg0 : 0 < 1 / D := by positivity
  have hg1 : 1 / D ≤ 1 := by rw [div_le_one (by linarith)]; exact h1
  rw [show ((0.35 : ℝ) - 0.01) / D = 0.34 * (1 / D) by norm_num; ring,
    show ((0.5 : ℝ) - 0.2) / D = 0.3 * (1 / D) by norm_num; ring]
  generalize 1 / D = g at *
  have hm0 : 0 < max ((0.35 : ℝ) - (0.01 + 0.34 * g)) 0.0001 := lt_of_lt_of_le (by norm_num) (le_max_right _ _)
  have hm1 : max ((0.35 : ℝ) - (0.01 + 0.34 * g)) 0.0001 ≤ 0.34 := max_le (by norm_num; linarith) (by norm_num)
  generalize max ((0.35 : ℝ) - (0.01 + 0.34 * g)) 0.0001 = M at *
  have hd : (0.15 : ℝ) ≤ 0.2 + 0.3 * g - (0.01 + 0.34 * g) := by norm_num; linarith
  have hq : (0.9 : ℝ) ≤ (0.35 - 0.02) / M := by
    rw [le_div_iff₀ hm0]; norm_num; linarith
  have := mul_le_mul hq hd (by norm_num) (by linarith)
  norm_num at this ⊢
  linarith

/-- C88: with a negative `alfaw`, as in the default configuration, the suction head at a reversal on a wetting
scanning curve is zero whatever the moisture. -/
theorem C88_reversal_is_zero (c : Config) (s : Cell) (ha : c.alfaw < 0) (hm : 0 < c.mw)
    (hr : 0.00001 ≤ c.satw - c.resw) : reversalWetting c s = 0 := by
  unfold reversalWetting
  dsimp only
  apply max_eq_right
  apply mul_nonpos_of_nonpos_of_nonneg
  · exact (one_div_neg.mpr ha).le
  apply Real.rpow_nonneg
  have hpos : (0 : ℝ) < max (min ((s.scanWMoist - s.wH) * (c.satd - s.wH) / (s.dH - s.wH) + s.wH) c.satw - c.resw)
      0.00001 := lt_of_lt_of_le (by norm_num) (le_max_right _ _)
  have hle : max (min ((s.scanWMoist - s.wH) * (c.satd - s.wH) / (s.dH - s.wH) + s.wH) c.satw - c.resw)
      0.00001 ≤ c.satw - c.resw := max_le (sub_le_sub_right (min_le_right _ _) _) hr
  have : (1 : ℝ) ≤ (c.satw - c.resw) / max (min ((s.scanWMoist - s.wH) * (c.satd - s.wH) / (s.dH - s.wH) + s.wH)
      c.satw - c.resw) 0.00001 := (one_le_div hpos).mpr hle
  have := Real.one_le_rpow this (one_div_pos.mpr hm).le
  linarith

/-- C88: with a positive `alfaw` it is the head at which the main wetting curve has the intermediate moisture, which is
what the code is after. -/
theorem C88_reversal_inverts (c : Config) (s : Cell) (w : ℝ) (ha : 0 < c.alfaw) (hm : 0 < c.mw) (hn : 0 < c.nw)
    (hw : w = min ((s.scanWMoist - s.wH) * (c.satd - s.wH) / (s.dH - s.wH) + s.wH) c.satw)
    (hlow : c.resw + 0.00001 ≤ w) : wettingCurve c (reversalWetting c s) = w := by
  have hle : w ≤ c.satw := by rw [hw]; exact min_le_right _ _
  have hpos : 0 < w - c.resw := by linarith
  have h1 : (1 : ℝ) ≤ (c.satw - c.resw) / (w - c.resw) := (one_le_div hpos).mpr (by linarith)
  have h2 := Real.one_le_rpow h1 (one_div_pos.mpr hm).le
  have hh : reversalWetting c s = 1 / c.alfaw * (((c.satw - c.resw) / (w - c.resw)) ^ (1 / c.mw) - 1) ^ (1 / c.nw) := by
    unfold reversalWetting
    dsimp only
    rw [← hw, max_eq_left (show (0.00001 : ℝ) ≤ w - c.resw by linarith)]
    refine max_eq_left (mul_nonneg (by positivity) (Real.rpow_nonneg (by linarith) _))
  rw [hh]
  unfold wettingCurve retention
  have e1 : c.alfaw * (1 / c.alfaw * (((c.satw - c.resw) / (w - c.resw)) ^ (1 / c.mw) - 1) ^ (1 / c.nw)) =
      (((c.satw - c.resw) / (w - c.resw)) ^ (1 / c.mw) - 1) ^ (1 / c.nw) := by
    field_simp
  rw [e1, abs_of_nonneg (Real.rpow_nonneg (by linarith) _), ← Real.rpow_mul (by linarith),
    one_div_mul_cancel hn.ne', Real.rpow_one, add_sub_cancel, ← Real.rpow_mul (by linarith),
    one_div_mul_cancel hm.ne', Real.rpow_one, div_div_cancel₀ (by
      have : 0 < c.satw - c.resw := by linarith
      exact this.ne')]
  ring

/-- C88: the moisture does not jump when the groundwater reverses on a main curve: when it starts to fall while the
cell is on the main wetting curve, the drying scanning curve starts on that curve; when it starts to rise while the
cell is on the main drying curve, the wetting scanning curve starts on that one. -/
theorem C88_reversal_continuous (c : Config) (x : Input) (s s' : Cell) (h : scanning c x s = some s')
    (hwd : wettingCurve c (depth x) ≤ dryingCurve c (depth x)) :
    (x.gw < x.gwPrev → x.wetting = true → s.scanW = false →
      s'.hDelta = depth x ∧ s'.moistSwr = wettingCurve c (depth x)) ∧
    (x.gwPrev < x.gw → x.wetting = false → s.scanD = false → wettingCurve c (depth x) + 0.0001 ≤ c.satw →
      s'.hDelta = depth x ∧ s'.moistSwr = dryingCurve c (depth x)) := by
  obtain ⟨hd, h1, h2, h3, h4, h5, s1, h6, h7, h8, h9, h10, h11, h12, h13, _, h14⟩ := scanning_eq h
  constructor
  · intro hg hw hs
    have e : hd = depth x := by
      unfold hdelta at h1
      simp [hg, hw, hs] at h1
      exact h1.symm
    refine ⟨h14.trans e, ?_⟩
    have hm := (C64_selection x s1).2 hg
    rw [h13] at hm
    have hm : s'.moistSwr = s1.scanDMoist := by rw [if_neg (by simp [hw])] at hm; exact hm
    rw [hm, h9, h5, e, sub_self, zero_div, zero_mul, add_zero, min_eq_left hwd, max_self]
  · intro hg hw hs hsat
    have e : hd = depth x := by
      unfold hdelta at h1
      simp [hg, hw, hs] at h1
      exact h1.symm
    refine ⟨h14.trans e, ?_⟩
    have hm := (C64_selection x s1).1 hg.le
    rw [h13] at hm
    have hm : s'.moistSwr = s1.scanWMoist := by rw [if_neg (by simp [hw])] at hm; exact hm
    have h0 : c.satw - wettingCurve c (depth x) ≠ 0 := by
      have : (0 : ℝ) < 0.0001 := by norm_num
      intro hz; linarith
    rw [hm, h8, h4, e, max_eq_left (by linarith : (0.0001 : ℝ) ≤ c.satw - wettingCurve c (depth x)),
      div_self h0, one_mul, add_sub_cancel, min_self, max_eq_left hwd]

/-- C62, C64: what the surface moisture method computes in a step.  A cell that is not flooded drains with half-life `Tdry` above field capacity,
gains the precipitation (mm/h) and loses the evaporation (mm/day) over the thickness of the layer, between residual and saturated content; a flooded cell
is saturated; then the moisture is raised to the capillary moisture, up to saturation.  Without scanning the capillary moisture is that of
van Genuchten's wetting curve where the groundwater was rising and of the drying curve elsewhere, for the height above the groundwater in centimetres; with
scanning it starts at time zero on the wetting curve, and the flags are left as they are. -/
theorem C62_surface (c : Config) (t dt : ℝ) (met : Meteo) (x : Input) (s s' : Cell)
    (hon : c.processMoist = true) (hm : lower c.method = "surf_moisture") (h : update c t dt (some met) x s = some (.ok s')) :
    let height := max 0 ((x.zb - x.gw) * 100)
    let wet := c.resw + (c.satw - c.resw) / (1 + |c.alfaw * height| ^ c.nw) ^ c.mw
    let dry := c.resd + (c.satd - c.resd) / (1 + |c.alfad * height| ^ c.nd) ^ c.md
    let drained := s.moist + min 0 ((s.moist - c.fc) * (Real.exp (Real.log 0.5 * dt / c.Tdry) - 1))
    let balance := drained + (met.RH / 3600000 - evaporation c met x.uw / 86400000) * dt / c.thick
    (x.zb < x.twl → s'.moist = c.satd) ∧
    (x.twl ≤ x.zb → s'.moist = min (max (min (max balance c.resw) c.satd) s'.moistSwr) c.satd) ∧
    (c.processScanning = false → s'.moistSwr = if x.wetting then wet else dry) ∧
    (c.processScanning = true → t = 0 → s'.moistSwr = wet ∧ s'.scanW = s.scanW ∧ s'.scanD = s.scanD) := by
  obtain ⟨s1, ix, h1, h2, h2', h2w, h2d, _⟩ := update_moisture h
  have hne : ¬ ("surf_moisture" = "infiltration") := by decide
  simp only [moisture, hon, hm, if_true, hne, if_false] at h1
  match h3 : surface c t dt met x s with
  | none => simp [h3] at h1
  | some s2 =>
    simp only [h3, Option.some.injEq, Except.ok.injEq, Prod.mk.injEq] at h1
    obtain ⟨rfl, _⟩ := h1
    intro height wet dry drained balance
    refine ⟨(C62_range c t dt _ x s s' hon hm h).2.1, ?_⟩
    rw [h2, h2', h2w, h2d]
    unfold surface at h3
    dsimp only at h3
    generalize hM : (if x.zb < x.twl then if x.zb < x.twl then c.satd else
      s.moist + min 0 ((s.moist - c.fc) * (Real.exp (-decayRate c.Tdry * dt) - 1)) else
      min (max ((if x.zb < x.twl then c.satd else
      s.moist + min 0 ((s.moist - c.fc) * (Real.exp (-decayRate c.Tdry * dt) - 1))) +
      (met.RH / 3600 / 1000 - evaporation c met x.uw / 24 / 3600 / 1000) * dt / c.thick) c.resw) c.satd) = M at h3
    have hMb : x.twl ≤ x.zb → M = min (max balance c.resw) c.satd := by
      intro hd
      rw [← hM, if_neg (not_lt.mpr hd), if_neg (not_lt.mpr hd)]
      have e1 : -decayRate c.Tdry * dt = Real.log 0.5 * dt / c.Tdry := by unfold decayRate; ring
      have e2 : met.RH / 3600 / 1000 - evaporation c met x.uw / 24 / 3600 / 1000 = met.RH / 3600000 - evaporation c met x.uw / 86400000 := by ring
      rw [e1, e2]
    match h4 : capillary c t x { s with moist := M } with
    | none => simp [h4] at h3
    | some s3 =>
      simp only [h4, Option.some.injEq] at h3
      subst h3
      dsimp only
      have hcap : s3.moist = M ∧ (c.processScanning = false → s3.moistSwr = if x.wetting then wet else dry) ∧
          (c.processScanning = true → t = 0 → s3.moistSwr = wet ∧ s3.scanW = s.scanW ∧ s3.scanD = s.scanD) := by
        unfold capillary at h4
        split_ifs at h4 with a1 a2 a3
        · cases h4
          exact ⟨rfl, fun hn => absurd a1 (by simp [hn]), fun _ _ => ⟨rfl, rfl, rfl⟩⟩
        · obtain ⟨_, _, _, _, _, _, _, _, _, _, _, _, _, _, _, h5, _⟩ := scanning_eq h4
          exact ⟨h5, fun hn => absurd a1 (by simp [hn]), fun _ h0 => absurd h0 a2⟩
        · cases h4
          exact ⟨rfl, fun _ => by rw [if_pos a3]; rfl, fun hy => absurd hy a1⟩
        · cases h4
          exact ⟨rfl, fun _ => by rw [if_neg a3]; rfl, fun hy => absurd hy a1⟩
      refine ⟨fun hd => ?_, hcap.2⟩
      rw [hcap.1, hMb hd]

/-! Concrete cases. -/

/-- C62: at the groundwater table without scanning a cell is saturated, also after a dry hour. -/
example (s s' : Cell) (wetting : Bool) (h : update { moistDefaults with processMoist := true, processScanning := false, method := "surf_moisture" } 0 3600
    (some ⟨20, 0, 101325, 50, 0⟩) ⟨0, 1, 1, 1, wetting, 5⟩ s = some (.ok s')) :
    s'.moistSwr = if wetting then moistDefaults.satw else moistDefaults.satd := by
  have := (C62_surface _ _ _ _ _ s s' rfl (by show lower "surf_moisture" = "surf_moisture"; decide) h).2.2.1 rfl
  rw [this]
  norm_num [moistDefaults]

example : ∃ s', scanning { moistDefaults with nw := 2, nd := 2, mw := 1, md := 1 } ⟨0, 1, 0.5, 0.4, false, 5⟩ moistCell
      = some s' ∧ s'.moistSwr ≤ dryingCurve { moistDefaults with nw := 2, nd := 2, mw := 1, md := 1 } 50 := by
  have h : ∃ s', scanning { moistDefaults with nw := 2, nd := 2, mw := 1, md := 1 } ⟨0, 1, 0.5, 0.4, false, 5⟩ moistCell
      = some s' := by
    have : hdelta { moistDefaults with nw := 2, nd := 2, mw := 1, md := 1 } ⟨0, 1, 0.5, 0.4, false, 5⟩ moistCell =
        some (depth ⟨0, 1, 0.5, 0.4, false, 5⟩) := by
      unfold hdelta moistCell; norm_num
    unfold scanning
    rw [this]
    exact ⟨_, rfl⟩
  obtain ⟨s', h⟩ := h
  have hd : depth ⟨0, 1, 0.5, 0.4, false, 5⟩ = 50 := by unfold depth; norm_num
  have := C64_between _ _ _ _ h (C64_main_curves_ordered _ _ (by norm_num [moistDefaults]) (by norm_num [moistDefaults])
    (by norm_num [moistDefaults]) (by norm_num [moistDefaults, abs_of_neg]) rfl rfl (by norm_num) (by norm_num))
  rw [hd] at this
  exact ⟨s', h, this.2.2.2⟩

/-- Rising groundwater, 50 cm below a bed that was drying: the moisture is still that of the drying curve. -/
example : ∃ s', scanning { moistDefaults with nw := 2, nd := 2, mw := 1, md := 1 } ⟨0, 1, 0.5, 0.4, false, 5⟩ moistCell
      = some s' ∧ s'.moistSwr = dryingCurve { moistDefaults with nw := 2, nd := 2, mw := 1, md := 1 } 50 := by
  have hd : depth ⟨0, 1, 0.5, 0.4, false, 5⟩ = 50 := by unfold depth; norm_num
  have h : ∃ s', scanning { moistDefaults with nw := 2, nd := 2, mw := 1, md := 1 } ⟨0, 1, 0.5, 0.4, false, 5⟩ moistCell
      = some s' := by
    have : hdelta { moistDefaults with nw := 2, nd := 2, mw := 1, md := 1 } ⟨0, 1, 0.5, 0.4, false, 5⟩ moistCell =
        some (depth ⟨0, 1, 0.5, 0.4, false, 5⟩) := by
      unfold hdelta moistCell; norm_num
    unfold scanning
    rw [this]
    exact ⟨_, rfl⟩
  obtain ⟨s', h⟩ := h
  have := (C88_reversal_continuous _ _ _ _ h (C64_main_curves_ordered _ _ (by norm_num [moistDefaults])
    (by norm_num [moistDefaults]) (by norm_num [moistDefaults]) (by norm_num [moistDefaults, abs_of_neg]) rfl rfl
    (by norm_num) (by norm_num))).2 (by norm_num) rfl rfl (by
      rw [hd]
      unfold wettingCurve retention moistDefaults
      dsimp only
      norm_num)
  rw [hd] at this
  exact ⟨s', h, this.2⟩

example : ∃ k : ℕ, search moistDefaults { moistCell with wH := 0.1, scanDMoist := 0.2 } = some (0.01 * ((k : ℝ) + 1)) := by
  obtain ⟨k, hk, _⟩ := C88_search_ends moistDefaults { moistCell with wH := 0.1, scanDMoist := 0.2 }
    (by norm_num [moistDefaults]) (by norm_num [moistDefaults]) (by norm_num [moistDefaults])
    (by norm_num [moistDefaults]) (by norm_num [moistDefaults]) (by norm_num [moistDefaults])
    (by norm_num [moistDefaults]) (by norm_num [moistDefaults]) (by norm_num)
  exact ⟨k, hk⟩

example : reversalWetting moistDefaults moistCell = 0 :=
  C88_reversal_is_zero _ _ (by norm_num [moistDefaults]) (by norm_num [moistDefaults]) (by norm_num [moistDefaults])

example : wettingCurve { moistDefaults with alfaw := 0.07 }
    (reversalWetting { moistDefaults with alfaw := 0.07 } { moistCell with wH := 0.1, dH := 0.4, scanWMoist := 0.2 })
      = 0.35 ⊓ ((0.2 - 0.1) * (0.5 - 0.1) / (0.4 - 0.1) + 0.1) := by
  rw [C88_reversal_inverts _ _ _ (by norm_num) (by norm_num [moistDefaults]) (by norm_num [moistDefaults]) rfl
    (by norm_num [moistDefaults])]
  simp only [moistDefaults]
  exact min_comm _ _

end Aeolis.Props
