import Verif.Proofs.Transport
import Verif.Spec.Transport

/-!
Equilibrium concentration and grain speed: C52, C53, C54, C82.
-/

set_option linter.unusedSectionVars false

namespace Aeolis.Props

open Aeolis.Transport Aeolis.Spec XR

/-! ### C52 -/

/-- What a formulation gives in cells with wind. -/
theorem formulation_spec (p : Params) (hp : Physical p) (d u : ℝ) (hd : 0 < d) (hu : 0 < u) (w : Wind)
    (hw : 0 < w.ustar) (th : Thresholds) (h1 : th.uth.IsThreshold) (h2 : th.uthf.IsThreshold)
    {a b : XR} {c : Option XR} (h : formulation p d u w th = .ok (a, b, c)) :
    Supplies a (NoPickup p.methodTransport w.ustar th.uth) ∧
      (Supplies b (NoPickup p.methodTransport w.ustar th.uthf) ∨ b = a) := by
  have hk : 0 < p.rhoa / p.g := div_pos hp.rhoa hp.g
  unfold formulation at h
  unfold NoPickup
  simp only at h
  split_ifs at h with m1 m2 m2' m3 m4 m5 m6 m7
  · simp only [Except.ok.injEq, Prod.mk.injEq] at h
    rw [m1, if_neg (by decide), if_neg (by decide), ← h.1, ← h.2.1]
    exact ⟨bagnold_supplies _ _ _ _ (mul_pos hp.Cb hk) hu h1,
      Or.inl (bagnold_supplies _ _ _ _ (mul_pos hp.Cb hk) hu h2)⟩
  · simp only [Except.ok.injEq, Prod.mk.injEq] at h
    rw [m2, if_neg (by decide), if_neg (by decide), ← h.1, ← h.2.1]
    have hc : 0 < p.Cb * Real.sqrt (d / 0.00025) * (p.rhoa / p.g) :=
      mul_pos (mul_pos hp.Cb (Real.sqrt_pos.mpr (by positivity))) hk
    exact ⟨bagnold_supplies _ _ _ _ hc hu h1, Or.inr rfl⟩
  · simp only [Except.ok.injEq, Prod.mk.injEq] at h
    rw [m3, if_neg (by decide), if_neg (by decide), ← h.1, ← h.2.1]
    exact ⟨kawamura_supplies _ _ _ _ (mul_pos hp.Ck hk) hu hw h1,
      Or.inl (kawamura_supplies _ _ _ _ (mul_pos hp.Ck hk) hu hw h2)⟩
  · simp only [Except.ok.injEq, Prod.mk.injEq] at h
    rw [m4, if_neg (by decide), if_neg (by decide), ← h.1, ← h.2.1]
    exact ⟨lettau_supplies _ _ _ _ (mul_pos hp.Cl hk) hu hw h1,
      Or.inl (lettau_supplies _ _ _ _ (mul_pos hp.Cl hk) hu hw h2)⟩
  · simp only [Except.ok.injEq, Prod.mk.injEq] at h
    rw [m5, if_pos rfl, if_pos rfl, ← h.1, ← h.2.1]
    exact ⟨dk_supplies _ _ _ _ (mul_pos hp.Cdk hk) hu hw h1,
      Or.inl (dk_supplies _ _ _ _ (mul_pos hp.Cdk hk) hu hw h2)⟩
  · simp only [Except.ok.injEq, Prod.mk.injEq] at h
    rw [m6, if_neg (by decide), if_neg (by decide), ← h.1, ← h.2.1]
    have hc : 0 < 2 * 0.35 * (p.rhoa / p.g) := by positivity
    exact ⟨sauermann_supplies _ _ _ hc hw h1, Or.inl (sauermann_supplies _ _ _ hc hw h2)⟩
  · simp only [Except.ok.injEq, Prod.mk.injEq] at h
    rw [m7, if_neg (by decide), if_neg (by decide), ← h.1, ← h.2.1]
    exact ⟨vanRijn_supplies _ _ _ _ (mul_pos hp.Cb hk) hu hw h1, Or.inr rfl⟩

theorem supplies_scale {v : XR} {P : Prop} (h : Supplies v P) {a : ℝ} (ha : 0 < a) :
    Supplies (v * fin a) P := by
  obtain ⟨r, h0, rfl, hz⟩ := h
  refine ⟨r * a, mul_nonneg h0 ha.le, by simp, ?_⟩
  rw [← hz]
  constructor
  · intro h; rcases mul_eq_zero.mp h with h | h
    · exact h
    · exact absurd h ha.ne'
  · intro h; rw [h, zero_mul]

/-- C52: for every transport formulation the equilibrium concentration is finite and not negative, and it
is zero exactly in calm cells and where the shear velocity does not exceed the threshold. -/
theorem C52_capacity (p : Params) (hp : Physical p) (hon : p.processTransport = true) (d : ℝ)
    (hd : 0 < d) (w : Wind) (hw : 0 ≤ w.ustar) (duran s : Speed)
    (hs : grainspeed p w duran = .ok s) (hu : 0 ≤ s.u) (th : Thresholds) (h1 : th.uth.IsThreshold)
    (old r : Conc) (hr : equilibrium p d w duran th old = .ok r) :
    ∃ c : ℝ, r.Cu = fin c ∧ 0 ≤ c ∧
      (c = 0 ↔ w.ustar = 0 ∨ s.u = 0 ∨ NoPickup p.methodTransport w.ustar th.uth) := by
  unfold equilibrium at hr
  simp only [hon, if_true, hs] at hr
  split at hr
  · exact absurd hr (by simp)
  · rename_i a b c hf
    split_ifs at hr with hc
    · have hw' : 0 < w.ustar := lt_of_le_of_ne hw (Ne.symm hc.1)
      have hu' : 0 < s.u := lt_of_le_of_ne hu (Ne.symm hc.2)
      have hf' : formulation p d s.u w { th with uthf := th.uth } =
          .ok (a, a, (formulation p d s.u w { th with uthf := th.uth }).toOption.bind (·.2.2)) := by
        unfold formulation at hf ⊢
        simp only at hf ⊢
        split_ifs at hf ⊢ <;> simp_all [Except.toOption]
      have := (formulation_spec p hp d s.u hd hu' w hw' { th with uthf := th.uth } h1 h1 hf').1
      obtain ⟨v, h0, hv, hz⟩ := supplies_scale this hp.accfac
      simp only [Except.ok.injEq] at hr
      refine ⟨v, by rw [← hr, ← hv], h0, ?_⟩
      rw [hz]
      constructor
      · intro h; exact Or.inr (Or.inr h)
      · rintro (h | h | h)
        · exact absurd h hc.1
        · exact absurd h hc.2
        · exact h
    · simp only [Except.ok.injEq] at hr
      refine ⟨0, by rw [← hr]; simp, le_rfl, ?_⟩
      simp only [true_iff]
      by_cases h : w.ustar = 0
      · exact Or.inl h
      · refine Or.inr (Or.inl ?_)
        by_contra h'
        exact hc ⟨h, h'⟩

theorem formulation_same (p : Params) (d u : ℝ) (w : Wind) (th : Thresholds) (he : th.uthf = th.uth)
    {a b : XR} {c : Option XR} (hf : formulation p d u w th = .ok (a, b, c)) : a = b := by
  unfold formulation at hf
  simp only [he] at hf
  split_ifs at hf <;> simp only [Except.ok.injEq, Prod.mk.injEq] at hf <;>
    rw [← hf.1, ← hf.2.1]

/-- C52: the concentration a grain size could sustain on an unlimited bed (`Cuf`) is finite and not
negative as well, and zero in calm cells. -/
theorem C52_fraction_capacity (p : Params) (hp : Physical p) (hon : p.processTransport = true) (d : ℝ)
    (hd : 0 < d) (w : Wind) (hw : 0 ≤ w.ustar) (duran s : Speed)
    (hs : grainspeed p w duran = .ok s) (hu : 0 ≤ s.u) (th : Thresholds) (h1 : th.uth.IsThreshold)
    (h2 : th.uthf.IsThreshold) (old r : Conc) (hr : equilibrium p d w duran th old = .ok r) :
    ∃ c : ℝ, r.Cuf = fin c ∧ 0 ≤ c ∧ (w.ustar = 0 ∨ s.u = 0 → c = 0) ∧
      (th.uthf = th.uth → r.Cuf = r.Cu) := by
  unfold equilibrium at hr
  simp only [hon, if_true, hs] at hr
  split at hr
  · exact absurd hr (by simp)
  · rename_i a b c hf
    split_ifs at hr with hc
    · have hw' : 0 < w.ustar := lt_of_le_of_ne hw (Ne.symm hc.1)
      have hu' : 0 < s.u := lt_of_le_of_ne hu (Ne.symm hc.2)
      have hsp := formulation_spec p hp d s.u hd hu' w hw' th h1 h2 hf
      simp only [Except.ok.injEq] at hr
      have hb : ∃ P, Supplies b P := by
        rcases hsp.2 with h | h
        · exact ⟨_, h⟩
        · exact ⟨_, h ▸ hsp.1⟩
      obtain ⟨P, hb⟩ := hb
      obtain ⟨v, h0, hv, _⟩ := supplies_scale hb hp.accfac
      refine ⟨v, by rw [← hr, ← hv], h0, ?_, ?_⟩
      · rintro (h | h)
        · exact absurd h hc.1
        · exact absurd h hc.2
      · intro he
        have : a = b := formulation_same p d s.u w th he hf
        rw [← hr]; simp only [this]
    · simp only [Except.ok.injEq] at hr
      exact ⟨0, by rw [← hr]; simp, le_rfl, fun _ => rfl, fun _ => by rw [← hr]⟩

/-- C52: the call fails exactly for an unknown grain speed method (`NameError`), for `bagnold_gs` on a
planar grid (`IndexError`) and for an unknown formulation (`ValueError`), in this order. -/
theorem C52_errors (p : Params) (hon : p.processTransport = true) (d : ℝ) (w : Wind) (duran : Speed)
    (th : Thresholds) (old : Conc) (e : PyErr) :
    equilibrium p d w duran th old = .error e ↔
      (p.methodGrainspeed ∉ grainspeedMethods ∧ e = .nameError) ∨
      (p.methodGrainspeed ∈ grainspeedMethods ∧
        ((lower p.methodTransport = "bagnold_gs" ∧ p.planar = true ∧ e = .indexError) ∨
         (lower p.methodTransport ∉ transportMethods ∧ e = .valueError))) := by
  unfold equilibrium
  simp only [hon, if_true]
  have hg : (∃ s, grainspeed p w duran = .ok s) ∧ p.methodGrainspeed ∈ grainspeedMethods ∨
      grainspeed p w duran = .error .nameError ∧ p.methodGrainspeed ∉ grainspeedMethods := by
    unfold grainspeed grainspeedMethods
    split_ifs with a b c <;> simp_all
  rcases hg with ⟨⟨s, hs⟩, hm⟩ | ⟨hs, hm⟩
  · simp only [hs, hm, not_true, false_and, true_and, false_or]
    have hf : (∃ v, formulation p d s.u w th = .ok v) ∧ lower p.methodTransport ∈ transportMethods ∧
          ¬ (lower p.methodTransport = "bagnold_gs" ∧ p.planar = true) ∨
        formulation p d s.u w th = .error .indexError ∧ lower p.methodTransport = "bagnold_gs" ∧
          p.planar = true ∨
        formulation p d s.u w th = .error .valueError ∧
          lower p.methodTransport ∉ transportMethods := by
      unfold formulation transportMethods
      simp only
      split_ifs with m1 m2 m2' m3 m4 m5 m6 m7 <;> simp_all
    rcases hf with ⟨⟨⟨a, b, c⟩, hf⟩, h1, h2⟩ | ⟨hf, h1, h2⟩ | ⟨hf, h1⟩
    · simp only [hf]
      constructor
      · intro h; split_ifs at h
      · rintro (h | h)
        · exact absurd ⟨h.1, h.2.1⟩ h2
        · exact absurd h1 h.1
    · simp only [hf, h1, h2]
      have hb : "bagnold_gs" ∈ transportMethods := by decide
      constructor
      · intro h; cases h; exact Or.inl ⟨trivial, trivial, rfl⟩
      · rintro (h | h)
        · rw [h.2.2]
        · exact absurd hb h.1
    · simp only [hf, h1]
      have : lower p.methodTransport ≠ "bagnold_gs" := by
        intro h; rw [h] at h1; exact h1 (by decide)
      constructor
      · intro h; cases h; exact Or.inr ⟨not_false, rfl⟩
      · rintro (h | h)
        · exact absurd h.1 this
        · rw [h.2]
  · simp only [hs, hm, not_false_eq_true, true_and, false_and, or_false]
    exact ⟨fun h => by cases h; rfl, fun h => by rw [h]⟩

/-- Parameters of the examples. -/
noncomputable def exTransport (m g : String) : Params :=
  ⟨true, m, g, 1.5, 2.78, 6.7, 5, 1.225, 9.81, 1, false⟩

theorem exTransport_physical (m g : String) : Physical (exTransport m g) := by
  constructor <;> norm_num [exTransport]

/-- The hypotheses of `C52_capacity` hold for bagnold with wind above the threshold: transport. -/
example : ∃ s, grainspeed (exTransport "bagnold" "windspeed") ⟨10, 10, 0, 0.5, 0.5, 0, 0.5⟩ ⟨1, 1, 0⟩ =
    .ok s ∧ 0 < s.u ∧ ¬ NoPickup "bagnold" 0.5 (fin 0.25) ∧ NoPickup "bagnold" 0.5 pinf := by
  refine ⟨_, rfl, by norm_num, ?_, ?_⟩
  · unfold NoPickup; rw [if_neg (by decide)]; simp only [leOf]; norm_num
  · unfold NoPickup; rw [if_neg (by decide)]; trivial

/-! ### C53 -/

theorem scaled' {a b a' b' c u : ℝ} (hc : 0 < c) (hu : 0 < u) (h : a * b ≤ a' * b') :
    c * a * b * (1 / u) ≤ c * a' * b' * (1 / u) := by
  have := scaled (c := c) hc hu h
  rw [← mul_assoc, ← mul_assoc] at this
  exact this

theorem formulation_mono (p : Params) (hp : Physical p) (d u : ℝ) (hd : 0 < d) (hu : 0 < u)
    (w w' : Wind) (hw : 0 < w.ustar) (hww : w.ustar ≤ w'.ustar) (th th' : Thresholds)
    (h1 : th.uth.IsThreshold) (hthe : th'.uth = th.uth) {a b a' b' : XR} {c c' : Option XR}
    (h : formulation p d u w th = .ok (a, b, c)) (h' : formulation p d u w' th' = .ok (a', b', c')) :
    XR.le a a' := by
  have hk : 0 < p.rhoa / p.g := div_pos hp.rhoa hp.g
  have hw' : 0 < w'.ustar := lt_of_lt_of_le hw hww
  unfold formulation at h h'
  simp only at h h'
  split_ifs at h h' with m1 m2 m2' m3 m4 m5 m6 m7
  · simp only [Except.ok.injEq, Prod.mk.injEq] at h h'
    rw [← h.1, ← h'.1, hthe]
    refine mono_of_finite (bagnold _ u) _ _ _ h1 hww (bagnold_supplies _ _ _ _ (mul_pos hp.Cb hk) hu h1)
      (bagnold_supplies _ _ _ _ (mul_pos hp.Cb hk) hu h1) ?_
    intro t ht hts
    simp only [ht, bagnold, cube, fin_sub, fin_mul, max0_fin]
    exact max0_mono (scaled (mul_pos hp.Cb hk) hu (cube_mono (by linarith)))
  · simp only [Except.ok.injEq, Prod.mk.injEq] at h h'
    have hc : 0 < p.Cb * Real.sqrt (d / 0.00025) * (p.rhoa / p.g) :=
      mul_pos (mul_pos hp.Cb (Real.sqrt_pos.mpr (by positivity))) hk
    rw [← h.1, ← h'.1, hthe]
    refine mono_of_finite (bagnold _ u) _ _ _ h1 hww (bagnold_supplies _ _ _ _ hc hu h1)
      (bagnold_supplies _ _ _ _ hc hu h1) ?_
    intro t ht hts
    simp only [ht, bagnold, cube, fin_sub, fin_mul, max0_fin]
    exact max0_mono (scaled hc hu (cube_mono (by linarith)))
  · simp only [Except.ok.injEq, Prod.mk.injEq] at h h'
    rw [← h.1, ← h'.1, hthe]
    refine mono_of_finite (kawamura _ u) _ _ _ h1 hww
      (kawamura_supplies _ _ _ _ (mul_pos hp.Ck hk) hu hw h1)
      (kawamura_supplies _ _ _ _ (mul_pos hp.Ck hk) hu hw' h1) ?_
    intro t ht hts
    have ht0 : 0 ≤ t := by rw [ht] at h1; exact h1
    simp only [ht, kawamura, XR.sq, fin_sub, fin_add, fin_mul, max0_fin]
    refine max0_mono ?_
    refine scaled' (mul_pos hp.Ck hk) hu ?_
    refine mul_le_mul (mul_self_le_mul_self (by linarith) (by linarith)) (by linarith) (by linarith)
      (mul_self_nonneg _)
  · simp only [Except.ok.injEq, Prod.mk.injEq] at h h'
    rw [← h.1, ← h'.1, hthe]
    refine mono_of_finite (lettau _ u) _ _ _ h1 hww
      (lettau_supplies _ _ _ _ (mul_pos hp.Cl hk) hu hw h1)
      (lettau_supplies _ _ _ _ (mul_pos hp.Cl hk) hu hw' h1) ?_
    intro t ht hts
    simp only [ht, lettau, XR.sq, fin_sub, fin_mul, max0_fin]
    refine max0_mono ?_
    refine scaled' (mul_pos hp.Cl hk) hu ?_
    refine mul_le_mul (mul_self_le_mul_self (by linarith) (by linarith)) (by linarith) (by linarith)
      (mul_self_nonneg _)
  · simp only [Except.ok.injEq, Prod.mk.injEq] at h h'
    rw [← h.1, ← h'.1, hthe]
    have hc := mul_pos hp.Cdk hk
    cases hth : th.uth with
    | fin t =>
      have ht0 : 0 ≤ t := by rw [hth] at h1; exact h1
      simp only [dk, XR.sq, fin_sub, fin_mul, max0_fin]
      refine max0_mono ?_
      have h08 : 0 ≤ p.Cdk * (p.rhoa / p.g) * 0.8 * t := by positivity
      have := mul_self_le_mul_self hw.le hww
      exact mul_le_mul_of_nonneg_right (mul_le_mul_of_nonneg_left (by linarith) h08)
        (by positivity)
    | pinf =>
      have := zero_le_supplies (dk_supplies _ u w'.ustar pinf hc hu hw' trivial)
      rw [supplies_zero (dk_supplies _ u w.ustar pinf hc hu hw trivial)
        (Or.inr (by rw [fin_mul_pinf (by norm_num)]; trivial))]
      exact this
    | ninf => rw [hth] at h1; exact h1.elim
    | nan => rw [hth] at h1; exact h1.elim
  · simp only [Except.ok.injEq, Prod.mk.injEq] at h h'
    have hc : 0 < 2 * 0.35 * (p.rhoa / p.g) := by positivity
    rw [← h.1, ← h'.1, hthe]
    refine mono_of_finite (sauermann _) _ _ _ h1 hww (sauermann_supplies _ _ _ hc hw h1)
      (sauermann_supplies _ _ _ hc hw' h1) ?_
    intro t ht hts
    simp only [ht, sauermann, XR.sq, fin_sub, fin_mul, max0_fin]
    refine max0_mono (mul_le_mul_of_nonneg_left ?_ hc.le)
    have := mul_self_le_mul_self hw.le hww
    linarith
  · simp only [Except.ok.injEq, Prod.mk.injEq] at h h'
    rw [← h.1, ← h'.1, hthe]
    refine mono_of_finite (vanRijn _ u) _ _ _ h1 hww
      (vanRijn_supplies _ _ _ _ (mul_pos hp.Cb hk) hu hw h1)
      (vanRijn_supplies _ _ _ _ (mul_pos hp.Cb hk) hu hw' h1) ?_
    intro t ht hts
    simp only [ht, vanRijn, cube, fin_sub, fin_mul, max0_fin]
    refine max0_mono (scaled (mul_pos hp.Cb hk) hu ?_)
    have := cube_mono hww
    linarith

theorem le_scale {a b : XR} (h : XR.le a b) {c : ℝ} (hc : 0 < c) : XR.le (a * fin c) (b * fin c) := by
  cases a with
  | fin x =>
    cases b with
    | fin y => exact mul_le_mul_of_nonneg_right h hc.le
    | pinf => rw [pinf_mul_fin hc]; trivial
    | ninf => exact h.elim
    | nan => exact h.elim
  | pinf =>
    cases b with
    | pinf => rw [pinf_mul_fin hc]; trivial
    | fin y => exact h.elim
    | ninf => exact h.elim
    | nan => exact h.elim
  | ninf => cases b <;> exact h.elim
  | nan => cases b <;> exact h.elim

/-- C53: for the same grain speed and threshold a stronger wind never lowers the equilibrium
concentration. -/
theorem C53_wind (p : Params) (hp : Physical p) (hon : p.processTransport = true) (d : ℝ) (hd : 0 < d)
    (w w' : Wind) (hw : 0 ≤ w.ustar) (hww : w.ustar ≤ w'.ustar) (duran duran' s s' : Speed)
    (hs : grainspeed p w duran = .ok s) (hs' : grainspeed p w' duran' = .ok s') (hu : 0 ≤ s.u)
    (huu : s'.u = s.u) (th th' : Thresholds) (h1 : th.uth.IsThreshold) (hth : th'.uth = th.uth)
    (old old' r r' : Conc) (hr : equilibrium p d w duran th old = .ok r)
    (hr' : equilibrium p d w' duran' th' old' = .ok r') : XR.le r.Cu r'.Cu := by
  obtain ⟨c', hc', h0', -⟩ := C52_capacity p hp hon d hd w' (hw.trans hww) duran' s' hs' (huu ▸ hu) th'
    (hth ▸ h1) old' r' hr'
  by_cases hcalm : w.ustar = 0 ∨ s.u = 0
  · obtain ⟨c, hc, -, hz⟩ := C52_capacity p hp hon d hd w hw duran s hs hu th h1 old r hr
    rw [hc, hc', hz.mpr (hcalm.elim Or.inl fun h => Or.inr (Or.inl h))]
    exact h0'
  · push Not at hcalm
    have hw0 : 0 < w.ustar := lt_of_le_of_ne hw (Ne.symm hcalm.1)
    have hu0 : 0 < s.u := lt_of_le_of_ne hu (Ne.symm hcalm.2)
    unfold equilibrium at hr hr'
    simp only [hon, if_true, hs, hs', huu] at hr hr'
    split at hr
    · exact absurd hr (by simp)
    · rename_i a b c hf
      split at hr'
      · exact absurd hr' (by simp)
      · rename_i a' b' c' hf'
        rw [if_pos ⟨hcalm.1, hcalm.2⟩] at hr
        rw [if_pos ⟨(lt_of_lt_of_le hw0 hww).ne', hcalm.2⟩] at hr'
        simp only [Except.ok.injEq] at hr hr'
        rw [← hr, ← hr']
        exact le_scale (formulation_mono p hp d s.u hd hu0 w w' hw0 hww th th' h1 hth hf hf') hp.accfac

/-- The formulations that a higher threshold never makes more productive. -/
def thresholdMethods : List String :=
  ["bagnold", "bagnold_gs", "lettau", "sauermann", "vanrijn_strypsteen"]

theorem anti_of_finite (f : XR → XR) (s : ℝ) (th th' : XR) (hth : XR.le th th')
    (hsup : Supplies (f th) (leOf s th)) (hsup' : Supplies (f th') (leOf s th'))
    (hfin : ∀ t t' : ℝ, th = fin t → th' = fin t' → t ≤ t' → XR.le (f th') (f th)) :
    XR.le (f th') (f th) := by
  cases th' with
  | fin t' =>
    cases th with
    | fin t => exact hfin t t' rfl rfl hth
    | pinf => exact hth.elim
    | ninf => exact hth.elim
    | nan => exact hth.elim
  | pinf => rw [supplies_zero hsup' trivial]; exact zero_le_supplies hsup
  | ninf => cases th <;> exact hth.elim
  | nan => cases th <;> exact hth.elim

theorem threshold_of_le {a b : XR} (h : XR.le a b) (ha : a.IsThreshold) : b.IsThreshold := by
  cases a with
  | fin x =>
    cases b with
    | fin y => exact le_trans (show (0:ℝ) ≤ x from ha) h
    | pinf => trivial
    | ninf => exact h.elim
    | nan => exact h.elim
  | pinf =>
    cases b with
    | pinf => trivial
    | fin y => exact h.elim
    | ninf => exact h.elim
    | nan => exact h.elim
  | ninf => exact ha.elim
  | nan => exact ha.elim

theorem formulation_anti (p : Params) (hp : Physical p) (hm : lower p.methodTransport ∈ thresholdMethods)
    (d u : ℝ) (hd : 0 < d) (hu : 0 < u) (w : Wind) (hw : 0 < w.ustar) (th th' : Thresholds)
    (h1 : th.uth.IsThreshold) (hle : XR.le th.uth th'.uth) {a b a' b' : XR} {c c' : Option XR}
    (h : formulation p d u w th = .ok (a, b, c)) (h' : formulation p d u w th' = .ok (a', b', c')) :
    XR.le a' a := by
  have hk : 0 < p.rhoa / p.g := div_pos hp.rhoa hp.g
  have h1' := threshold_of_le hle h1
  unfold formulation at h h'
  simp only at h h'
  split_ifs at h h' with m1 m2 m2' m3 m4 m5 m6 m7
  · simp only [Except.ok.injEq, Prod.mk.injEq] at h h'
    rw [← h.1, ← h'.1]
    have hc := mul_pos hp.Cb hk
    refine anti_of_finite (bagnold _ u w.ustar) _ _ _ hle (bagnold_supplies _ _ _ _ hc hu h1)
      (bagnold_supplies _ _ _ _ hc hu h1') ?_
    intro t t' e e' htt
    simp only [e, e', bagnold, cube, fin_sub, fin_mul, max0_fin]
    exact max0_mono (scaled hc hu (cube_mono (by linarith)))
  · simp only [Except.ok.injEq, Prod.mk.injEq] at h h'
    rw [← h.1, ← h'.1]
    have hc : 0 < p.Cb * Real.sqrt (d / 0.00025) * (p.rhoa / p.g) :=
      mul_pos (mul_pos hp.Cb (Real.sqrt_pos.mpr (by positivity))) hk
    refine anti_of_finite (bagnold _ u w.ustar) _ _ _ hle (bagnold_supplies _ _ _ _ hc hu h1)
      (bagnold_supplies _ _ _ _ hc hu h1') ?_
    intro t t' e e' htt
    simp only [e, e', bagnold, cube, fin_sub, fin_mul, max0_fin]
    exact max0_mono (scaled hc hu (cube_mono (by linarith)))
  · rw [m3] at hm; exact absurd hm (by decide)
  · simp only [Except.ok.injEq, Prod.mk.injEq] at h h'
    rw [← h.1, ← h'.1]
    have hc := mul_pos hp.Cl hk
    refine anti_of_finite (lettau _ u w.ustar) _ _ _ hle (lettau_supplies _ _ _ _ hc hu hw h1)
      (lettau_supplies _ _ _ _ hc hu hw h1') ?_
    intro t t' e e' htt
    simp only [e, e', lettau, XR.sq, fin_sub, fin_mul, max0_fin]
    refine max0_mono ?_
    exact scaled' hc hu (mul_le_mul_of_nonneg_left (by linarith) (mul_self_nonneg _))
  · rw [m5] at hm; exact absurd hm (by decide)
  · simp only [Except.ok.injEq, Prod.mk.injEq] at h h'
    rw [← h.1, ← h'.1]
    have hc : 0 < 2 * 0.35 * (p.rhoa / p.g) := by positivity
    refine anti_of_finite (sauermann _ w.ustar) _ _ _ hle (sauermann_supplies _ _ _ hc hw h1)
      (sauermann_supplies _ _ _ hc hw h1') ?_
    intro t t' e e' htt
    have ht0 : 0 ≤ t := by rw [e] at h1; exact h1
    simp only [e, e', sauermann, XR.sq, fin_sub, fin_mul, max0_fin]
    refine max0_mono (mul_le_mul_of_nonneg_left ?_ hc.le)
    have := mul_self_le_mul_self ht0 htt
    linarith
  · simp only [Except.ok.injEq, Prod.mk.injEq] at h h'
    rw [← h.1, ← h'.1]
    have hc := mul_pos hp.Cb hk
    refine anti_of_finite (vanRijn _ u w.ustar) _ _ _ hle (vanRijn_supplies _ _ _ _ hc hu hw h1)
      (vanRijn_supplies _ _ _ _ hc hu hw h1') ?_
    intro t t' e e' htt
    simp only [e, e', vanRijn, cube, fin_sub, fin_mul, max0_fin]
    refine max0_mono (scaled hc hu ?_)
    have := cube_mono htt
    linarith

/-- C53: a higher threshold never raises the equilibrium concentration (all formulations but `dk` and
`kawamura`). -/
theorem C53_threshold (p : Params) (hp : Physical p) (hon : p.processTransport = true)
    (hm : lower p.methodTransport ∈ thresholdMethods) (d : ℝ) (hd : 0 < d)
    (w : Wind) (hw : 0 ≤ w.ustar) (duran s : Speed) (hs : grainspeed p w duran = .ok s) (hu : 0 ≤ s.u)
    (th th' : Thresholds) (h1 : th.uth.IsThreshold) (hle : XR.le th.uth th'.uth)
    (old old' r r' : Conc) (hr : equilibrium p d w duran th old = .ok r)
    (hr' : equilibrium p d w duran th' old' = .ok r') : XR.le r'.Cu r.Cu := by
  by_cases hcalm : w.ustar = 0 ∨ s.u = 0
  · obtain ⟨c, hc, -, hz⟩ := C52_capacity p hp hon d hd w hw duran s hs hu th h1 old r hr
    obtain ⟨c', hc', -, hz'⟩ := C52_capacity p hp hon d hd w hw duran s hs hu th'
      (threshold_of_le hle h1) old' r' hr'
    rw [hc, hc', hz.mpr (hcalm.elim Or.inl fun h => Or.inr (Or.inl h)), hz'.mpr (hcalm.elim Or.inl fun h => Or.inr (Or.inl h))]
    exact le_refl (0 : ℝ)
  · push Not at hcalm
    have hw0 : 0 < w.ustar := lt_of_le_of_ne hw (Ne.symm hcalm.1)
    have hu0 : 0 < s.u := lt_of_le_of_ne hu (Ne.symm hcalm.2)
    unfold equilibrium at hr hr'
    simp only [hon, if_true, hs] at hr hr'
    split at hr
    · exact absurd hr (by simp)
    · rename_i a b c hf
      split at hr'
      · exact absurd hr' (by simp)
      · rename_i a' b' c' hf'
        rw [if_pos ⟨hcalm.1, hcalm.2⟩] at hr hr'
        simp only [Except.ok.injEq] at hr hr'
        rw [← hr, ← hr']
        exact le_scale (formulation_anti p hp hm d s.u hd hu0 w hw0 th th' h1 hle hf hf') hp.accfac

/-- C53: the exceptions are real.  With `kawamura` raising the threshold from 0 to a third of the shear
velocity raises the equilibrium concentration, with `dk` raising it from zero does. -/
theorem C53_threshold_exceptions (p : Params) (hp : Physical p) (hon : p.processTransport = true)
    (hm : p.methodTransport = "kawamura" ∨ p.methodTransport = "dk") (d : ℝ)
    (w : Wind) (hw : 0 < w.ustar) (duran s : Speed) (hs : grainspeed p w duran = .ok s) (hu : 0 < s.u)
    (old : Conc) (t0 t1 : XR) : ∃ r r' : ℝ, r < r' ∧
      (∃ f g, equilibrium p d w duran ⟨fin 0, t0, t1⟩ old = .ok ⟨fin r, f, g⟩) ∧
      (∃ f g, equilibrium p d w duran ⟨fin (w.ustar / 3), t0, t1⟩ old = .ok ⟨fin r', f, g⟩) := by
  have hk : 0 < p.rhoa / p.g := div_pos hp.rhoa hp.g
  have hacc := hp.accfac
  have step : ∀ th : Thresholds, ∀ v : ℝ, (∃ b c, formulation p d s.u w th = .ok (fin v, b, c)) →
      ∃ f g, equilibrium p d w duran th old = .ok ⟨fin (v * p.accfac), f, g⟩ := by
    rintro th v ⟨b, c, hf⟩
    refine ⟨b * fin p.accfac, c.getD old.Cu0 * fin p.accfac, ?_⟩
    unfold equilibrium
    simp only [hon, if_true, hs, hf]
    rw [if_pos ⟨hw.ne', hu.ne'⟩, fin_mul]
  rcases hm with hm | hm
  · have hf : ∀ t : ℝ, ∃ b c, formulation p d s.u w ⟨fin t, t0, t1⟩ =
        .ok (fin (max 0 (p.Ck * (p.rhoa / p.g) * ((w.ustar + t) * (w.ustar + t)) * (w.ustar - t) *
          (1 / s.u))), b, c) := by
      intro t
      refine ⟨kawamura (p.Ck * (p.rhoa / p.g)) s.u w.ustar t0, none, ?_⟩
      have l : lower p.methodTransport = "kawamura" := by rw [hm]; decide
      unfold formulation
      simp only [l]
      rw [if_neg (by decide), if_neg (by decide), if_pos trivial]
      simp only [kawamura, XR.sq, fin_sub, fin_add, fin_mul, max0_fin]
    refine ⟨_, _, ?_, step _ _ (hf 0), step _ _ (hf (w.ustar / 3))⟩
    refine mul_lt_mul_of_pos_right ?_ hacc
    have hc : 0 < p.Ck * (p.rhoa / p.g) * (1 / s.u) := mul_pos (mul_pos hp.Ck hk) (by positivity)
    have hx : 0 < p.Ck * (p.rhoa / p.g) * (1 / s.u) * (w.ustar * w.ustar * w.ustar) := by positivity
    have e1 : p.Ck * (p.rhoa / p.g) * ((w.ustar + 0) * (w.ustar + 0)) * (w.ustar - 0) * (1 / s.u) =
        p.Ck * (p.rhoa / p.g) * (1 / s.u) * (w.ustar * w.ustar * w.ustar) := by ring
    have e2 : p.Ck * (p.rhoa / p.g) * ((w.ustar + w.ustar / 3) * (w.ustar + w.ustar / 3)) *
        (w.ustar - w.ustar / 3) * (1 / s.u) =
        32 / 27 * (p.Ck * (p.rhoa / p.g) * (1 / s.u) * (w.ustar * w.ustar * w.ustar)) := by ring
    rw [e1, e2, max_eq_right hx.le, max_eq_right (by linarith)]
    linarith
  · have hf : ∀ t : ℝ, ∃ b c, formulation p d s.u w ⟨fin t, t0, t1⟩ =
        .ok (fin (max 0 (p.Cdk * (p.rhoa / p.g) * 0.8 * t *
          (w.ustar * w.ustar - 0.8 * t * (0.8 * t)) * (1 / s.u))), b, c) := by
      intro t
      refine ⟨dk (p.Cdk * (p.rhoa / p.g)) s.u w.ustar t0,
        some (dk (p.Cdk * (p.rhoa / p.g)) s.u w.ustar0 t1), ?_⟩
      have l : lower p.methodTransport = "dk" := by rw [hm]; decide
      unfold formulation
      simp only [l]
      rw [if_neg (by decide), if_neg (by decide), if_neg (by decide), if_neg (by decide), if_pos trivial]
      simp only [dk, XR.sq, fin_sub, fin_mul, max0_fin]
    refine ⟨_, _, ?_, step _ _ (hf 0), step _ _ (hf (w.ustar / 3))⟩
    refine mul_lt_mul_of_pos_right ?_ hacc
    have hc : 0 < p.Cdk * (p.rhoa / p.g) := mul_pos hp.Cdk hk
    have h2 : 0 < w.ustar * w.ustar - 0.8 * (w.ustar / 3) * (0.8 * (w.ustar / 3)) := by
      nlinarith [mul_pos hw hw]
    have hx : 0 < p.Cdk * (p.rhoa / p.g) * 0.8 * (w.ustar / 3) * (w.ustar * w.ustar -
      0.8 * (w.ustar / 3) * (0.8 * (w.ustar / 3))) * (1 / s.u) := by positivity
    rw [max_eq_right hx.le, mul_zero, zero_mul, zero_mul, max_self]
    exact hx

/-- The settings of `C53_wind` and `C53_threshold` are consistent. -/
example : lower "Bagnold" ∈ thresholdMethods ∧ XR.le (fin 0.2) pinf ∧ (fin 0.2 : XR).IsThreshold := by
  refine ⟨by decide, trivial, ?_⟩
  simp only [IsThreshold]; norm_num

end Aeolis.Props
