import Verif.Proofs.Threshold
import Verif.Spec.Threshold
import Verif.Props.Transport

/-!
Shear velocity threshold: C55, C56, C57, C58, C83, C84, C85.
-/

set_option linter.unusedSectionVars false

namespace Aeolis.Props

open Aeolis.Threshold Aeolis.Spec XR Finset

variable {nf : ℕ}

/-! ### C55 -/

theorem gravimetric_eq (c : Config nf) (v : ℝ) : gravimetric c v = waterRatio c v := rfl

theorem moist_pos (c : Config nf) (hc : PhysicalBed c) (moist : ℝ) (h : moistCell c moist) :
    0 < gravimetric c moist := by
  unfold moistCell at h
  have hd : 0 < c.rhog * (1 - c.porosity) :=
    mul_pos (hc.rhoa.trans hc.rhog) (by linarith [hc.porosity])
  have : 0 ≤ c.reswMoist * c.rhow / (c.rhog * (1 - c.porosity)) :=
    div_nonneg (mul_nonneg hc.resw hc.rhow.le) hd.le
  linarith

theorem moistUpdate_raises (c : Config nf) (hc : PhysicalBed c)
    (hm : lower c.methodMoistThreshold ∈ incrementalMoist) (mg : ℝ) (hmg : 0 < mg) (f : XR → XR)
    (h : moistUpdate c mg = .ok f) (uth : XR) (hu : uth.IsThreshold) : XR.le uth (f uth) := by
  unfold moistUpdate at h
  split at h
  swap
  · split_ifs at h
  rename_i f' hf'
  have hmem := lookup_mem _ _ _ hf'
  rw [← Except.ok.inj h]
  simp only [moistTable, List.mem_cons, Prod.mk.injEq, List.not_mem_nil, or_false] at hmem
  rcases hmem with ⟨m, rfl⟩ | ⟨m, rfl⟩ | ⟨m, rfl⟩ | ⟨m, rfl⟩ | ⟨m, rfl⟩ | ⟨m, rfl⟩ | ⟨m, rfl⟩ | ⟨m, rfl⟩ |
    ⟨m, rfl⟩ | ⟨m, rfl⟩
  · unfold bellyJohnson
    obtain ⟨f, hf, he⟩ := one_le_max1 (v := fin 1.8 + fin 0.6 * log10 (mg * 100))
      (by unfold log10; rw [if_pos (by linarith)]; simp) (by unfold log10; rw [if_pos (by linarith)]; simp)
    rw [he]
    exact le_mul_factor hu hf
  · exact le_add_term hu (by linarith)
  · unfold chepil
    have hq : 0 ≤ 0.6 * mg ^ 2 / (c.rhoa * c.w15 ^ 2) := by
      have := hc.rhoa
      positivity
    cases uth with
    | fin r =>
      have hr : 0 ≤ r := hu
      rw [show XR.sq (fin r) + fin (0.6 * mg ^ 2 / (c.rhoa * c.w15 ^ 2)) =
        fin (r * r + 0.6 * mg ^ 2 / (c.rhoa * c.w15 ^ 2)) from rfl, sqrt_fin (by positivity)]
      refine Real.le_sqrt_of_sq_le ?_
      nlinarith
    | pinf => trivial
    | ninf => exact hu.elim
    | nan => exact hu.elim
  · rw [m] at hm; exact absurd hm (by decide)
  · refine le_add_term hu ?_
    have := hc.w15
    positivity
  · exact le_mul_factor hu (Real.one_le_exp (by linarith))
  · unfold dong2002
    obtain ⟨f, hf, he⟩ := one_le_sqrt_fin (r := 1 + dongK (meanGrain c * 1000) * 100 * mg)
      (by have := dongK_pos (meanGrain c * 1000); have := mul_pos (mul_pos this (by norm_num : (0:ℝ) < 100)) hmg
          linarith)
    rw [he]
    exact le_mul_factor hu hf
  · unfold gregoryDarwish
    have hd : 0 < meanGrain c := hc.grain
    have h1 : 0 ≤ 6 / Real.pi * 6.12e-05 / (c.rhog * c.g * meanGrain c ^ 2) := by
      have := Real.pi_pos
      have := hc.rhoa.trans hc.rhog
      have := hc.g
      positivity
    have h2 : 0 ≤ 738.8 / (c.rhow * c.g * meanGrain c) * Real.exp (-0.1 * mg / c.w15) *
        max (mg - 0.5 * c.w15) 0 := by
      have := hc.rhow
      have := hc.g
      have : 0 ≤ max (mg - 0.5 * c.w15) 0 := le_max_right _ _
      positivity
    obtain ⟨f, hf, he⟩ := one_le_sqrt_fin (r := 1 + mg + 6 / Real.pi * 6.12e-05 / (c.rhog * c.g * meanGrain c ^ 2)
      + 738.8 / (c.rhow * c.g * meanGrain c) * Real.exp (-0.1 * mg / c.w15) * max (mg - 0.5 * c.w15) 0)
      (by linarith)
    simp only [he]
    exact le_mul_factor hu hf
  · rw [m] at hm; exact absurd hm (by decide)
  · rw [m] at hm; exact absurd hm (by decide)

/-- C55: with the correcting formulations moisture never lowers the threshold. -/
theorem C55_raises (c : Config nf) (hc : PhysicalBed c)
    (hm : lower c.methodMoistThreshold ∈ incrementalMoist) (moist : ℝ) (f : XR → XR)
    (h : moisture c moist = .ok f) (uth : XR) (hu : uth.IsThreshold) : XR.le uth (f uth) := by
  unfold moisture at h
  split at h
  · exact absurd h (by simp)
  · rename_i a ha
    simp only [Except.ok.injEq] at h
    rw [← h]
    beta_reduce
    split_ifs with h1 h2
    · exact le_pinf hu
    · exact moistUpdate_raises c hc hm _ (moist_pos c hc moist h2) a ha uth hu
    · exact le_refl_threshold hu

/-- Configuration of the examples. -/
noncomputable def exThreshold (method : String) : Config 1 :=
  { processThreshold := true, thresholdFile := false, thGrainsize := true, thBedslope := false,
    thMoisture := true, processTide := false, thDrylayer := false, thHumidity := false, thSalt := false,
    thSheltering := false, thNelayer := false, methodMoistThreshold := method, hasMethodMoist := false,
    Aa := 0.085, rhog := 2650, rhoa := 1.225, rhow := 1025, g := 9.81, porosity := 0.4,
    reswMoist := 0.01, w15 := 0.02, csalt := 0.035, m := none, beta := 130, sigma := 4.2, eps := 1e-3,
    grainSize := fun _ => 0.000225, grainDist := fun _ => 1 }

theorem exThreshold_physical (method : String) : PhysicalBed (exThreshold method) := by
  constructor <;> norm_num [exThreshold]

/-- C55: the replacing formulation `saleh_fryear` does lower thresholds above 0.6 m/s in a moist cell
(2 % water by volume). -/
theorem C55_replacing_lowers : ∃ v : ℝ, v < 0.6 ∧ ∃ f,
    moisture (exThreshold "saleh_fryear") 0.02 = .ok f ∧ f (fin 0.6) = fin v := by
  have hl : lower "saleh_fryear" = "saleh_fryear" := by decide
  have hg : gravimetric (exThreshold "saleh_fryear") 0.02 = 0.02 * 1025 / (2650 * (1 - 0.4)) := by
    simp [gravimetric, exThreshold]
  have hc : moistCell (exThreshold "saleh_fryear") 0.02 := by
    unfold moistCell; rw [hg]; norm_num [exThreshold]
  have hu : ∀ mg, moistUpdate (exThreshold "saleh_fryear") mg =
      .ok (fun _ => fin (0.305 + 0.022 * mg / 0.02 + 0.506 * (mg / 0.02) ^ 2)) := by
    intro mg
    unfold moistUpdate
    simp only [show (exThreshold "saleh_fryear").methodMoistThreshold = "saleh_fryear" from rfl, hl]
    rfl
  refine ⟨0.305 + 0.022 * (0.02 * 1025 / (2650 * (1 - 0.4))) / 0.02 +
    0.506 * ((0.02 * 1025 / (2650 * (1 - 0.4))) / 0.02) ^ 2, by norm_num, ?_⟩
  unfold moisture
  rw [hg, hu]
  refine ⟨_, rfl, ?_⟩
  beta_reduce
  simp only [if_pos hc]
  rw [if_neg (by norm_num)]

/-- The hypotheses of `C55_raises` hold for hotta in a moist cell. -/
example : lower (exThreshold "Hotta").methodMoistThreshold ∈ incrementalMoist ∧
    ∃ f, moisture (exThreshold "Hotta") 0.03 = .ok f := by
  have hl : lower "Hotta" = "hotta" := by decide
  refine ⟨by simp only [exThreshold, hl]; decide, ?_⟩
  unfold moisture moistUpdate
  simp only [show (exThreshold "Hotta").methodMoistThreshold = "Hotta" from rfl, hl]
  exact ⟨_, rfl⟩

/-! ### C56 -/

/-- C56: whatever the formulation, a water mass above 6.4 % of the dry mass stops transport, and a water
mass of at most the residual one plus 0.5 % (and 6.4 %) does not matter. -/
theorem C56_wet_dry (c : Config nf) (moist : ℝ) (f : XR → XR) (h : moisture c moist = .ok f)
    (uth : XR) : (0.064 < waterRatio c moist → f uth = pinf) ∧
    (waterRatio c moist ≤ waterRatio c c.reswMoist + 0.005 → waterRatio c moist ≤ 0.064 →
      f uth = uth) := by
  unfold moisture at h
  split at h
  · exact absurd h (by simp)
  · simp only [Except.ok.injEq] at h
    rw [← h]
    refine ⟨fun hw => if_pos hw, fun h1 h2 => ?_⟩
    beta_reduce
    rw [gravimetric_eq, if_neg (not_lt.mpr h2), if_neg]
    exact not_lt.mpr h1

/-- C56: the call fails exactly for unknown formulations, with a `KeyError` on the error message
(`ValueError` only if the user defines the key `method_moist`). -/
theorem C56_unknown (c : Config nf) (moist : ℝ) (e : PyErr) :
    moisture c moist = .error e ↔
      lower c.methodMoistThreshold ∉ incrementalMoist ++ replacingMoist ∧
        e = if c.hasMethodMoist then .valueError else .keyError := by
  have hu : (∃ v, moistUpdate c (gravimetric c moist) = .ok v) ∧
        lower c.methodMoistThreshold ∈ incrementalMoist ++ replacingMoist ∨
      moistUpdate c (gravimetric c moist) =
          .error (if c.hasMethodMoist then .valueError else .keyError) ∧
        lower c.methodMoistThreshold ∉ incrementalMoist ++ replacingMoist := by
    unfold moistUpdate
    have hk : (moistTable c (gravimetric c moist)).lookup (lower c.methodMoistThreshold) = none ↔
        lower c.methodMoistThreshold ∉ incrementalMoist ++ replacingMoist := by
      rw [lookup_keys]
      have hperm : (["belly_johnson", "hotta", "chepil", "saleh_fryear", "saleh_fryear_mod", "shao",
        "dong_2002", "gregory_darwish", "cornelis", "dong_2007"] : List String).Perm
          (incrementalMoist ++ replacingMoist) := by decide
      exact not_congr hperm.mem_iff
    split
    · rename_i f hf
      refine Or.inl ⟨⟨_, rfl⟩, ?_⟩
      by_contra hno
      rw [hk.mpr hno] at hf
      exact absurd hf (by simp)
    · rename_i hf
      refine Or.inr ⟨?_, hk.mp hf⟩
      split_ifs <;> rfl
  unfold moisture
  rcases hu with ⟨⟨v, hv⟩, hm⟩ | ⟨hv, hm⟩
  · rw [hv]
    simp [hm]
  · rw [hv]
    simp only [hm, not_false_eq_true, true_and]
    exact ⟨fun h => by cases h; rfl, fun h => by rw [h]⟩

/-- C56: in a wet cell the whole model computes an infinite threshold, and therefore no transport, for all
fractions and all formulations, if sheltering is off and the mask has a positive real part. -/
theorem C56_wet_no_transport (c : Config nf) (x : Cell nf) (s s' : Thr nf)
    (hp : c.processThreshold = true) (hf : c.thresholdFile = false) (hm : c.thMoisture = true)
    (hs : c.thSheltering = false) (hmask : 0 < x.maskRe) (hw : 0.064 < waterRatio c x.moist)
    (h : compute c x s = .ok s') (i : Fin nf) : s'.uth i = pinf ∧ s'.uthf i = pinf := by
  unfold compute at h
  simp only [hp, hf] at h
  rw [if_pos (by simp)] at h
  set s1 : Thr nf := if c.thGrainsize = true then
    { s with uth := grainsizeThreshold c, uth0 := grainsizeThreshold c } else s with hs1
  cases hc : corrections c x s1.uth with
  | error e => rw [hc] at h; exact absurd h (by simp)
  | ok u =>
    rw [hc] at h
    simp only [Except.ok.injEq] at h
    have hu : u i = pinf := by
      unfold corrections at hc
      simp only [hm, if_true, hs, Bool.false_eq_true, if_false] at hc
      cases hmo : moisture c x.moist with
      | error e => rw [hmo] at hc; exact absurd hc (by simp)
      | ok f =>
        have hvi := (C56_wet_dry c x.moist f hmo (s1.uth i)).1 hw
        rw [hmo] at hc
        simp only at hc
        split_ifs at hc with h1 h2 h3
        · simp only [Except.ok.injEq] at hc
          rw [← hc]
          simp only [hvi]
          refine pinf_mul_fin ?_
          unfold saltFactor
          have := Real.exp_pos (0.1027 * 1e3 * (c.csalt * (1 - x.salt)))
          positivity
        · simp only [Except.ok.injEq] at hc
          rw [← hc]
          exact hvi
    have hmm : masked x (u i) = pinf := by
      rw [hu]; unfold masked; rw [pinf_mul_fin hmask]; rfl
    rw [← h]
    split_ifs
    · exact ⟨rfl, hmm⟩
    · exact ⟨hmm, hmm⟩

/-! ### C57 -/

open Classical in
/-- C57: the non-erodible layer makes the threshold infinite for all fractions in exactly the cells whose
bed is at most one centimetre above it, and changes nothing else; in particular the thresholds `uthf` of
the individual fractions stay as without a layer. -/
theorem C57_layer (c : Config nf) (x : Cell nf) (s : Thr nf) (z : ℝ) (hz : x.zne = some z)
    (hon : c.thNelayer = true) (s0 : Thr nf)
    (h0 : compute { c with thNelayer := false } x s = .ok s0) :
    ∃ s', compute c x s = .ok s' ∧ s'.uthf = s0.uthf ∧ s'.uth0 = s0.uth0 ∧
      (x.zb ≤ z + 0.01 → ∀ i, s'.uth i = pinf) ∧ (z + 0.01 < x.zb → s'.uth = s0.uth) := by
  have hex : exposed x ↔ x.zb ≤ z + 0.01 := by
    unfold exposed
    constructor
    · rintro ⟨y, hy, hle⟩
      rw [hz] at hy
      cases hy
      exact hle
    · intro h; exact ⟨z, hz, h⟩
  have hfirst : compute c x s =
      .ok (if c.thNelayer = true ∧ exposed x then { s0 with uth := fun _ => pinf } else s0) := by
    unfold compute at h0 ⊢
    simp only at h0 ⊢
    have hcor : ∀ u : Fin nf → XR, corrections { c with thNelayer := false } x u = corrections c x u :=
      fun u => rfl
    have hgr : grainsizeThreshold { c with thNelayer := false } = grainsizeThreshold c := rfl
    simp only [hcor, hgr, Bool.false_eq_true, false_and, if_false] at h0
    split at h0
    · exact absurd h0 (by simp)
    · rename_i t ht
      simp only [Except.ok.injEq] at h0
      rw [h0]
  rw [hfirst]
  by_cases h : x.zb ≤ z + 0.01
  · refine ⟨{ s0 with uth := fun _ => pinf }, by rw [if_pos ⟨hon, hex.mpr h⟩], rfl, rfl,
      fun _ _ => rfl, fun h' => absurd h (not_le.mpr h')⟩
  · refine ⟨s0, by rw [if_neg (by rw [hex]; tauto)], rfl, rfl, fun h' => absurd h' h, fun _ => rfl⟩

/-- C57: over the layer the equilibrium concentration is zero, in every formulation. -/
theorem C57_no_capacity (p : Transport.Params) (hp : Physical p) (hon : p.processTransport = true)
    (d : ℝ) (hd : 0 < d) (w : Transport.Wind) (hw : 0 ≤ w.ustar) (duran sp : Transport.Speed)
    (hs : Transport.grainspeed p w duran = .ok sp) (hu : 0 ≤ sp.u)
    (c : Config nf) (x : Cell nf) (s s' : Thr nf) (z : ℝ) (hz : x.zne = some z)
    (hne : c.thNelayer = true) (hex : x.zb ≤ z + 0.01) (h : compute c x s = .ok s') (i : Fin nf)
    (old r : Transport.Conc)
    (hr : Transport.equilibrium p d w duran ⟨s'.uth i, s'.uthf i, s'.uth0 i⟩ old = .ok r) :
    r.Cu = fin 0 := by
  have huth : s'.uth i = pinf := by
    unfold compute at h
    simp only at h
    split at h
    · exact absurd h (by simp)
    · simp only [Except.ok.injEq] at h
      rw [← h, if_pos ⟨hne, z, hz, hex⟩]
  obtain ⟨v, hv, -, hz'⟩ := C52_capacity p hp hon d hd w hw duran sp hs hu
    ⟨s'.uth i, s'.uthf i, s'.uth0 i⟩ (by rw [huth]; trivial) old r hr
  rw [hv, hz'.mpr]
  refine Or.inr (Or.inr ?_)
  simp only [huth]
  unfold NoPickup
  split_ifs
  · exact Or.inr (by rw [fin_mul_pinf (by norm_num)]; trivial)
  · trivial

/-! ### C58 -/

open Classical in
/-- Mass share of the fractions that the wind does not move. -/
noncomputable def immobileShare (x : Cell nf) (uth : Fin nf → XR) : ℝ :=
  (∑ i, if leOf x.ustar (uth i) then x.mass i else 0) / ∑ i, x.mass i

theorem immobile_eq (x : Cell nf) (uth : Fin nf → XR) (h : 0 < ∑ i, x.mass i) :
    immobile x uth = fin (immobileShare x uth) := by
  unfold immobile divR immobileShare
  rw [if_neg h.ne']

theorem immobileShare_mem (x : Cell nf) (uth : Fin nf → XR) (hm : ∀ i, 0 ≤ x.mass i)
    (h : 0 < ∑ i, x.mass i) : 0 ≤ immobileShare x uth ∧ immobileShare x uth ≤ 1 := by
  unfold immobileShare
  constructor
  · refine div_nonneg (sum_nonneg fun i _ => ?_) h.le
    split_ifs
    · exact hm i
    · exact le_rfl
  · rw [div_le_one h]
    refine sum_le_sum fun i _ => ?_
    split_ifs
    · exact le_rfl
    · exact hm i

/-- C58: sheltering multiplies the thresholds of all fractions by the factor of Raupach for the mass share
`g` of the immobile fractions.  The factor is between 0 and `sqrt (1 + m beta / sigma)`, it is 1 if all
fractions move, and with some fraction immobile it is at least 1 exactly if
`1 ≤ beta / sigma * (1 - m g)`. -/
theorem C58_factor (c : Config nf) (x : Cell nf) (uth v : Fin nf → XR) (m : ℝ) (hcm : c.m = some m)
    (hm0 : 0 < m) (hm1 : m ≤ 1) (hb : 0 ≤ c.beta) (hs : 0 < c.sigma) (hmass : ∀ i, 0 ≤ x.mass i)
    (hpos : 0 < ∑ i, x.mass i) (h : sheltering c x uth = .ok v) :
    ∃ f : ℝ, (∀ i, v i = uth i * fin f) ∧ 0 ≤ f ∧ f ≤ Real.sqrt (1 + m * c.beta / c.sigma) ∧
      f ^ 2 = (1 - m * immobileShare x uth) * (1 + m * c.beta / c.sigma * immobileShare x uth) ∧
      ((∀ i, ¬ leOf x.ustar (uth i)) → f = 1) ∧
      (0 < immobileShare x uth → (1 ≤ f ↔ 1 ≤ c.beta / c.sigma * (1 - m * immobileShare x uth))) := by
  unfold sheltering at h
  simp only [hcm, if_neg hs.ne', Except.ok.injEq] at h
  obtain ⟨g0, g1⟩ := immobileShare_mem x uth hmass hpos
  set g := immobileShare x uth with hg
  have hk : 0 ≤ m * c.beta / c.sigma := by positivity
  have ha : 0 ≤ 1 - m * g := by nlinarith
  have hbb : 0 ≤ 1 + m * c.beta / c.sigma * g := by positivity
  have hval : shelterFactor m c.beta c.sigma (immobile x uth) =
      fin (Real.sqrt ((1 - m * g) * (1 + m * c.beta / c.sigma * g))) := by
    rw [immobile_eq x uth hpos, ← hg]
    unfold shelterFactor
    simp only [fin_mul, fin_sub, fin_add]
    rw [sqrt_fin (mul_nonneg ha hbb)]
  refine ⟨Real.sqrt ((1 - m * g) * (1 + m * c.beta / c.sigma * g)), fun i => by rw [← h, hval],
    Real.sqrt_nonneg _, Real.sqrt_le_sqrt ?_, Real.sq_sqrt (mul_nonneg ha hbb), ?_, ?_⟩
  · have h1 : 1 - m * g ≤ 1 := by nlinarith
    have h2 : 1 + m * c.beta / c.sigma * g ≤ 1 + m * c.beta / c.sigma := by nlinarith
    calc (1 - m * g) * (1 + m * c.beta / c.sigma * g)
        ≤ 1 * (1 + m * c.beta / c.sigma * g) := mul_le_mul_of_nonneg_right h1 hbb
      _ ≤ 1 + m * c.beta / c.sigma := by rw [one_mul]; exact h2
  · intro hno
    have : g = 0 := by
      rw [hg]; unfold immobileShare
      rw [sum_eq_zero fun i _ => if_neg (hno i), zero_div]
    rw [this]; simp
  · intro hgp
    rw [Real.one_le_sqrt]
    have e : (1 - m * g) * (1 + m * c.beta / c.sigma * g) - 1 =
        m * g * (c.beta / c.sigma * (1 - m * g) - 1) := by field_simp; ring
    have hmg : 0 < m * g := mul_pos hm0 hgp
    constructor
    · intro hle
      by_contra hlt
      push Not at hlt
      have := mul_neg_of_pos_of_neg hmg (show c.beta / c.sigma * (1 - m * g) - 1 < 0 by linarith)
      linarith
    · intro hle
      have := mul_nonneg hmg.le (show 0 ≤ c.beta / c.sigma * (1 - m * g) - 1 by linarith)
      linarith

/-- C58: without a value for `m` in the configuration file (it has no default) sheltering fails. -/
theorem C58_missing_m (c : Config nf) (x : Cell nf) (uth : Fin nf → XR) (hm : c.m = none) :
    sheltering c x uth = .error .keyError := by
  unfold sheltering; rw [hm]

/-- C58: a cell whose top layer is empty gets not-a-number as threshold for every fraction. -/
theorem C58_empty_layer (c : Config nf) (x : Cell nf) (uth v : Fin nf → XR)
    (h0 : ∀ i, x.mass i = 0) (h : sheltering c x uth = .ok v) (i : Fin nf) : v i = nan := by
  unfold sheltering at h
  split at h
  · exact absurd h (by simp)
  · split_ifs at h
    simp only [Except.ok.injEq] at h
    have : immobile x uth = nan := by
      unfold immobile divR
      simp only [h0, ite_self, sum_const_zero, if_true]
      unfold infSign; simp
    rw [← h, this]
    change uth i * nan = nan
    cases uth i <;> rfl

/-- C58: with a factor `m` so large that `m` times the share of the immobile fractions exceeds one, the thresholds of all fractions
become not-a-number. -/
theorem C58_large_m (c : Config nf) (x : Cell nf) (uth v : Fin nf → XR) (m : ℝ) (hcm : c.m = some m) (hb : 0 ≤ c.beta) (hs : 0 < c.sigma)
    (hpos : 0 < ∑ i, x.mass i) (hm : 1 < m * immobileShare x uth) (hg : 0 ≤ immobileShare x uth) (h : sheltering c x uth = .ok v)
    (i : Fin nf) : v i = nan := by
  unfold sheltering at h
  simp only [hcm, if_neg hs.ne', Except.ok.injEq] at h
  have hk : 0 ≤ m * c.beta / c.sigma * immobileShare x uth := by
    rw [show m * c.beta / c.sigma * immobileShare x uth = m * immobileShare x uth * (c.beta / c.sigma) by ring]
    exact mul_nonneg (by linarith) (div_nonneg hb hs.le)
  have hneg : ¬ 0 ≤ (1 - m * immobileShare x uth) * (1 + m * c.beta / c.sigma * immobileShare x uth) := by
    have := mul_neg_of_neg_of_pos (show 1 - m * immobileShare x uth < 0 by linarith)
      (show 0 < 1 + m * c.beta / c.sigma * immobileShare x uth by linarith)
    linarith
  have hval : shelterFactor m c.beta c.sigma (immobile x uth) = nan := by
    rw [immobile_eq x uth hpos]
    unfold shelterFactor
    simp only [fin_mul, fin_sub, fin_add]
    change (if _ then _ else _) = _
    rw [if_neg hneg]
  rw [← h, hval]
  change uth i * nan = nan
  cases uth i <;> rfl

/-- Two fractions of which the coarse one is immobile. -/
noncomputable def exShelter : Cell 2 :=
  { zb := 0, zs := 0, moist := 0, salt := 0, ustar := 0.3, mass := ![3, 1], maskRe := 1, maskIm := 0,
    zne := none }

theorem exShelter_share : immobileShare exShelter ![fin 0.2, fin 0.5] = 1 / 4 ∧ 0 < ∑ i, exShelter.mass i := by
  constructor
  · unfold immobileShare
    simp only [Fin.sum_univ_two, exShelter, leOf, Matrix.cons_val_zero, Matrix.cons_val_one]
    norm_num
  · simp only [Fin.sum_univ_two, exShelter, Matrix.cons_val_zero, Matrix.cons_val_one]; norm_num

/-- A quarter of the top layer does not move: with `m = 5` there are no thresholds. -/
example (c : Config 2) (hm : c.m = some 5) (hb : c.beta = 130) (hs : c.sigma = 4.2) (v : Fin 2 → XR)
    (h : sheltering c exShelter ![fin 0.2, fin 0.5] = .ok v) : v 0 = nan :=
  C58_large_m c exShelter _ v 5 hm (by rw [hb]; norm_num) (by rw [hs]; norm_num) exShelter_share.2 (by rw [exShelter_share.1]; norm_num)
    (by rw [exShelter_share.1]; norm_num) h 0

end Aeolis.Props
