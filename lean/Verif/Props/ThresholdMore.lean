import Verif.Props.Threshold

/-!
Thresholds over several steps and over the complete computation: C57 (fractions), C83, C84, C85.
-/

set_option linter.unusedSectionVars false

namespace Aeolis.Props

open Aeolis.Threshold Aeolis.Spec XR Finset

variable {nf : ℕ}

/-- The part of `compute` before the non-erodible layer, in the case that thresholds are computed. -/
theorem compute_first (c : Config nf) (x : Cell nf) (s s' : Thr nf)
    (hp : c.processThreshold = true) (hf : c.thresholdFile = false) (hg : c.thGrainsize = true)
    (h : compute c x s = .ok s') : ∃ u, corrections c x (grainsizeThreshold c) = .ok u ∧
      s'.uthf = (fun i => masked x (u i)) ∧ s'.uth0 = grainsizeThreshold c ∧
      (¬ (c.thNelayer = true ∧ exposed x) → s'.uth = fun i => masked x (u i)) ∧
      ((c.thNelayer = true ∧ exposed x) → s'.uth = fun _ => pinf) := by
  unfold compute at h
  simp only [hp, hf, hg, if_true] at h
  rw [if_pos (by simp)] at h
  cases hc : corrections c x (grainsizeThreshold c) with
  | error e => rw [hc] at h; exact absurd h (by simp)
  | ok u =>
    rw [hc] at h
    simp only [Except.ok.injEq] at h
    refine ⟨u, rfl, ?_⟩
    rw [← h]
    split_ifs with hex
    · exact ⟨rfl, rfl, fun h => absurd hex h, fun _ => rfl⟩
    · exact ⟨rfl, rfl, fun _ => rfl, fun h => absurd h hex⟩

/-! ### C57, continued -/

/-- C57: the layer does not protect against the supply of the individual fractions: the same cell has
zero capacity (`Cu`) but, if the wind exceeds the threshold of a fraction before the layer is taken into
account, a positive fraction capacity (`Cuf`), from which the solver supplies sediment. -/
theorem C57_fraction_capacity_remains (p : Transport.Params) (hp : Physical p)
    (hon : p.processTransport = true) (hb : p.methodTransport = "bagnold")
    (d : ℝ) (w : Transport.Wind) (hw : 0 < w.ustar) (duran sp : Transport.Speed)
    (hs : Transport.grainspeed p w duran = .ok sp) (hu : 0 < sp.u)
    (uthf : ℝ) (hth : uthf < w.ustar) (uth0 : XR) (old : Transport.Conc) :
    ∃ r f, Transport.equilibrium p d w duran ⟨pinf, fin uthf, uth0⟩ old = .ok r ∧ r.Cu = fin 0 ∧
      r.Cuf = fin f ∧ 0 < f := by
  have hl : lower p.methodTransport = "bagnold" := by rw [hb]; decide
  have hk : 0 < p.Cb * (p.rhoa / p.g) := mul_pos hp.Cb (div_pos hp.rhoa hp.g)
  have hpos : 0 < p.Cb * (p.rhoa / p.g) *
      ((w.ustar - uthf) * (w.ustar - uthf) * (w.ustar - uthf)) * (1 / sp.u) := by
    have : 0 < w.ustar - uthf := by linarith
    positivity
  refine ⟨⟨Transport.bagnold (p.Cb * (p.rhoa / p.g)) sp.u w.ustar pinf * fin p.accfac,
    Transport.bagnold (p.Cb * (p.rhoa / p.g)) sp.u w.ustar (fin uthf) * fin p.accfac,
    Transport.bagnold (p.Cb * (p.rhoa / p.g)) sp.u w.ustar0 uth0 * fin p.accfac⟩,
    p.Cb * (p.rhoa / p.g) *
      ((w.ustar - uthf) * (w.ustar - uthf) * (w.ustar - uthf)) * (1 / sp.u) * p.accfac, ?_, ?_, ?_,
    mul_pos hpos hp.accfac⟩
  · unfold Transport.equilibrium Transport.formulation
    simp only [hon, if_true, hs, hl]
    rw [if_pos ⟨hw.ne', hu.ne'⟩]
    rfl
  · have := Transport.supplies_zero (Transport.bagnold_supplies _ sp.u w.ustar pinf hk hu trivial) trivial
    simp only [this]; simp
  · simp only [Transport.bagnold, cube, fin_sub, fin_mul, max0_fin]
    rw [max_eq_right hpos.le]

/-! ### C56, continued -/

/-- C56: without moisture thresholds but with tides, a cell flooded by more than the tolerance has an infinite
threshold; any other cell keeps that of its grain sizes (no salt, sheltering, mask or non-erodible layer). -/
theorem C56_flooded (c : Config nf) (x : Cell nf) (s s' : Thr nf)
    (hp : c.processThreshold = true) (hf : c.thresholdFile = false) (hg : c.thGrainsize = true)
    (hm : c.thMoisture = false) (ht : c.processTide = true) (hsalt : c.thSalt = false)
    (hsh : c.thSheltering = false) (hne : c.thNelayer = false) (hre : x.maskRe = 1) (him : x.maskIm = 0)
    (h : compute c x s = .ok s') (i : Fin nf) :
    (x.zb + c.eps < x.zs → s'.uth i = pinf) ∧
    (x.zs ≤ x.zb + c.eps → s'.uth i = grainsizeThreshold c i) := by
  obtain ⟨u, hu, -, -, h1, -⟩ := compute_first c x s s' hp hf hg h
  have hmask : ∀ v : XR, masked x v = v := by
    intro v
    unfold masked
    rw [hre, him, mul_one']
    cases v with
    | fin r => simp
    | pinf => rfl
    | ninf => rfl
    | nan => rfl
  rw [h1 (by simp [hne])]
  beta_reduce
  rw [hmask]
  unfold corrections at hu
  simp only [hm, ht, hsalt, hsh, Bool.false_eq_true, if_false, true_and] at hu
  constructor
  · intro hz
    rw [if_pos (by linarith : x.zb - x.zs < -c.eps)] at hu
    simp only at hu
    split_ifs at hu
    simp only [Except.ok.injEq] at hu
    rw [← hu]
  · intro hz
    rw [if_neg (by linarith : ¬ x.zb - x.zs < -c.eps)] at hu
    simp only at hu
    split_ifs at hu
    simp only [Except.ok.injEq] at hu
    rw [← hu]

/-! ### C83 -/

/-- C83: the mask scales and shifts finite thresholds: real part times threshold plus imaginary part; a
cell without mask (1) keeps its threshold, infinite thresholds stay infinite under a positive factor. -/
theorem C83_mask (x : Cell nf) (u : XR) :
    (∀ r : ℝ, u = fin r → masked x u = fin (r * x.maskRe + x.maskIm)) ∧
    (x.maskRe = 1 → x.maskIm = 0 → masked x u = u) ∧
    (u = pinf → 0 < x.maskRe → masked x u = pinf) := by
  refine ⟨?_, ?_, ?_⟩
  · rintro r rfl; rfl
  · intro h1 h0
    unfold masked
    rw [h1, h0, mul_one']
    cases u with
    | fin r => simp
    | pinf => rfl
    | ninf => rfl
    | nan => rfl
  · rintro rfl h
    unfold masked; rw [pinf_mul_fin h]; rfl

/-- C83: a mask with real part zero (a prescribed threshold, the imaginary part) makes the threshold of a
flooded cell not-a-number instead of the prescribed value. -/
theorem C83_mask_nan (c : Config nf) (x : Cell nf) (s s' : Thr nf)
    (hp : c.processThreshold = true) (hf : c.thresholdFile = false) (hg : c.thGrainsize = true)
    (hm : c.thMoisture = false) (ht : c.processTide = true) (hsalt : c.thSalt = false)
    (hsh : c.thSheltering = false) (hne : c.thNelayer = false) (hre : x.maskRe = 0)
    (hflood : x.zb - x.zs < -c.eps) (h : compute c x s = .ok s') (i : Fin nf) : s'.uth i = nan := by
  obtain ⟨u, hu, -, -, h1, -⟩ := compute_first c x s s' hp hf hg h
  rw [h1 (by simp [hne])]
  unfold corrections at hu
  simp only [hm, ht, hsalt, hsh, Bool.false_eq_true, if_false, true_and, if_pos hflood] at hu
  split_ifs at hu
  simp only [Except.ok.injEq] at hu
  rw [← hu]
  change (pinf * fin x.maskRe + fin x.maskIm : XR) = nan
  rw [hre]
  change (infSign 0 + fin x.maskIm : XR) = nan
  unfold infSign
  simp only [lt_irrefl, if_false]
  rfl

/-! ### C84 -/

/-- C84: with the grain size threshold on and no threshold file, the thresholds of a step depend on the
conditions in that step only, not on those of earlier steps. -/
theorem C84_memoryless (c : Config nf) (x : Cell nf) (s₁ s₂ r₁ r₂ : Thr nf)
    (hp : c.processThreshold = true) (hf : c.thresholdFile = false) (hg : c.thGrainsize = true)
    (h₁ : compute c x s₁ = .ok r₁) (h₂ : compute c x s₂ = .ok r₂) : r₁ = r₂ := by
  obtain ⟨u, hu, a, b, e, f⟩ := compute_first c x s₁ r₁ hp hf hg h₁
  obtain ⟨u', hu', a', b', e', f'⟩ := compute_first c x s₂ r₂ hp hf hg h₂
  rw [hu] at hu'
  cases hu'
  cases r₁; cases r₂
  simp only at a b e f a' b' e' f'
  by_cases hex : c.thNelayer = true ∧ exposed x
  · simp only [Thr.mk.injEq]
    exact ⟨(f hex).trans (f' hex).symm, a.trans a'.symm, b.trans b'.symm⟩
  · simp only [Thr.mk.injEq]
    exact ⟨(e hex).trans (e' hex).symm, a.trans a'.symm, b.trans b'.symm⟩

/-- `n` steps under the same conditions. -/
noncomputable def thresholdSteps (c : Config nf) (x : Cell nf) (s : Thr nf) : ℕ → Except PyErr (Thr nf)
  | 0 => .ok s
  | n + 1 =>
    match thresholdSteps c x s n with
    | .error e => .error e
    | .ok s => compute c x s

/-- C84: with the grain size threshold off the corrections compound: salt, for example, multiplies the
threshold by its factor (at least 1.03) in every step. -/
theorem C84_salt_compounds (c : Config nf) (x : Cell nf) (s : Thr nf)
    (hp : c.processThreshold = true) (hf : c.thresholdFile = false) (hg : c.thGrainsize = false)
    (hm : c.thMoisture = false) (ht : c.processTide = false) (hd : c.thDrylayer = false)
    (hh : c.thHumidity = false) (hsalt : c.thSalt = true)
    (hsh : c.thSheltering = false) (hne : c.thNelayer = false) (hre : x.maskRe = 1)
    (him : x.maskIm = 0) (n : ℕ) : ∃ r, thresholdSteps c x s n = .ok r ∧
      ∀ i, r.uth i = s.uth i * fin (saltFactor c x.salt ^ n) := by
  have hpos : 0 < saltFactor c x.salt := by
    unfold saltFactor
    have := Real.exp_pos (0.1027 * 1e3 * (c.csalt * (1 - x.salt)))
    positivity
  induction n with
  | zero => exact ⟨s, rfl, fun i => by simp [mul_one']⟩
  | succ n ih =>
    obtain ⟨r, hr, hi⟩ := ih
    have hstep : compute c x r = .ok { r with
        uth := fun i => masked x (r.uth i * fin (saltFactor c x.salt)),
        uthf := fun i => masked x (r.uth i * fin (saltFactor c x.salt)) } := by
      unfold compute corrections
      simp only [hp, hf, hg, hm, ht, hd, hh, hsalt, hsh, hne, Bool.false_eq_true, if_false, if_true,
        false_and, not_false_eq_true, and_self]
    refine ⟨_, by simp only [thresholdSteps, hr, hstep]; rfl, fun i => ?_⟩
    simp only
    rw [((C83_mask x _).2.1 hre him), hi i, mul_assoc_pos _ (pow_pos hpos n) hpos, pow_succ]

/-- C84: with a threshold file, a cell that was once at the non-erodible layer keeps an infinite threshold
for ever, also when sand has been deposited on top. -/
theorem C84_file_layer_sticks (c : Config nf) (x x' : Cell nf) (s r r' : Thr nf)
    (hf : c.thresholdFile = true) (hne : c.thNelayer = true) (z : ℝ) (hz : x.zne = some z)
    (hex : x.zb ≤ z + 0.01) (h : compute c x s = .ok r) (h' : compute c x' r = .ok r') (i : Fin nf) :
    r'.uth i = pinf := by
  have e : ∀ y : Cell nf, ∀ t t' : Thr nf, compute c y t = .ok t' →
      (exposed y → t'.uth i = pinf) ∧ (t.uth i = pinf → t'.uth i = pinf) := by
    intro y t t' ht
    unfold compute at ht
    simp only [hf, hne, not_true, and_false, if_false, true_and, Except.ok.injEq] at ht
    rw [← ht]
    split_ifs with hy
    · exact ⟨fun _ => rfl, fun _ => rfl⟩
    · exact ⟨fun h => absurd ⟨hne, h⟩ hy, fun h => h⟩
  exact (e x' r r' h').2 ((e x s r h).1 ⟨z, hz, hex⟩)

/-- The salt setting of `C84_salt_compounds`. -/
example : ∃ c : Config 1, c.processThreshold = true ∧ c.thSalt = true ∧ c.thGrainsize = false ∧
    1 < saltFactor c 1 := by
  refine ⟨{ exThreshold "belly_johnson" with thSalt := true, thGrainsize := false, thMoisture := false },
    rfl, rfl, rfl, ?_⟩
  unfold saltFactor
  norm_num

/-! ### C85 -/

theorem grainsize_isThreshold (c : Config nf) (hc : PhysicalBed c) (i : Fin nf) :
    (grainsizeThreshold c i).IsThreshold := by
  have h : 0 ≤ (c.rhog - c.rhoa) / c.rhoa * c.g * c.grainSize i := by
    have h1 : 0 < c.rhog - c.rhoa := by linarith [hc.rhog]
    have := hc.rhoa
    have := hc.g
    have := hc.size i
    positivity
  unfold grainsizeThreshold
  rw [sqrt_fin h]
  exact mul_nonneg hc.Aa.le (Real.sqrt_nonneg _)

/-- C85: bed surface properties only raise the threshold: with any of the correcting moisture
formulations, flooding, salt and the non-erodible layer, and a mask that does not lower it, the threshold
is at least the one for the grain size. -/
theorem C85_at_least_grainsize (c : Config nf) (hc : PhysicalBed c) (x : Cell nf) (s s' : Thr nf)
    (hp : c.processThreshold = true) (hf : c.thresholdFile = false) (hg : c.thGrainsize = true)
    (hm : c.thMoisture = true → lower c.methodMoistThreshold ∈ incrementalMoist)
    (hsalt : x.salt ≤ 1) (hcs : 0 ≤ c.csalt) (hsh : c.thSheltering = false)
    (hre : 1 ≤ x.maskRe) (him : 0 ≤ x.maskIm) (h : compute c x s = .ok s') (i : Fin nf) :
    XR.le (grainsizeThreshold c i) (s'.uth i) ∧ XR.le (grainsizeThreshold c i) (s'.uthf i) := by
  obtain ⟨u, hu, hfr, -, h1, h2⟩ := compute_first c x s s' hp hf hg h
  have h0 := grainsize_isThreshold c hc i
  have hcor : XR.le (grainsizeThreshold c i) (u i) := by
    unfold corrections at hu
    simp only [hsh, Bool.false_eq_true, if_false] at hu
    split at hu
    · exact absurd hu (by simp)
    · rename_i v hv
      have hwet : XR.le (grainsizeThreshold c i) (v i) := by
        split_ifs at hv with a b
        · cases hmo : moisture c x.moist with
          | error e => rw [hmo] at hv; exact absurd hv (by simp)
          | ok f =>
            rw [hmo] at hv
            simp only [Except.ok.injEq] at hv
            rw [← hv]
            exact C55_raises c hc (hm a) x.moist f hmo _ h0
        · simp only [Except.ok.injEq] at hv
          rw [← hv]; exact le_pinf h0
        · simp only [Except.ok.injEq] at hv
          rw [← hv]; exact le_refl_threshold h0
      split_ifs at hu with a b d
      · simp only [Except.ok.injEq] at hu
        rw [← hu]
        refine le_trans' hwet (le_mul_factor (isThreshold_of_le hwet h0) ?_)
        unfold saltFactor
        have : 1 ≤ Real.exp (0.1027 * 1e3 * (c.csalt * (1 - x.salt))) :=
          Real.one_le_exp (mul_nonneg (by norm_num) (mul_nonneg hcs (by linarith)))
        linarith
      · simp only [Except.ok.injEq] at hu
        rw [← hu]; exact hwet
  have hmask : XR.le (grainsizeThreshold c i) (masked x (u i)) := by
    have hut := isThreshold_of_le hcor h0
    have h3 := le_mul_factor hut hre
    exact le_trans' hcor (le_trans' h3 (le_add_term (isThreshold_of_le h3 hut) him))
  constructor
  · by_cases hex : c.thNelayer = true ∧ exposed x
    · rw [h2 hex]; exact le_pinf h0
    · rw [h1 hex]; exact hmask
  · rw [hfr]; exact hmask

/-- The dry layer and humidity options refer to functions that do not exist. -/
theorem C85_missing_functions (c : Config nf) (x : Cell nf) (s : Thr nf)
    (hp : c.processThreshold = true) (hf : c.thresholdFile = false) (hm : c.thMoisture = false)
    (hd : c.thDrylayer = true ∨ c.thHumidity = true) : compute c x s = .error .nameError := by
  have hcor : ∀ u : Fin nf → XR, corrections c x u = .error .nameError := by
    intro u
    unfold corrections
    simp only [hm, Bool.false_eq_true, if_false]
    rcases hd with hd | hd
    · split_ifs <;> simp [hd]
    · split_ifs <;> simp [hd]
  unfold compute
  simp only [hp, hf, hcor, Bool.false_eq_true, not_false_eq_true, and_self, if_true]

/-- The configuration of the examples meets the hypotheses of `C85_at_least_grainsize`. -/
example : ∃ s', compute (exThreshold "hotta")
    { zb := 0, zs := 0, moist := 0.03, salt := 1, ustar := 0.3, mass := fun _ => 1, maskRe := 1, maskIm := 0,
      zne := none } ⟨fun _ => fin 0, fun _ => fin 0, fun _ => fin 0⟩ = .ok s' := by
  have hl : lower "hotta" = "hotta" := by decide
  unfold compute corrections moisture moistUpdate
  simp only [show (exThreshold "hotta").methodMoistThreshold = "hotta" from rfl, hl]
  exact ⟨_, rfl⟩

/-- A cell under 1 m of water, tides on, moisture thresholds off. -/
example : ∃ s', compute { exThreshold "hotta" with thMoisture := false, processTide := true }
    { zb := 0, zs := 1, moist := 0.03, salt := 1, ustar := 0.3, mass := fun _ => 1, maskRe := 1, maskIm := 0,
      zne := none } ⟨fun _ => fin 0, fun _ => fin 0, fun _ => fin 0⟩ = .ok s' ∧ s'.uth 0 = pinf := by
  have h : ∃ s', compute { exThreshold "hotta" with thMoisture := false, processTide := true }
    { zb := 0, zs := 1, moist := 0.03, salt := 1, ustar := 0.3, mass := fun _ => 1, maskRe := 1, maskIm := 0,
      zne := none } ⟨fun _ => fin 0, fun _ => fin 0, fun _ => fin 0⟩ = .ok s' := by
    unfold compute corrections
    rw [if_pos (by simp [exThreshold])]
    simp only [exThreshold, Bool.false_eq_true, if_false, true_and, if_true]
    split_ifs <;> exact ⟨_, rfl⟩
  obtain ⟨s', h⟩ := h
  exact ⟨s', h, (C56_flooded _ _ _ _ rfl rfl rfl rfl rfl rfl rfl rfl rfl rfl h 0).1 (by norm_num [exThreshold])⟩

end Aeolis.Props
