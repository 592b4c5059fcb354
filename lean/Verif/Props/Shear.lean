import Verif.Proofs.ShearStress
import Verif.Props.Resample
import Verif.Model.Wind
import Mathlib.Analysis.Complex.ExponentialBounds

/-! Property theorems on the two-dimensional shear model: C110, C111, C112, C114. -/

set_option linter.unusedSectionVars false

namespace Aeolis.Props

open Aeolis.Spec Aeolis.Resample Aeolis.Shear

noncomputable section

/-! ### C110 stress perturbation -/

/-- C110 The perturbation is linear in the bed: beds can be scaled and superposed. Any roughness, grid and Bessel function. -/
theorem C110_linear (P : Params) (c : CGrid) (z0 : ℕ → ℕ → ℝ) (u0 : ℝ) (z w : ℕ → ℕ → ℝ) (a b : ℝ) (q p : ℕ) :
    (computeShear P c z0 u0 (fun q p => a * z q p + b * w q p) q p).1 =
      a * (computeShear P c z0 u0 z q p).1 + b * (computeShear P c z0 u0 w q p).1 ∧
    (computeShear P c z0 u0 (fun q p => a * z q p + b * w q p) q p).2 =
      a * (computeShear P c z0 u0 z q p).2 + b * (computeShear P c z0 u0 w q p).2 := by
  unfold computeShear
  split_ifs
  · simp
  · exact ⟨response_add _ _ _ z w a b q p, response_add _ _ _ z w a b q p⟩

/-- C110 A bed at datum level, and a calm, give no perturbation. -/
theorem C110_none (P : Params) (c : CGrid) (z0 : ℕ → ℕ → ℝ) (u0 : ℝ) (z : ℕ → ℕ → ℝ) (h : u0 = 0 ∨ ∀ q p, z q p = 0) (q p : ℕ) :
    computeShear P c z0 u0 z q p = (0, 0) := by
  unfold computeShear
  split_ifs with hu
  · rfl
  · have hz : z = fun _ _ => 0 := funext fun q => funext fun p => h.resolve_left hu q p
    rw [hz]
    simp only [response_eq_kernel, zero_mul, Finset.sum_const_zero]

/-- C110 Moving the bed over the (periodic) computational grid moves the perturbation by the same number of rows and columns. -/
theorem C110_shift (P : Params) (c : CGrid) (z0 : ℕ → ℕ → ℝ) (u0 : ℝ) (z : ℕ → ℕ → ℝ) (a b q p : ℕ) (hR : 0 < c.rows)
    (hC : 0 < c.cols) :
    computeShear P c z0 u0 (fun q p => z ((q + a) % c.rows) ((p + b) % c.cols)) q p =
      computeShear P c z0 u0 z (q + a) (p + b) := by
  have key : ∀ T, response c.rows c.cols T (fun q p => z ((q + a) % c.rows) ((p + b) % c.cols)) q p =
      response c.rows c.cols T z (q + a) (p + b) := by
    intro T
    rw [response_eq_kernel, response_eq_kernel]
    have h1 : ∀ j', (∑ i' ∈ Finset.range c.cols, z ((j' + a) % c.rows) ((i' + b) % c.cols) *
        kernel c.rows c.cols T ((q : ℤ) - j') ((p : ℤ) - i')) =
        ∑ i' ∈ Finset.range c.cols, z ((j' + a) % c.rows) i' *
          kernel c.rows c.cols T (((q + a : ℕ) : ℤ) - ((j' + a) % c.rows : ℕ)) (((p + b : ℕ) : ℤ) - i') := by
      intro j'
      rw [← sum_shift c.cols b hC (fun i' => z ((j' + a) % c.rows) i' *
          kernel c.rows c.cols T (((q + a : ℕ) : ℤ) - ((j' + a) % c.rows : ℕ)) (((p + b : ℕ) : ℤ) - i'))]
      refine Finset.sum_congr rfl fun i' _ => ?_
      congr 1
      refine kernel_congr _ _ hR hC T _ _ _ _ ?_ ?_
      · refine ⟨-(((j' + a) / c.rows : ℕ) : ℤ), ?_⟩
        have := Nat.div_add_mod (j' + a) c.rows
        zify at this ⊢
        push_cast
        linarith
      · refine ⟨-(((i' + b) / c.cols : ℕ) : ℤ), ?_⟩
        have := Nat.div_add_mod (i' + b) c.cols
        zify at this ⊢
        push_cast
        linarith
    simp only [h1]
    exact sum_shift c.rows a hR (fun j' => ∑ i' ∈ Finset.range c.cols, z j' i' *
          kernel c.rows c.cols T (((q + a : ℕ) : ℤ) - j') (((p + b : ℕ) : ℤ) - i'))
  unfold computeShear
  simp only [key]

/-- C110 A bed that is uniform across the wind gives a perturbation that is uniform across the wind; one that is uniform along
the wind gives one that is uniform along the wind. -/
theorem C110_uniform (P : Params) (c : CGrid) (z0 : ℕ → ℕ → ℝ) (u0 : ℝ) (f : ℕ → ℝ) (hR : 0 < c.rows) (hC : 0 < c.cols)
    (q q' p p' : ℕ) :
    computeShear P c z0 u0 (fun _ p => f (p % c.cols)) q p = computeShear P c z0 u0 (fun _ p => f (p % c.cols)) q' p ∧
    computeShear P c z0 u0 (fun q _ => f (q % c.rows)) q p = computeShear P c z0 u0 (fun q _ => f (q % c.rows)) q p' := by
  constructor
  · have h := fun a => C110_shift P c z0 u0 (fun _ p => f (p % c.cols)) a 0 0 p hR hC
    simp only [Nat.zero_add, Nat.add_zero, Nat.mod_mod] at h
    rw [← h q, ← h q']
  · have h := fun b => C110_shift P c z0 u0 (fun q _ => f (q % c.rows)) 0 b q 0 hR hC
    simp only [Nat.zero_add, Nat.add_zero, Nat.mod_mod] at h
    rw [← h p, ← h p']

/-- C110 The wave numbers: never zero, so nothing is divided by zero, and between those of waves of two cells and of one cell more
than the row has. The first place, which in the spectrum belongs to the mean level, holds the longest of these waves. -/
theorem C110_wavenumbers (n : ℕ) (d : ℝ) (hd : 0 < d) (k : ℕ) (hk : k < n) :
    |wavenumber n d k| = 2 * Real.pi * (min (k + 1) (n - k) : ℕ) / ((n + 1) * d) ∧ wavenumber n d k ≠ 0 ∧
      2 * Real.pi / ((n + 1) * d) ≤ |wavenumber n d k| ∧ |wavenumber n d k| ≤ Real.pi / d := by
  have hpi := Real.pi_pos
  have hn : (0 : ℝ) < (n + 1) * d := by positivity
  have hmain : |wavenumber n d k| = 2 * Real.pi * (min (k + 1) (n - k) : ℕ) / ((n + 1) * d) := by
    unfold wavenumber fftfreq
    rw [abs_mul, abs_of_pos (by positivity : (0 : ℝ) < 2 * Real.pi), abs_div, Nat.add_sub_cancel]
    push_cast
    rw [abs_of_pos hn, mul_div_assoc]
    congr 2
    split_ifs with h
    · rw [abs_of_nonneg (by positivity)]
      rw [min_eq_left]
      have : (k + 1) ≤ n - k := by omega
      have h2 : ((k + 1 : ℕ) : ℝ) ≤ ((n - k : ℕ) : ℝ) := by exact_mod_cast this
      push_cast at h2
      exact h2
    · have h3 : ((n - k : ℕ) : ℝ) = (n : ℝ) - k := Nat.cast_sub hk.le
      have h4 : (k : ℝ) < n := by exact_mod_cast hk
      rw [abs_of_neg (by linarith), min_eq_right]
      · rw [h3]; ring
      · have : n - k ≤ k + 1 := by omega
        exact_mod_cast this
  have h1 : (1 : ℝ) ≤ (min (k + 1) (n - k) : ℕ) := by
    have : 1 ≤ min (k + 1) (n - k) := by omega
    exact_mod_cast this
  have h2 : 2 * ((min (k + 1) (n - k) : ℕ) : ℝ) ≤ n + 1 := by
    have : 2 * min (k + 1) (n - k) ≤ n + 1 := by omega
    exact_mod_cast this
  refine ⟨hmain, ?_, ?_, ?_⟩
  · rw [← abs_pos, hmain]; positivity
  · rw [hmain]
    refine div_le_div_of_nonneg_right ?_ hn.le
    nlinarith
  · rw [hmain, div_le_div_iff₀ hn hd]
    have : 0 < Real.pi * d := by positivity
    nlinarith

/-- C110 Raising the whole bed by `h` changes the perturbation everywhere by `h` times the value that the ratio of the spectra has
for the longest wave of the list (one cell more than the grid): the perturbation is not independent of the datum. -/
theorem C110_datum (P : Params) (c : CGrid) (z0 : ℕ → ℕ → ℝ) (u0 : ℝ) (hu : u0 ≠ 0) (z : ℕ → ℕ → ℝ) (h : ℝ) (q p : ℕ)
    (hR : 0 < c.rows) (hC : 0 < c.cols) :
    (computeShear P c z0 u0 (fun q p => z q p + h) q p).1 = (computeShear P c z0 u0 z q p).1 +
      h * filterFactor 1 2 c.dx c.dy (wavenumber c.cols c.dx 0) (wavenumber c.rows c.dy 0) *
        (transferX P.kv P.L P.l (z0 0 0) (wavenumber c.cols c.dx 0) (wavenumber c.rows c.dy 0)).re := by
  unfold computeShear
  rw [if_neg hu, if_neg hu]
  dsimp only
  have := response_add c.rows c.cols (spectralX P c z0) z (fun _ _ => h) 1 1 q p
  simp only [one_mul] at this
  rw [this, response_const _ _ hR hC]
  unfold spectralX
  dsimp only
  rw [Complex.re_ofReal_mul]
  ring

/-! ### C114 tapering of short waves -/

/-- C114 The tapering keeps the sign and never amplifies a wave. -/
theorem C114_range (n1 n2 dx dy kx ky : ℝ) : 0 < filterFactor n1 n2 dx dy kx ky ∧ filterFactor n1 n2 dx dy kx ky < 1 := by
  unfold filterFactor taper
  dsimp only
  have h : ∀ x : ℝ, 0 < 1 / (1 + Real.exp x) ∧ 1 / (1 + Real.exp x) < 1 := by
    intro x
    have := Real.exp_pos x
    exact ⟨by positivity, by rw [div_lt_one (by positivity)]; linarith⟩
  exact ⟨mul_pos (h _).1 (h _).1, mul_lt_one_of_nonneg_of_lt_one_left (h _).1.le (h _).2 (h _).2.le⟩

theorem log_ninetynine : 0 < Real.log (1 / 0.01 - 1) ∧ Real.log (1 / 0.99 - 1) = -Real.log (1 / 0.01 - 1) := by
  constructor
  · apply Real.log_pos; norm_num
  · rw [← Real.log_inv]; congr 1; norm_num

/-- C114 Longer waves are kept more, in both directions. -/
theorem C114_longer_kept (n1 n2 dx dy kx ky kx' ky' : ℝ) (h1 : 0 < n1) (h2 : 0 < n2) (hdx : 0 < dx) (hdy : 0 < dy) (hx : kx ≠ 0)
    (hy : ky ≠ 0) (hxx : |kx| ≤ |kx'|) (hyy : |ky| ≤ |ky'|) :
    filterFactor n1 n2 dx dy kx' ky' ≤ filterFactor n1 n2 dx dy kx ky := by
  obtain ⟨hl, hl'⟩ := log_ninetynine
  have hpi := Real.pi_pos
  unfold filterFactor
  dsimp only
  rw [hl', div_neg, neg_div, neg_neg]
  have key : ∀ n d k k' : ℝ, 0 < n → 0 < d → k ≠ 0 → |k| ≤ |k'| →
      taper n1 n2 (n / Real.log (1 / 0.01 - 1)) (2 * Real.pi / d / |k'|) ≤
        taper n1 n2 (n / Real.log (1 / 0.01 - 1)) (2 * Real.pi / d / |k|) := by
    intro n d k k' hn hd hk hkk
    unfold taper
    have hs : 0 < n / Real.log (1 / 0.01 - 1) := div_pos hn hl
    have hlen : 2 * Real.pi / d / |k'| ≤ 2 * Real.pi / d / |k| :=
      div_le_div_of_nonneg_left (by positivity) (abs_pos.mpr hk) hkk
    refine div_le_div_of_nonneg_left zero_le_one (by positivity) (add_le_add le_rfl (Real.exp_le_exp.mpr ?_))
    exact div_le_div_of_nonneg_right (by linarith) hs.le
  refine mul_le_mul (key n1 dx kx kx' h1 hdx hx hxx) (key n2 dy ky ky' h2 hdy hy hyy) ?_ ?_
  · unfold taper; positivity
  · unfold taper; positivity

/-- C114 Where the range begins and ends: a wave of `n2` cells along the wind keeps 99 %, one of `n2 - n1` cells 50 %. A wave of
`n2` cells across the wind keeps `1 / (1 + 99 ^ (-n1 / n2))` only. -/
theorem C114_ends (n1 n2 : ℝ) (h1 : 0 < n1) (h2 : 0 < n2) :
    taper n1 n2 (n1 / Real.log (1 / 0.01 - 1)) n2 = 0.99 ∧
    taper n1 n2 (n1 / Real.log (1 / 0.01 - 1)) (n2 - n1) = 1 / 2 ∧
    taper n1 n2 (-n2 / Real.log (1 / 0.99 - 1)) n2 = 1 / (1 + (99 : ℝ) ^ (-n1 / n2)) := by
  obtain ⟨hl, hl'⟩ := log_ninetynine
  have h99 : Real.log (1 / 0.01 - 1) = Real.log 99 := by norm_num
  rw [h99] at hl hl'
  rw [hl', h99]
  unfold taper
  refine ⟨?_, ?_, ?_⟩
  · rw [show -(n2 + n1 - n2) / (n1 / Real.log 99) = -Real.log 99 by field_simp; ring, Real.exp_neg, Real.exp_log (by norm_num)]
    norm_num
  · rw [show -(n2 - n1 + n1 - n2) / (n1 / Real.log 99) = 0 by ring, Real.exp_zero]
    norm_num
  · rw [Real.rpow_def_of_pos (by norm_num)]
    congr 3
    field_simp
    ring

/-- C114 With the range the model uses, waves of two cells across the wind lose more than a twentieth, not a hundredth. -/
theorem C114_across_differs : taper 1 2 (-2 / Real.log (1 / 0.99 - 1)) 2 < 0.95 := by
  rw [(C114_ends 1 2 one_pos two_pos).2.2, show (-1 / 2 : ℝ) = -(1 / 2) by ring, Real.rpow_neg (by norm_num), ← Real.sqrt_eq_rpow]
  have h1 : Real.sqrt 99 < 10 := by
    rw [Real.sqrt_lt' (by norm_num)]; norm_num
  have h2 : 0 < Real.sqrt 99 := Real.sqrt_pos.mpr (by norm_num)
  have h3 : (1 : ℝ) / 10 < (Real.sqrt 99)⁻¹ := by
    rw [one_div]; exact inv_strictAnti₀ h2 h1
  rw [div_lt_iff₀ (by linarith)]
  linarith

/-! ### C111 stress on the output grid -/

/-- C111 With zero `alfa` the stress that the model hands to the shear module points along the wind there, whatever the direction
of the wind and the orientation `alpha` of the grid: the rotation of the grid turns stress and wind direction alike. With another
`alfa` it makes that angle with the wind. -/
theorem C111_wind_frame (alfa alpha uw udir : ℝ) :
    rotatePt (270 - (udir + alpha)) (0, 0) (rotatePt alpha (0, 0) (Wind.components alfa uw udir)) =
      (uw * Real.cos (alfa / 180 * Real.pi), uw * Real.sin (alfa / 180 * Real.pi)) := by
  have hc := cos_frame (udir + alpha)
  have hs := sin_frame (udir + alpha)
  have e : (udir + alpha) / 180 * Real.pi = udir / 180 * Real.pi + alpha / 180 * Real.pi := by ring
  have e2 : (-alfa + udir) / 180 * Real.pi = udir / 180 * Real.pi - alfa / 180 * Real.pi := by ring
  rw [e] at hc hs
  have h1 := Real.cos_sq_add_sin_sq (udir / 180 * Real.pi)
  have h2 := Real.cos_sq_add_sin_sq (alpha / 180 * Real.pi)
  unfold Wind.components
  ext
  · rw [rotatePt_fst, rotatePt_fst, rotatePt_snd, hc, hs, e2, Real.sin_add, Real.cos_add, Real.sin_sub, Real.cos_sub]
    dsimp only
    generalize Real.cos (udir / 180 * Real.pi) = c at *
    generalize Real.sin (udir / 180 * Real.pi) = s at *
    generalize Real.cos (alpha / 180 * Real.pi) = d at *
    generalize Real.sin (alpha / 180 * Real.pi) = t at *
    linear_combination uw * Real.cos (alfa / 180 * Real.pi) * (d ^ 2 + t ^ 2) * h1 + uw * Real.cos (alfa / 180 * Real.pi) * h2
  · rw [rotatePt_snd, rotatePt_fst, rotatePt_snd, hc, hs, e2, Real.sin_add, Real.cos_add, Real.sin_sub, Real.cos_sub]
    dsimp only
    generalize Real.cos (udir / 180 * Real.pi) = c at *
    generalize Real.sin (udir / 180 * Real.pi) = s at *
    generalize Real.cos (alpha / 180 * Real.pi) = d at *
    generalize Real.sin (alpha / 180 * Real.pi) = t at *
    linear_combination uw * Real.sin (alfa / 180 * Real.pi) * (d ^ 2 + t ^ 2) * h1 + uw * Real.sin (alfa / 180 * Real.pi) * h2

/-- C111 Nowhere on the output grid does the stress point against the wind. -/
theorem C111_along_wind (S : Settings) (R C : ℕ) (g : ℕ → ℕ → ℝ × ℝ) (z : ℕ → ℕ → ℝ) (u0 udir : ℝ) (sep : Option SepParams)
    (tau0 : ℝ × ℝ) (r : Result) (h : call S R C g z u0 udir sep tau0 = .ok r) (hdx : 0 < S.dx) (hdy : 0 < S.dy)
    (hrows : 2 ≤ (computationalGrid R C g S.dx S.dy S.buffer udir).rows)
    (hcols : 2 ≤ (computationalGrid R C g S.dx S.dy S.buffer udir).cols)
    (h0 : 0 ≤ (rotatePt (270 - udir) (0, 0) tau0).1) (j i : ℕ) :
    0 ≤ (rotatePt (270 - udir) (0, 0) (r.taux j i, r.tauy j i)).1 := by
  rw [call_eq] at h
  dsimp only at h
  split at h
  · exact absurd h (by simp)
  · injection h with h
    rw [← h]
    dsimp only
    rw [along_eq]
    dsimp only
    rw [show (fun q p => rotatePt (-(270 - udir)) (computationalGrid R C g S.dx S.dy S.buffer udir).origin
      ((computationalGrid R C g S.dx S.dy S.buffer udir).node q p)) = _ from funext fun q => funext fun p =>
        node_rect (computationalGrid R C g S.dx S.dy S.buffer udir) (270 - udir) q p]
    exact interpolate_nonneg _ _ hrows hcols _ _ _ _ _ _ hdx hdy _ _ (fun q _ p _ => stressField_nonneg _ _ _ _ q p) h0 _

/-- The hypotheses are met: a grid of three by four cells of 1 m with a computational grid of the same cell size and a buffer of 10 m
in a wind along the rows. -/
example (z : ℕ → ℕ → ℝ) (kv : ℝ → ℂ → ℂ) :
    let S : Settings := ⟨1, 1, 10, ⟨100, 10, kv⟩, .scalar 0.001⟩
    let c := computationalGrid 3 4 (lattice 0 0 1 0 0 1) S.dx S.dy S.buffer 270
    (∃ r, call S 3 4 (lattice 0 0 1 0 0 1) z 5 270 none (1, 0) = .ok r) ∧ 2 ≤ c.rows ∧ 2 ≤ c.cols ∧
      0 ≤ (rotatePt (270 - 270) (0, 0) (1, 0)).1 := by
  intro S c
  have hb : max (1 : ℝ) 1 + Real.pi / 1800 *
      (|(lattice 0 0 1 0 0 1 0 0).1 - (centre 3 4 (lattice 0 0 1 0 0 1)).1| +
        |(lattice 0 0 1 0 0 1 0 0).2 - (centre 3 4 (lattice 0 0 1 0 0 1)).2|) ≤ 10 := by
    rw [centre_lattice 3 4 (by norm_num) (by norm_num)]
    unfold lattice
    norm_num
    have := Real.pi_le_four
    have h2 : |(-(3 : ℝ) / 2)| = 3 / 2 := by rw [abs_of_neg] <;> norm_num
    nlinarith [Real.pi_pos]
  have h := C108_covers 3 4 0 0 1 0 0 1 1 1 10 270 one_pos one_pos (by norm_num) (by norm_num) 0 0 (by norm_num) (by norm_num) hb
  refine ⟨?_, h.1, h.2.1, ?_⟩
  · rw [call_eq]; exact ⟨_, rfl⟩
  · rw [rotatePt_fst]; norm_num

/-- C111 A stress field along the wind over a bed at datum level, without separation, comes back unchanged. -/
theorem C111_undisturbed (S : Settings) (R C : ℕ) (g : ℕ → ℕ → ℝ × ℝ) (u0 udir : ℝ) (tau0 : ℝ × ℝ)
    (h0 : 0 ≤ (rotatePt (270 - udir) (0, 0) tau0).1) :
    ∃ r, call S R C g (fun _ _ => 0) u0 udir none tau0 = .ok r ∧ (∀ j i, r.taux j i = tau0.1 ∧ r.tauy j i = tau0.2) ∧
      r.hsep = none := by
  rw [call_eq]
  refine ⟨_, rfl, fun j i => ?_, rfl⟩
  have hz : ∀ c q p, bedOn R C g (fun _ _ => 0) c udir q p = 0 := fun c q p => interpolate_const R C _ g 0 _
  have hf : ∀ c z0 q p, stressField (bedOn R C g (fun _ _ => 0) c udir) none (computeShear S.params c z0 u0)
      (rotatePt (270 - udir) (0, 0) tau0) q p = rotatePt (270 - udir) (0, 0) tau0 := by
    intro c z0 q p
    unfold stressField
    dsimp only
    rw [C110_none S.params c z0 u0 _ (Or.inr (hz c)), addShear_zero, max_eq_left h0]
  dsimp only
  simp only [hf, rotatePt_cancel', interpolate_const, and_self]

/-- C111 The stress scales with the undisturbed stress: a factor on the latter is a factor on both components everywhere, and the
separation bubble does not change. -/
theorem C111_scales (S : Settings) (R C : ℕ) (g : ℕ → ℕ → ℝ × ℝ) (z : ℕ → ℕ → ℝ) (u0 udir : ℝ) (sep : Option SepParams)
    (tau0 : ℝ × ℝ) (k : ℝ) (hk : 0 ≤ k) (r : Result) (h : call S R C g z u0 udir sep tau0 = .ok r) :
    ∃ r', call S R C g z u0 udir sep (k * tau0.1, k * tau0.2) = .ok r' ∧
      (∀ j i, r'.taux j i = k * r.taux j i ∧ r'.tauy j i = k * r.tauy j i) ∧ r'.hsep = r.hsep := by
  rw [call_eq] at h ⊢
  dsimp only at h ⊢
  split at h
  · exact absurd h (by simp)
  · rename_i zs hs
    injection h with h
    rw [← h]
    refine ⟨_, rfl, fun j i => ?_, rfl⟩
    dsimp only
    rw [← interpolate_smul, ← interpolate_smul]
    simp only [rotatePt_smul, stressField_smul _ _ _ _ k hk, and_self]

/-- C111 Factor on the stress under the separation surface: between zero and one, one where the surface lies on the bed, zero where
it is 0.1 m above it or more, and never larger under a higher surface. -/
theorem C111_under_bubble (z : ℕ → ℕ → ℝ) (zs : ℕ → ℕ → ℝ) (pert : (ℕ → ℕ → ℝ) → ℕ → ℕ → ℝ × ℝ) (tau : ℝ × ℝ) (q p : ℕ) :
    let t := stressField z (some zs) pert tau q p
    let d := addShear tau (pert (fun q p => max (z q p) (zs q p)) q p)
    (t.1 ≤ max d.1 0 ∧ |t.2| ≤ |d.2|) ∧ (zs q p ≤ z q p → t = (max d.1 0, d.2)) ∧ (z q p + 0.1 ≤ zs q p → t = (0, 0)) := by
  intro t d
  have hr := sepFactor_range (max (z q p) (zs q p) - z q p)
  refine ⟨⟨?_, ?_⟩, fun h => ?_, fun h => ?_⟩
  · exact mul_le_of_le_one_right (le_max_right _ _) hr.2
  · show |d.2 * sepFactor _| ≤ _
    rw [abs_mul, abs_of_nonneg hr.1]
    exact mul_le_of_le_one_right (abs_nonneg _) hr.2
  · have : sepFactor (max (z q p) (zs q p) - z q p) = 1 := by
      rw [max_eq_left h, sub_self]; unfold sepFactor; norm_num
    show (max d.1 0 * sepFactor _, d.2 * sepFactor _) = _
    rw [this, mul_one, mul_one]
  · have : sepFactor (max (z q p) (zs q p) - z q p) = 0 := by
      rw [max_eq_right (by linarith)]
      unfold sepFactor
      rw [max_eq_right (by linarith), min_eq_left zero_le_one]
    show (max d.1 0 * sepFactor _, d.2 * sepFactor _) = _
    rw [this, mul_zero, mul_zero]

/-! ### C112 separation surface -/

/-- C112 The height of the bubble on the output grid is nowhere negative. -/
theorem C112_height_nonneg (S : Settings) (R C : ℕ) (g : ℕ → ℕ → ℝ × ℝ) (z : ℕ → ℕ → ℝ) (u0 udir : ℝ) (sep : SepParams)
    (tau0 : ℝ × ℝ) (r : Result) (h : call S R C g z u0 udir (some sep) tau0 = .ok r) (hdx : 0 < S.dx) (hdy : 0 < S.dy)
    (hrows : 2 ≤ (computationalGrid R C g S.dx S.dy S.buffer udir).rows)
    (hcols : 2 ≤ (computationalGrid R C g S.dx S.dy S.buffer udir).cols) :
    ∃ hsep, r.hsep = some hsep ∧ ∀ j i, 0 ≤ hsep j i := by
  rw [call_eq] at h
  dsimp only at h
  split at h
  · exact absurd h (by simp)
  · rename_i zs hs
    injection h with h
    rw [← h]
    unfold surfaceOn at hs
    dsimp only at hs
    rcases hsurf : SepInput.surface _ _ _ _ with e | zs'
    · rw [hsurf] at hs; exact absurd hs (by simp [Except.map])
    · rw [hsurf] at hs
      injection hs with hs
      rw [← hs]
      refine ⟨_, rfl, fun j i => ?_⟩
      dsimp only
      rw [show (fun q p => rotatePt (-(270 - udir)) (computationalGrid R C g S.dx S.dy S.buffer udir).origin
        ((computationalGrid R C g S.dx S.dy S.buffer udir).node q p)) = _ from funext fun q => funext fun p =>
          node_rect (computationalGrid R C g S.dx S.dy S.buffer udir) (270 - udir) q p]
      exact interpolate_nonneg _ _ hrows hcols _ _ _ _ _ _ hdx hdy _ _
        (fun q _ p _ => sub_nonneg.mpr (le_max_left _ _)) le_rfl _

/-- C112 The separation surface, without filtering, is the upper envelope of the bed, the datum and the separating streamlines of
all bubbles: it lies nowhere below them and everywhere on one of them. -/
theorem C112_envelope (S : SepInput) (hmu : 0 ≤ S.mu) (rows : ℕ) :
    ∃ zs, S.surface rows 0 none = .ok zs ∧ ∀ j < rows, ∀ m,
      S.z j m ≤ zs j m ∧ 0 ≤ zs j m ∧
      (∀ i stop line, IsBubble S.cols S.dx S.x (S.z j) S.c S.mu i stop line → i ≤ m → m < stop → line m ≤ zs j m) ∧
      (zs j m = S.z j m ∨ zs j m = 0 ∨
        ∃ i stop line, IsBubble S.cols S.dx S.x (S.z j) S.c S.mu i stop line ∧ i ≤ m ∧ m < stop ∧ zs j m = line m) := by
  obtain ⟨st, hst⟩ := walk_ok S 0 (S.bubbles rows) (Or.inl rfl) 0 ⟨fun _ _ => 0, fun _ _ => 0⟩
  unfold SepInput.surface
  rw [hst]
  refine ⟨_, rfl, fun j hj m => ?_⟩
  have henv := envelope_walk S (S.bubbles rows) [] 0 _ st j m
    ⟨by simp, le_rfl, Or.inl rfl, Or.inl rfl⟩ hst
  rw [List.nil_append] at henv
  dsimp only
  have hle : st.zsep j m ≤ if st.zsep j m < S.z j m then S.z j m else st.zsep j m := by
    split_ifs with h
    · exact h.le
    · exact le_rfl
  refine ⟨?_, henv.nonneg.trans hle, fun i stop line hb h1 h2 => ?_, ?_⟩
  · split_ifs with h
    · exact le_rfl
    · exact not_lt.mp h
  · obtain ⟨h3, h4, h5⟩ := (isBubble_iff S hmu rows j i hj m (line m)).mpr ⟨stop, line, hb, h1, h2, rfl⟩
    rw [h5]
    exact (henv.ge (j, i) h3 h4).trans hle
  · split_ifs with h
    · exact Or.inl rfl
    · rcases henv.attained with h0 | h0 | ⟨⟨j', i⟩, hb, hc, hy⟩
      · exact Or.inr (Or.inl h0)
      · exact Or.inl h0
      · have hj' : j = j' := hc.1
        subst hj'
        obtain ⟨stop, line, h1⟩ := (isBubble_iff S hmu rows j i hj m _).mp ⟨hb, hc, rfl⟩
        exact Or.inr (Or.inr ⟨i, stop, line, h1.1, h1.2.1, h1.2.2.1, hy.trans h1.2.2.2⟩)

/-- A bubble does begin, for instance, at a vertical drop of 10 m behind five level columns. -/
example : StartsAt 20 1 (fun i => if i < 5 then 10 else 0) 30 3 := by
  have hpi := Real.pi_pos
  unfold StartsAt bedAngle
  refine ⟨by norm_num, ?_⟩
  norm_num
  have h : Real.arctan (-5) < -(Real.pi / 4) := by
    rw [← Real.arctan_one, ← Real.arctan_neg]; exact Real.arctan_strictMono (by norm_num)
  rw [Real.arctan_neg] at h
  rw [div_lt_iff₀ hpi]
  linarith

/-- C112 Whatever the number of filter iterations: where no bubble begins in a row, the surface is the bed, filled up to the datum
where it lies below. (Below datum the stress is hence reduced without any stall.) -/
theorem C112_no_bubble (S : SepInput) (hmu : 0 ≤ S.mu) (rows it : ℕ) (zs : ℕ → ℕ → ℝ) (h : S.surface rows it none = .ok zs) (j : ℕ)
    (hb : ∀ i, ¬ StartsAt S.cols S.dx (S.z j) S.mu i) (m : ℕ) : zs j m = max (S.z j m) 0 := by
  unfold SepInput.surface at h
  split at h
  · exact absurd h (by simp)
  · rename_i st hst
    injection h with h
    rw [← h]
    dsimp only
    have := walk_row S it _ 0 _ st hst j m (fun b hb' hj => by
      obtain ⟨j', i⟩ := b
      subst hj
      exact hb i ((startsAt_iff _ _ _ _ hmu i).mpr ((mem_bubbles S rows _ i).mp hb').2.2))
    dsimp only at this
    show (if st.zsep j m < S.z j m then S.z j m else st.zsep j m) = _
    simp only [this]
    split_ifs with h0
    · exact (max_eq_left h0.le).symm
    · exact (max_eq_right (not_lt.mp h0)).symm

/-- C112 With any settings the surface is nowhere below the bed. -/
theorem C112_above_bed (S : SepInput) (rows it : ℕ) (w : Option (ℕ → ℕ → ℝ)) (zs : ℕ → ℕ → ℝ) (h : S.surface rows it w = .ok zs)
    (j m : ℕ) : S.z j m ≤ zs j m := by
  unfold SepInput.surface at h
  split at h
  · exact absurd h (by simp)
  · injection h with h
    rw [← h]
    dsimp only
    split_ifs with h0
    · exact le_rfl
    · exact not_lt.mp h0

/-- C112 Filtering fails with an index error exactly if a bubble begins in a row whose number is not less than the number of
columns. -/
theorem C112_filter_error (S : SepInput) (hmu : 0 ≤ S.mu) (rows it : ℕ) (w : Option (ℕ → ℕ → ℝ)) :
    (∃ e, S.surface rows it w = .error e) ↔
      it ≠ 0 ∧ ∃ j i, S.cols ≤ j ∧ j < rows ∧ StartsAt S.cols S.dx (S.z j) S.mu i := by
  constructor
  · rintro ⟨e, he⟩
    by_contra hcon
    have : it = 0 ∨ ∀ b ∈ S.bubbles rows, b.1 < S.cols := by
      by_cases h0 : it = 0
      · exact Or.inl h0
      · refine Or.inr fun ⟨j, i⟩ hb => ?_
        by_contra hj
        have hb := (mem_bubbles S rows j i).mp hb
        exact hcon ⟨h0, j, i, not_lt.mp hj, hb.1, (startsAt_iff _ _ _ _ hmu i).mpr hb.2.2⟩
    obtain ⟨st, hst⟩ := walk_ok S it _ this 0 ⟨fun _ _ => 0, fun _ _ => 0⟩
    unfold SepInput.surface at he
    rw [hst] at he
    exact absurd he (by simp)
  · rintro ⟨hit, j, i, hj, hr, hs⟩
    have hb : (j, i) ∈ S.bubbles rows := (mem_bubbles S rows j i).mpr ⟨hr, by have := hs.1; omega, (startsAt_iff _ _ _ _ hmu i).mp hs⟩
    unfold SepInput.surface
    rw [walk_error S it hit _ (j, i) hb hj]
    exact ⟨_, rfl⟩

/-- C112 The separating streamline leaves the brink with its slope and reattaches with slope zero, `h` lower, after `len`. -/
theorem C112_streamline (start s h len : ℝ) (hl : len ≠ 0) :
    hermite start s h len 0 = start ∧ HasDerivAt (hermite start s h len) s 0 ∧
      hermite start s h len len = start - h ∧ HasDerivAt (hermite start s h len) 0 len := by
  have e : hermite start s h len = streamline h s len start := funext fun x => (streamline_hermite h s len start x hl).symm
  refine ⟨by unfold hermite; ring, ?_, ?_, ?_⟩
  · rw [e]; exact (streamline_deriv h s len start 0).congr_deriv (by ring)
  · unfold hermite; field_simp; ring
  · rw [e]; exact (streamline_deriv h s len start len).congr_deriv (by field_simp; ring)

/-- C112 Behind a flat brink the streamline of length `3 h / (2 c)` stays between the levels of brink and reattachment and descends
nowhere steeper than `c`, which it reaches halfway. -/
theorem C112_steepest (start h c : ℝ) (hh : 0 < h) (hc : 0 < c) :
    let len := 3 * h / (2 * c)
    (∀ x, 0 ≤ x → x ≤ len → start - h ≤ hermite start 0 h len x ∧ hermite start 0 h len x ≤ start ∧
      ∃ d, HasDerivAt (hermite start 0 h len) d x ∧ -c ≤ d ∧ d ≤ 0) ∧
    HasDerivAt (hermite start 0 h len) (-c) (len / 2) := by
  intro len
  have hl : 0 < len := by positivity
  have e : hermite start 0 h len = streamline h 0 len start := funext fun x => (streamline_hermite h 0 len start x hl.ne').symm
  have hd : ∀ x, HasDerivAt (hermite start 0 h len) (-(6 * h / len) * (x / len) * (1 - x / len)) x := by
    intro x
    rw [e]
    refine (streamline_deriv h 0 len start x).congr_deriv ?_
    field_simp
    ring
  have hcl : 6 * h / len = 4 * c := by
    simp only [len]; field_simp; ring
  constructor
  · intro x h0 h1
    have hy0 : 0 ≤ x / len := by positivity
    have hy1 : x / len ≤ 1 := (div_le_one hl).mpr h1
    have hval : hermite start 0 h len x = start - h * ((x / len) ^ 2 * (3 - 2 * (x / len))) := by unfold hermite; ring
    have hp0 : 0 ≤ (x / len) ^ 2 * (3 - 2 * (x / len)) := mul_nonneg (sq_nonneg _) (by linarith)
    have hp1 : (x / len) ^ 2 * (3 - 2 * (x / len)) ≤ 1 := by
      nlinarith [mul_nonneg (sq_nonneg (1 - x / len)) (by linarith : 0 ≤ 1 + 2 * (x / len))]
    refine ⟨by rw [hval]; nlinarith, by rw [hval]; nlinarith, _, hd x, ?_, ?_⟩
    · rw [hcl]; nlinarith [mul_nonneg hc.le (sq_nonneg (1 - 2 * (x / len)))]
    · rw [hcl]; nlinarith [mul_nonneg hc.le (mul_nonneg hy0 (by linarith : 0 ≤ 1 - x / len))]
  · refine (hd (len / 2)).congr_deriv ?_
    rw [hcl, show len / 2 / len = 1 / 2 by field_simp]
    ring

end

/-- Waves of a grid of ten columns of 2 m: the longest is of 22 m, the shortest of 4.4 m. -/
example : |wavenumber 10 2 0| = 2 * Real.pi * 1 / ((10 + 1) * 2) ∧ |wavenumber 10 2 4| = 2 * Real.pi * 5 / ((10 + 1) * 2) := by
  have h0 := (C110_wavenumbers 10 2 (by norm_num) 0 (by norm_num)).1
  have h4 := (C110_wavenumbers 10 2 (by norm_num) 4 (by norm_num)).1
  norm_num at h0 h4 ⊢
  exact ⟨h0, h4⟩

/-- A long wave is damped less than a short one. -/
example : filterFactor 1 2 1 1 2 2 ≤ filterFactor 1 2 1 1 0.1 (-0.2) :=
  C114_longer_kept 1 2 1 1 _ _ _ _ (by norm_num) (by norm_num) (by norm_num) (by norm_num) (by norm_num) (by norm_num)
    (by norm_num [abs_of_pos]) (by norm_num [abs_of_pos])

/-- The streamline behind a brink of 2 m that descends over 15 m. -/
example : hermite 2 0 2 15 0 = 2 ∧ hermite 2 0 2 15 15 = 2 - 2 :=
  ⟨(C112_streamline 2 0 2 15 (by norm_num)).1, (C112_streamline 2 0 2 15 (by norm_num)).2.2.1⟩

/-- A bed that stays level: no bubble, and the surface is the bed. -/
example : ∃ zs, (⟨10, 1, fun i => i, 10, fun _ _ => 1, 0.2, 30⟩ : SepInput).surface 3 2 none = .ok zs ∧ ∀ j m, zs j m = max 1 0 := by
  have hno : ∀ i, ¬ StartsAt 10 1 (fun _ => 1) 30 i := by
    intro i h
    unfold StartsAt bedAngle at h
    norm_num at h
  cases h : (⟨10, 1, fun i => i, 10, fun _ _ => 1, 0.2, 30⟩ : SepInput).surface 3 2 none with
  | ok zs => exact ⟨zs, rfl, fun j m => C112_no_bubble _ (by norm_num) 3 2 zs h j hno m⟩
  | error e =>
    obtain ⟨-, j, i, h1, h2, -⟩ := (C112_filter_error _ (by norm_num) 3 2 none).mp ⟨e, h⟩
    simp only at h1
    omega

end Aeolis.Props
