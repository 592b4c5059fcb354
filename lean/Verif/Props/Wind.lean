import Verif.Model.Wind
import Verif.Props.Interp
import Mathlib.Tactic.Linarith
import Mathlib.Tactic.NormNum
import Mathlib.Tactic.Ring
import Mathlib.Tactic.Positivity
import Mathlib.Tactic.FieldSimp
import Mathlib.Tactic.LinearCombination
import Mathlib.Tactic.SplitIfs

/-! Property theorems on wind and shear: C73, C74, C92. -/

set_option linter.unusedSectionVars false

namespace Aeolis.Props

open Aeolis.Wind Aeolis.Spec

noncomputable section

theorem hypot_scale (k a b : ℝ) (hk : 0 ≤ k) : hypot (k * a) (k * b) = k * hypot a b := by
  unfold hypot
  rw [show (k * a) ^ 2 + (k * b) ^ 2 = k ^ 2 * (a ^ 2 + b ^ 2) by ring, Real.sqrt_mul (sq_nonneg k), Real.sqrt_sq hk]

theorem hypot_nonneg (a b : ℝ) : 0 ≤ hypot a b := Real.sqrt_nonneg _

theorem hypot_zero {a b : ℝ} (h : hypot a b = 0) : a = 0 ∧ b = 0 := by
  unfold hypot at h
  rw [Real.sqrt_eq_zero (by positivity)] at h
  constructor <;> nlinarith [sq_nonneg a, sq_nonneg b]

/-- C73 The stress is density times shear velocity squared, in the direction of the shear velocity; no shear velocity, no
stress. -/
theorem C73_stress {rhoa : ℝ} (hr : 0 < rhoa) (c : Shear) (hc : c.ustar = hypot c.ustars c.ustarn) :
    let d := velocityStress rhoa c
    d.tau = rhoa * c.ustar ^ 2 ∧ d.taus = rhoa * c.ustar * c.ustars ∧ d.taun = rhoa * c.ustar * c.ustarn ∧
      d.ustar = c.ustar ∧ d.ustars = c.ustars ∧ d.ustarn = c.ustarn := by
  dsimp only
  have hn : 0 ≤ c.ustar := hc ▸ hypot_nonneg _ _
  unfold velocityStress
  dsimp only
  rcases hn.lt_or_eq with hp | hz
  · simp only [hp, hp.ne', if_true, if_false]
    have e1 : rhoa * c.ustar ^ 2 * c.ustars / c.ustar = rhoa * c.ustar * c.ustars := by field_simp
    have e2 : rhoa * c.ustar ^ 2 * c.ustarn / c.ustar = rhoa * c.ustar * c.ustarn := by field_simp
    rw [e1, e2, hypot_scale _ _ _ (by positivity), ← hc]
    exact ⟨by ring, rfl, rfl, trivial, trivial, trivial⟩
  · simp [← hz]

/-- C73 Converting shear velocity to stress and back returns the shear velocity and its components. -/
theorem C73_velocity_round_trip {rhoa : ℝ} (hr : 0 < rhoa) (c : Shear) (hc : c.ustar = hypot c.ustars c.ustarn) :
    let d := stressVelocity rhoa (velocityStress rhoa c)
    d.ustar = c.ustar ∧ d.ustars = c.ustars ∧ d.ustarn = c.ustarn := by
  dsimp only
  have hn : 0 ≤ c.ustar := hc ▸ hypot_nonneg _ _
  obtain ⟨h1, h2, h3, h4, h5, h6⟩ := C73_stress hr c hc
  generalize velocityStress rhoa c = d at h1 h2 h3 h4 h5 h6
  unfold stressVelocity
  dsimp only
  rcases hn.lt_or_eq with hp | hz
  · have ht : 0 < d.tau := by rw [h1]; positivity
    have hs : Real.sqrt (d.tau / rhoa) = c.ustar := by
      rw [h1, mul_div_cancel_left₀ _ hr.ne', Real.sqrt_sq hn]
    simp only [ht, ht.ne', if_true, if_false, hs]
    rw [h1, h2, h3]
    refine ⟨trivial, ?_, ?_⟩ <;> field_simp
  · have ht : d.tau = 0 := by rw [h1, ← hz]; ring
    have := hypot_zero (a := c.ustars) (b := c.ustarn) (by rw [← hc, ← hz])
    simp only [ht, if_true]
    exact ⟨hz, this.1.symm, this.2.symm⟩

/-- C73 Converting stress to shear velocity and back returns the stress and its components. -/
theorem C73_stress_round_trip {rhoa : ℝ} (hr : 0 < rhoa) (c : Shear) (hc : c.tau = hypot c.taus c.taun) :
    let d := velocityStress rhoa (stressVelocity rhoa c)
    d.tau = c.tau ∧ d.taus = c.taus ∧ d.taun = c.taun := by
  dsimp only
  have hn : 0 ≤ c.tau := hc ▸ hypot_nonneg _ _
  rcases hn.lt_or_eq with hp | hz
  · have hs : 0 < Real.sqrt (c.tau / rhoa) := Real.sqrt_pos.mpr (by positivity)
    have hsq : rhoa * Real.sqrt (c.tau / rhoa) ^ 2 = c.tau := by
      rw [Real.sq_sqrt (by positivity)]; field_simp
    unfold velocityStress stressVelocity
    simp only [hp, hp.ne', if_true, if_false, hs, hs.ne', hsq]
    have e1 : c.tau * (Real.sqrt (c.tau / rhoa) * c.taus / c.tau) / Real.sqrt (c.tau / rhoa) = c.taus := by field_simp
    have e2 : c.tau * (Real.sqrt (c.tau / rhoa) * c.taun / c.tau) / Real.sqrt (c.tau / rhoa) = c.taun := by field_simp
    rw [e1, e2]
    exact ⟨hc.symm, rfl, rfl⟩
  · have := hypot_zero (a := c.taus) (b := c.taun) (by rw [← hc, ← hz])
    unfold velocityStress stressVelocity
    simp [← hz, this.1, this.2]

/-- A shear velocity of 0.5 m/s. -/
def breeze : Shear := ⟨0.5, 0.3, 0.4, 0, 0, 0⟩

example : (0:ℝ) < 1.225 ∧ breeze.ustar = hypot breeze.ustars breeze.ustarn := by
  refine ⟨by norm_num, ?_⟩
  unfold breeze hypot
  dsimp only
  rw [show (0.3:ℝ) ^ 2 + 0.4 ^ 2 = 0.5 ^ 2 by norm_num, Real.sqrt_sq (by norm_num)]

/-- C74 The two components of the wind have the wind speed as length and blow from the wind direction, measured from the
grid orientation: from 0 degrees against the second axis, from 90 degrees against the first. -/
theorem C74_components (alfa uw udir : ℝ) :
    (components alfa uw udir).1 ^ 2 + (components alfa uw udir).2 ^ 2 = uw ^ 2 ∧
    components alfa uw alfa = (0, -uw) ∧ components alfa uw (alfa + 90) = (-uw, 0) := by
  unfold components
  refine ⟨?_, ?_, ?_⟩
  · linear_combination uw ^ 2 * Real.sin_sq_add_cos_sq ((-alfa + udir) / 180 * Real.pi)
  · simp
  · rw [show (-alfa + (alfa + 90)) / 180 * Real.pi = Real.pi / 2 by ring, Real.sin_pi_div_two, Real.cos_pi_div_two]
    simp

/-- C74 The shear velocity is the wind speed times kappa/ln(z/z0), its direction that of the wind, the stress is density
times shear velocity squared. -/
theorem C74_shear_velocity (alfa : ℝ) {kappa z rhoa z0 : ℝ} (hk : 0 ≤ kappa) (hr : 0 < rhoa) (h0 : 0 < z0) (hz : z0 < z)
    (uw udir : ℝ) (old : Shear) :
    let w := interpolateCell alfa kappa z rhoa uw udir z0 old
    let u := components alfa uw udir
    w.1 = |uw| ∧ w.2.ustar = |uw| * (kappa / Real.log (z / z0)) ∧ w.2.ustars = u.1 * (kappa / Real.log (z / z0)) ∧
      w.2.ustarn = u.2 * (kappa / Real.log (z / z0)) ∧ w.2.tau = rhoa * w.2.ustar ^ 2 ∧
      w.2.taus = rhoa * w.2.ustar * w.2.ustars ∧ w.2.taun = rhoa * w.2.ustar * w.2.ustarn := by
  dsimp only
  unfold interpolateCell
  dsimp only
  set u := components alfa uw udir with hu
  have hl : 0 < Real.log (z / z0) := Real.log_pos ((one_lt_div h0).mpr hz)
  have hf : 0 ≤ kappa / Real.log (z / z0) := by positivity
  have hh : hypot (u.1 * kappa / Real.log (z / z0)) (u.2 * kappa / Real.log (z / z0)) =
      |uw| * (kappa / Real.log (z / z0)) := by
    rw [show u.1 * kappa / Real.log (z / z0) = kappa / Real.log (z / z0) * u.1 by ring,
      show u.2 * kappa / Real.log (z / z0) = kappa / Real.log (z / z0) * u.2 by ring, hypot_scale _ _ _ hf]
    unfold hypot
    rw [(C74_components alfa uw udir).1, Real.sqrt_sq_eq_abs]
    ring
  obtain ⟨h1, h2, h3, h4, h5, h6⟩ := C73_stress hr
    { old with ustars := u.1 * kappa / Real.log (z / z0), ustarn := u.2 * kappa / Real.log (z / z0),
               ustar := hypot (u.1 * kappa / Real.log (z / z0)) (u.2 * kappa / Real.log (z / z0)) } rfl
  refine ⟨rfl, ?_, ?_, ?_, ?_, ?_, ?_⟩
  · rw [h4]; exact hh
  · rw [h5]; ring
  · rw [h6]; ring
  · rw [h1, h4]
  · rw [h2, h4, h5]
  · rw [h3, h4, h6]

example : (0:ℝ) ≤ 0.41 ∧ (0:ℝ) < 1.225 ∧ (0:ℝ) < 0.001 ∧ (0.001:ℝ) < 10 := by norm_num

/-- C74 Calm wind gives no shear velocity and no stress, whatever the roughness. -/
theorem C74_calm (alfa kappa z rhoa z0 udir : ℝ) (old : Shear) :
    let w := interpolateCell alfa kappa z rhoa 0 udir z0 old
    w.1 = 0 ∧ w.2 = ⟨0, 0, 0, 0, 0, 0⟩ := by
  have h : hypot 0 0 = 0 := by unfold hypot; simp
  simp [interpolateCell, components, velocityStress, h]

/-- `arctan2` of a vector of positive length recovers its direction. -/
theorem arctan2_polar {R th : ℝ} (hR : 0 < R) :
    Real.sin (arctan2 (R * Real.sin th) (R * Real.cos th)) = Real.sin th ∧
    Real.cos (arctan2 (R * Real.sin th) (R * Real.cos th)) = Real.cos th := by
  unfold arctan2
  have hz : (⟨R * Real.cos th, R * Real.sin th⟩ : ℂ) ≠ 0 := by
    intro h
    have h1 := congrArg Complex.re h
    have h2 := congrArg Complex.im h
    simp only [Complex.zero_re, Complex.zero_im, mul_eq_zero, hR.ne', false_or] at h1 h2
    have := Real.sin_sq_add_cos_sq th
    rw [h1, h2] at this
    norm_num at this
  have hn : ‖(⟨R * Real.cos th, R * Real.sin th⟩ : ℂ)‖ = R := by
    rw [Complex.norm_def, Complex.normSq_mk,
      show R * Real.cos th * (R * Real.cos th) + R * Real.sin th * (R * Real.sin th) = R ^ 2 by
        linear_combination R ^ 2 * Real.sin_sq_add_cos_sq th, Real.sqrt_sq hR.le]
  constructor
  · rw [Complex.sin_arg, hn]
    show R * Real.sin th / R = _
    field_simp
  · rw [Complex.cos_arg hz, hn]
    show R * Real.cos th / R = _
    field_simp

/-- Sine and cosine of a direction in degrees. -/
def sinDeg (d : ℝ) : ℝ := Real.sin (d / 180 * Real.pi)
def cosDeg (d : ℝ) : ℝ := Real.cos (d / 180 * Real.pi)

theorem deg_arctan2 (y x : ℝ) : arctan2 y x * 180 / Real.pi / 180 * Real.pi = arctan2 y x := by
  have := Real.pi_pos
  field_simp

theorem increasing_map (f : ℝ × ℝ → ℝ) (file : List Record) (h : file.Pairwise (fun a b => a.1 < b.1)) :
    Increasing (file.map fun r => (r.1, f r.2)) := by
  unfold Increasing
  rw [List.pairwise_map]
  exact h

/-- C74 At a listed time the wind has the listed speed and the listed direction (up to full turns). -/
theorem C74_listed_times (file : List Record) (hinc : file.Pairwise (fun a b => a.1 < b.1)) (i : ℕ)
    (hi : i < file.length) :
    ∃ udir, windAt file (file[i]).1 = some ((file[i]).2.1, udir) ∧ sinDeg udir = sinDeg (file[i]).2.2 ∧
      cosDeg udir = cosDeg (file[i]).2.2 := by
  have key : ∀ f : ℝ × ℝ → ℝ, interpCircular (file.map fun r => (r.1, f r.2)) (file[i]).1 = some (f (file[i]).2) := by
    intro f
    have := C08_listed_times _ (increasing_map f file hinc) i (by simpa using hi)
    simpa using this
  have h1 := key (fun r => r.1)
  have h2 := key (fun r => Real.sin (r.2 / 180 * Real.pi))
  have h3 := key (fun r => Real.cos (r.2 / 180 * Real.pi))
  have hp := arctan2_polar (R := 1) (th := (file[i]).2.2 / 180 * Real.pi) one_pos
  rw [one_mul, one_mul] at hp
  unfold windAt
  dsimp only at *
  rw [h1, h2, h3]
  refine ⟨_, rfl, ?_, ?_⟩
  · unfold sinDeg
    rw [deg_arctan2]
    exact hp.1
  · unfold cosDeg
    rw [deg_arctan2]
    exact hp.2

/-- Wind backing through north within an hour. -/
def backing : List Record := [(0, 10, 350), (3600, 8, 370)]

example : backing.Pairwise (fun a b => a.1 < b.1) := by
  unfold backing
  simp

theorem mix_angle (a d w : ℝ) (h0 : 0 ≤ d) (h1 : d < Real.pi) (w0 : 0 ≤ w) (w1 : w ≤ 1) :
    ∃ R th, 0 < R ∧ a ≤ th ∧ th ≤ a + d ∧
      (1 - w) * Real.sin a + w * Real.sin (a + d) = R * Real.sin th ∧
      (1 - w) * Real.cos a + w * Real.cos (a + d) = R * Real.cos th := by
  -- the mixture in a frame turned by `a`
  set X := (1 - w) + w * Real.cos d with hX
  set Y := w * Real.sin d with hY
  have hsd : 0 ≤ Real.sin d := Real.sin_nonneg_of_nonneg_of_le_pi h0 h1.le
  have hY0 : 0 ≤ Y := mul_nonneg w0 hsd
  set z : ℂ := ⟨X, Y⟩ with hz
  have hzne : z ≠ 0 := by
    intro h
    have e1 : X = 0 := congrArg Complex.re h
    have e2 : Y = 0 := congrArg Complex.im h
    rcases mul_eq_zero.mp e2 with hw | hs
    · rw [hX, hw] at e1; norm_num at e1
    · have hd0 : d = 0 := by
        rcases h0.lt_or_eq with h | h
        · exact absurd hs (Real.sin_pos_of_pos_of_lt_pi h h1).ne'
        · exact h.symm
      rw [hX, hd0, Real.cos_zero] at e1
      norm_num at e1
  have hR : 0 < ‖z‖ := norm_pos_iff.mpr hzne
  have hs : ‖z‖ * Real.sin z.arg = Y := by rw [Complex.sin_arg]; field_simp; rfl
  have hc : ‖z‖ * Real.cos z.arg = X := by rw [Complex.cos_arg hzne]; field_simp; rfl
  have ha0 : 0 ≤ z.arg := Complex.arg_nonneg_iff.mpr hY0
  have hapi : z.arg ≤ Real.pi := Complex.arg_le_pi z
  have had : z.arg ≤ d := by
    by_contra hlt
    push Not at hlt
    have h2 : Real.sin (d - z.arg) < 0 := Real.sin_neg_of_neg_of_neg_pi_lt (by linarith) (by
      rcases h0.lt_or_eq with h | h
      · linarith
      · -- d = 0: the mixture is 1
        exfalso
        have : z = 1 := by
          rw [hz, hX, hY, ← h]
          apply Complex.ext <;> simp
        rw [this, Complex.arg_one] at hlt
        linarith)
    have h3 : ‖z‖ * Real.sin (d - z.arg) = (1 - w) * Real.sin d := by
      rw [Real.sin_sub]
      linear_combination Real.sin d * hc - Real.cos d * hs
    have h4 : 0 ≤ (1 - w) * Real.sin d := mul_nonneg (by linarith) hsd
    rw [← h3] at h4
    exact absurd h4 (not_le.mpr (mul_neg_of_pos_of_neg hR h2))
  refine ⟨‖z‖, a + z.arg, hR, by linarith, by linarith, ?_, ?_⟩
  · rw [Real.sin_add, Real.sin_add]
    linear_combination -Real.sin a * hc - Real.cos a * hs
  · rw [Real.cos_add, Real.cos_add]
    linear_combination -Real.cos a * hc + Real.sin a * hs

/-- C74 Between two consecutive records less than half a turn apart, the wind speed lies on the straight line between the
listed speeds and the direction lies (up to full turns) between the listed directions: the direction takes the short way,
also through north. -/
theorem C74_between_listed_times (file : List Record) (hinc : file.Pairwise (fun a b => a.1 < b.1)) (i : ℕ)
    (hi : i + 1 < file.length) (t : ℝ) (h1 : (file[i]).1 ≤ t) (h2 : t ≤ (file[i + 1]).1)
    (hd : (file[i]).2.2 ≤ (file[i + 1]).2.2) (hd' : (file[i + 1]).2.2 < (file[i]).2.2 + 180) :
    ∃ uw udir th, windAt file t = some (uw, udir) ∧
      OnLine ((file[i]).1, (file[i]).2.1) ((file[i + 1]).1, (file[i + 1]).2.1) t uw ∧
      (file[i]).2.2 ≤ th ∧ th ≤ (file[i + 1]).2.2 ∧ sinDeg udir = sinDeg th ∧ cosDeg udir = cosDeg th := by
  have hpi := Real.pi_pos
  have hlt : (file[i]).1 < (file[i + 1]).1 := (List.pairwise_iff_getElem.mp hinc) i (i + 1) (by omega) hi (by omega)
  have key : ∀ f : ℝ × ℝ → ℝ, ∃ y, interpCircular (file.map fun r => (r.1, f r.2)) t = some y ∧
      OnLine ((file[i]).1, f (file[i]).2) ((file[i + 1]).1, f (file[i + 1]).2) t y := by
    intro f
    have := C08_between_listed_times _ (increasing_map f file hinc) i (by simpa using hi) t
      (by simpa using h1) (by simpa using h2)
    simpa using this
  obtain ⟨uw, e1, l1⟩ := key (fun r => r.1)
  obtain ⟨sn, e2, l2⟩ := key (fun r => Real.sin (r.2 / 180 * Real.pi))
  obtain ⟨cs, e3, l3⟩ := key (fun r => Real.cos (r.2 / 180 * Real.pi))
  set t0 := (file[i]).1
  set t1 := (file[i + 1]).1
  set d0 := (file[i]).2.2
  set d1 := (file[i + 1]).2.2
  have hT : t1 - t0 ≠ 0 := by linarith
  set w := (t - t0) / (t1 - t0) with hw
  have w0 : 0 ≤ w := div_nonneg (by linarith) (by linarith)
  have w1 : w ≤ 1 := (div_le_one (by linarith)).mpr (by linarith)
  have hwT : w * (t1 - t0) = t - t0 := by rw [hw]; field_simp
  obtain ⟨R, th, hR, b1, b2, m1, m2⟩ := mix_angle (d0 / 180 * Real.pi) ((d1 - d0) / 180 * Real.pi) w
    (by have : 0 ≤ d1 - d0 := by linarith
        positivity)
    (by have : d1 - d0 < 180 := by linarith
        nlinarith) w0 w1
  rw [show d0 / 180 * Real.pi + (d1 - d0) / 180 * Real.pi = d1 / 180 * Real.pi by ring] at b2 m1 m2
  have hs : sn = R * Real.sin th := by
    rw [← m1]
    unfold OnLine at l2
    dsimp only at l2
    have : (sn - ((1 - w) * Real.sin (d0 / 180 * Real.pi) + w * Real.sin (d1 / 180 * Real.pi))) * (t1 - t0) = 0 := by
      linear_combination l2 - (Real.sin (d1 / 180 * Real.pi) - Real.sin (d0 / 180 * Real.pi)) * hwT
    have := (mul_eq_zero.mp this).resolve_right hT
    linarith
  have hc : cs = R * Real.cos th := by
    rw [← m2]
    unfold OnLine at l3
    dsimp only at l3
    have : (cs - ((1 - w) * Real.cos (d0 / 180 * Real.pi) + w * Real.cos (d1 / 180 * Real.pi))) * (t1 - t0) = 0 := by
      linear_combination l3 - (Real.cos (d1 / 180 * Real.pi) - Real.cos (d0 / 180 * Real.pi)) * hwT
    have := (mul_eq_zero.mp this).resolve_right hT
    linarith
  have hp := arctan2_polar (R := R) (th := th) hR
  have hth : th * 180 / Real.pi / 180 * Real.pi = th := by field_simp
  refine ⟨uw, arctan2 sn cs * 180 / Real.pi, th * 180 / Real.pi, ?_, l1, ?_, ?_, ?_, ?_⟩
  · unfold windAt
    dsimp only at *
    rw [e1, e2, e3]
  · rw [le_div_iff₀ hpi]
    linarith
  · rw [div_le_iff₀ hpi]
    linarith
  · unfold sinDeg
    rw [deg_arctan2, hth, hs, hc]
    exact hp.1
  · unfold cosDeg
    rw [deg_arctan2, hth, hs, hc]
    exact hp.2

example : (350:ℝ) ≤ 370 ∧ (370:ℝ) < 350 + 180 := by norm_num

/-- C74 The wind is defined at every time for a file with at least one record, its speed within the range of the listed
speeds. -/
theorem C74_always_defined (file : List Record) (hne : file ≠ []) (hinc : file.Pairwise (fun a b => a.1 < b.1))
    (t lo hi : ℝ) (hb : ∀ r ∈ file, lo ≤ r.2.1 ∧ r.2.1 ≤ hi) :
    ∃ uw udir, windAt file t = some (uw, udir) ∧ lo ≤ uw ∧ uw ≤ hi := by
  have key : ∀ (f : ℝ × ℝ → ℝ) (lo hi : ℝ), (∀ r ∈ file, lo ≤ f r.2 ∧ f r.2 ≤ hi) →
      ∃ y, interpCircular (file.map fun r => (r.1, f r.2)) t = some y ∧ lo ≤ y ∧ y ≤ hi := by
    intro f lo hi hb
    refine C10_within_data_range _ (by simpa using hne) (increasing_map f file hinc) t lo hi ?_
    intro k hk
    obtain ⟨r, hr, rfl⟩ := List.mem_map.mp hk
    exact hb r hr
  obtain ⟨uw, e1, l1⟩ := key (fun r => r.1) lo hi hb
  obtain ⟨sn, e2, -⟩ := key (fun r => Real.sin (r.2 / 180 * Real.pi)) (-1) 1
    (fun r _ => ⟨Real.neg_one_le_sin _, Real.sin_le_one _⟩)
  obtain ⟨cs, e3, -⟩ := key (fun r => Real.cos (r.2 / 180 * Real.pi)) (-1) 1
    (fun r _ => ⟨Real.neg_one_le_cos _, Real.cos_le_one _⟩)
  refine ⟨uw, arctan2 sn cs * 180 / Real.pi, ?_, l1⟩
  unfold windAt
  dsimp only at *
  rw [e1, e2, e3]

example : ∀ r ∈ backing, (8:ℝ) ≤ r.2.1 ∧ r.2.1 ≤ 10 := by
  unfold backing
  simp
  norm_num

/-- C74 Directions: nautical directions are used as they are, cartesian ones are turned into nautical ones; any other
convention is rejected. Directions at which the first component would vanish are moved by 0.01 degrees. -/
theorem C74_convention (convention : String) (file : List Record) :
    (convention = "nautical" → ∃ f, applyConvention convention file = .ok (file.map f) ∧
      ∀ r, (f r).1 = r.1 ∧ (f r).2.1 = r.2.1 ∧ (r.2.2 ≠ 0 → (f r).2.2 = r.2.2) ∧ (r.2.2 = 0 → (f r).2.2 = 0.01)) ∧
    (convention = "cartesian" → ∃ f, applyConvention convention file = .ok (file.map f) ∧
      ∀ r, (f r).1 = r.1 ∧ (f r).2.1 = r.2.1 ∧ (r.2.2 ≠ 270 → (f r).2.2 = 270 - r.2.2) ∧
        (r.2.2 = 270 → (f r).2.2 = -0.01)) ∧
    (convention ≠ "nautical" → convention ≠ "cartesian" → applyConvention convention file = .error .valueError) := by
  refine ⟨?_, ?_, ?_⟩
  · rintro rfl
    refine ⟨_, by unfold applyConvention; rw [if_pos rfl], ?_⟩
    intro r
    split_ifs with h <;> simp [h]
  · rintro rfl
    refine ⟨_, by unfold applyConvention; rw [if_neg (by decide), if_pos rfl, List.map_map], ?_⟩
    intro r
    simp only [Function.comp]
    split_ifs with h
    · refine ⟨rfl, rfl, fun h' => absurd h h', fun _ => ?_⟩
      norm_num
    · exact ⟨rfl, rfl, fun _ => rfl, fun h' => absurd h' h⟩
  · intro h1 h2
    unfold applyConvention
    rw [if_neg h1, if_neg h2]

end

end Aeolis.Props
