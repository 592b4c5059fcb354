import Verif.Model.Duran
import Mathlib.Tactic

/-!
C129: grain speeds with `method_grainspeed = duran` (aeolis/transport.py:40-200).
-/

set_option linter.unusedSectionVars false

namespace Aeolis.Props

open Aeolis.Transport Aeolis.Duran

noncomputable section

/-- Physical parameters: all positive, grains heavier than air. -/
structure DuranOk (p : Duran.Params) : Prop where
  v : 0 < p.v
  g : 0 < p.g
  rhoa : 0 < p.rhoa
  rhog : p.rhoa < p.rhog
  Aa : 0 < p.Aa
  kappa : 0 < p.kappa
  d : 0 < p.d

section consts
variable {p : Duran.Params} (h : DuranOk p)
include h

theorem duran_srho : 0 < p.srho - 1 := by
  have : 1 < p.srho := by
    unfold Duran.Params.srho
    rw [lt_div_iff₀ h.rhoa]; linarith [h.rhog]
  linarith

theorem duran_lv : 0 < p.lv := by
  have h1 := duran_srho h
  have := h.v; have := h.g; have := h.Aa
  unfold Duran.Params.lv
  positivity

theorem duran_tv : 0 < p.tv := by
  have := h.v; have := h.g
  unfold Duran.Params.tv
  positivity

theorem duran_alpha : 0 < p.alpha := by
  have := duran_lv h; have := h.d
  unfold Duran.Params.alpha
  positivity

theorem duran_uf : 0 < p.uf := by
  have h1 := duran_srho h
  have h2 := duran_alpha h
  have := h.d; have := h.g; have := h.v
  have h3 : 0 < p.Sstar := by unfold Duran.Params.Sstar; positivity
  have h4 : 0 < p.Cd := by unfold Duran.Params.Cd; positivity
  unfold Duran.Params.uf
  positivity

end consts

/-- The drag on the bed slows grains down by this much: the settling velocity over `√(2α)`. -/
def dragSpeed (p : Duran.Params) : ℝ := p.uf / Real.sqrt (2 * p.alpha)

theorem dragSpeed_pos {p : Duran.Params} (h : DuranOk p) : 0 < dragSpeed p := by
  have := duran_uf h; have := duran_alpha h
  unfold dragSpeed; positivity

/-- Wind that drives the grains: none below the threshold. -/
def drive (p : Duran.Params) (x : Duran.Cell) : ℝ := if x.uth0 ≤ x.w.ustar then p.ueff x.uth0 x.w.ustar else 0

/-- **The speed is the magnitude of the velocity**, in every cell where there is one. -/
theorem C129_magnitude (p : Duran.Params) (x : Duran.Cell) (r : Speed) (hr : Duran.velocity p x = some r) :
    0 ≤ r.u ∧ r.u ^ 2 = r.us ^ 2 + r.un ^ 2 := by
  unfold Duran.velocity at hr
  split at hr
  · simp at hr
  · beta_reduce at hr
    simp only at hr
    split_ifs at hr
    all_goals
      simp only [Option.some.injEq] at hr
      subst hr
      exact ⟨Real.sqrt_nonneg _, Real.sq_sqrt (by positivity)⟩

/-- **Separation bubbles**: wherever the separation surface is more than a centimetre above the bed grains move with a tenth of a metre per
second with the wind, whatever bed, threshold and shear. -/
theorem C129_bubble (p : Duran.Params) (x : Duran.Cell) (es en : ℝ) (he : Duran.direction x.w = some (es, en))
    (hunit : es ^ 2 + en ^ 2 = 1) (hb : x.zb + 0.01 < x.zsep) :
    Duran.velocity p x = some ⟨0.1, 0.1 * es, 0.1 * en⟩ := by
  unfold Duran.velocity
  rw [he]
  have hb' : Duran.InBubble x := hb
  simp only [hb', if_true]
  have : (0.1 * es) ^ 2 + (0.1 * en) ^ 2 = (0.1 : ℝ) ^ 2 := by
    have : (0.1 * es) ^ 2 + (0.1 * en) ^ 2 = 0.1 ^ 2 * (es ^ 2 + en ^ 2) := by ring
    rw [this, hunit, mul_one]
  rw [this, Real.sqrt_sq (by norm_num)]

/-- Outside of bubbles the velocity is that of the driving wind minus the drag along `e + 2 α ∇z`, a vector of fixed length. -/
theorem duran_velocity {p : Duran.Params} (h : DuranOk p) (x : Duran.Cell) (es en : ℝ)
    (he : Duran.direction x.w = some (es, en)) (hb : ¬ x.zb + 0.01 < x.zsep) (r : Speed) (hr : Duran.velocity p x = some r) :
    ∃ as an : ℝ, as ^ 2 + an ^ 2 = 1 ∧
      (∃ k > 0, es + 2 * p.alpha * x.dhs = k * as ∧ en + 2 * p.alpha * x.dhn = k * an) ∧
      r.us = drive p x * es - dragSpeed p * as ∧ r.un = drive p x * en - dragSpeed p * an := by
  unfold Duran.velocity at hr
  rw [he] at hr
  have hb' : ¬ Duran.InBubble x := hb
  simp only [hb', if_false] at hr
  split_ifs at hr with h0 h1
  all_goals
    simp only [Option.some.injEq] at hr
    subst hr
    push Not at h0
    obtain ⟨h0, hA⟩ := h0
    set Ax := Real.sqrt ((es + 2 * p.alpha * x.dhs) ^ 2 + (en + 2 * p.alpha * x.dhn) ^ 2) with hAx
    have hA0 : 0 < Ax := lt_of_le_of_ne (Real.sqrt_nonneg _) (Ne.symm hA)
    have hsq : Ax ^ 2 = (es + 2 * p.alpha * x.dhs) ^ 2 + (en + 2 * p.alpha * x.dhn) ^ 2 := Real.sq_sqrt (by positivity)
    have hal := duran_alpha h
    have hs0 : 0 < Real.sqrt (2 * p.alpha) := Real.sqrt_pos.mpr (by positivity)
    have hs2 : Real.sqrt (2 * p.alpha) ^ 2 = 2 * p.alpha := Real.sq_sqrt (by positivity)
    refine ⟨(es + 2 * p.alpha * x.dhs) / Ax, (en + 2 * p.alpha * x.dhn) / Ax, ?_, ⟨Ax, hA0, ?_, ?_⟩, ?_, ?_⟩
    · rw [div_pow, div_pow, ← add_div, ← hsq, div_self (by positivity)]
    · field_simp
    · field_simp
    · simp only [drive, h1, if_true, if_false, dragSpeed]
      field_simp
      rw [hs2]; ring
    · simp only [drive, h1, if_true, if_false, dragSpeed]
      field_simp
      rw [hs2]; ring

/-- **The bed changes the velocity by a fixed amount**: on any slope and for any wind the difference between the velocity of the grains and
that of the wind driving them has the same length, the settling velocity over `√(2α)`; the speed is therefore at most their sum and at least
their difference. -/
theorem C129_drag {p : Duran.Params} (h : DuranOk p) (x : Duran.Cell) (es en : ℝ)
    (he : Duran.direction x.w = some (es, en)) (hunit : es ^ 2 + en ^ 2 = 1) (hb : ¬ x.zb + 0.01 < x.zsep)
    (r : Speed) (hr : Duran.velocity p x = some r) :
    (r.us - drive p x * es) ^ 2 + (r.un - drive p x * en) ^ 2 = dragSpeed p ^ 2 ∧
    |drive p x| - dragSpeed p ≤ r.u ∧ dragSpeed p - |drive p x| ≤ r.u ∧ r.u ≤ |drive p x| + dragSpeed p := by
  obtain ⟨as, an, hu, -, h1, h2⟩ := duran_velocity h x es en he hb r hr
  obtain ⟨hn, hm⟩ := C129_magnitude p x r hr
  have hd := dragSpeed_pos h
  have hq : r.u ^ 2 = drive p x ^ 2 - 2 * (drive p x * dragSpeed p * (es * as + en * an)) + dragSpeed p ^ 2 := by
    rw [hm, h1, h2]
    linear_combination (drive p x) ^ 2 * hunit + dragSpeed p ^ 2 * hu
  have hc1 : es * as + en * an ≤ 1 := by nlinarith [sq_nonneg (es - as), sq_nonneg (en - an)]
  have hc2 : -1 ≤ es * as + en * an := by nlinarith [sq_nonneg (es + as), sq_nonneg (en + an)]
  have hcD : |drive p x * (es * as + en * an)| ≤ |drive p x| := by
    rw [abs_mul]
    exact mul_le_of_le_one_right (abs_nonneg _) (abs_le.mpr ⟨hc2, hc1⟩)
  obtain ⟨hl, hr'⟩ := abs_le.mp hcD
  have hab : |drive p x| ^ 2 = drive p x ^ 2 := sq_abs _
  have hlow : (|drive p x| - dragSpeed p) ^ 2 ≤ r.u ^ 2 := by nlinarith
  have hupp : r.u ^ 2 ≤ (|drive p x| + dragSpeed p) ^ 2 := by nlinarith
  refine ⟨?_, ?_, ?_, ?_⟩
  · rw [h1, h2]; linear_combination dragSpeed p ^ 2 * hu
  · exact (le_abs_self _).trans (abs_le_of_sq_le_sq hlow hn)
  · have h3 := abs_le_of_sq_le_sq hlow hn
    have h4 := neg_abs_le (|drive p x| - dragSpeed p)
    linarith
  · exact (le_abs_self _).trans (abs_le_of_sq_le_sq hupp (by positivity))

/-- **Below the threshold** grains of every bed move with exactly that speed; on a flat bed right against the wind. -/
theorem C129_against_wind {p : Duran.Params} (h : DuranOk p) (x : Duran.Cell) (es en : ℝ)
    (he : Duran.direction x.w = some (es, en)) (hunit : es ^ 2 + en ^ 2 = 1) (hb : ¬ x.zb + 0.01 < x.zsep)
    (hth : x.w.ustar < x.uth0) (r : Speed) (hr : Duran.velocity p x = some r) :
    r.u = dragSpeed p ∧ (x.dhs = 0 → x.dhn = 0 → r.us = -(dragSpeed p * es) ∧ r.un = -(dragSpeed p * en)) := by
  obtain ⟨as, an, hu, ⟨k, hk, k1, k2⟩, h1, h2⟩ := duran_velocity h x es en he hb r hr
  obtain ⟨hn, hm⟩ := C129_magnitude p x r hr
  have hd := dragSpeed_pos h
  have h0 : drive p x = 0 := by simp [drive, not_le.mpr hth]
  rw [h0] at h1 h2
  constructor
  · have : r.u ^ 2 = dragSpeed p ^ 2 := by rw [hm, h1, h2]; linear_combination dragSpeed p ^ 2 * hu
    exact (pow_left_inj₀ hn hd.le two_ne_zero).mp this
  · intro z1 z2
    rw [z1, mul_zero, add_zero] at k1
    rw [z2, mul_zero, add_zero] at k2
    have hk1 : k = 1 := by
      have : k ^ 2 = 1 := by
        have : k ^ 2 * (as ^ 2 + an ^ 2) = 1 := by rw [← hunit, k1, k2]; ring
        rwa [hu, mul_one] at this
      nlinarith
    subst hk1
    rw [h1, h2, k1, k2]; constructor <;> ring

/-- **On a flat bed above the threshold** the velocity is along the wind, with the speed of the wind driving the grains minus the drag. -/
theorem C129_flat {p : Duran.Params} (h : DuranOk p) (x : Duran.Cell) (es en : ℝ)
    (he : Duran.direction x.w = some (es, en)) (hunit : es ^ 2 + en ^ 2 = 1) (hb : ¬ x.zb + 0.01 < x.zsep)
    (h0 : 0 < x.uth0) (hth : x.uth0 ≤ x.w.ustar) (zs : x.dhs = 0) (zn : x.dhn = 0) :
    ∃ r, Duran.velocity p x = some r ∧
      r.us = (p.ueff x.uth0 x.w.ustar - dragSpeed p) * es ∧ r.un = (p.ueff x.uth0 x.w.ustar - dragSpeed p) * en ∧
      r.u = |p.ueff x.uth0 x.w.ustar - dragSpeed p| := by
  have hb' : ¬ Duran.InBubble x := hb
  unfold Duran.velocity
  rw [he]
  simp only [hb', if_false, zs, zn, mul_zero, add_zero, hunit, Real.sqrt_one, h0.ne', one_ne_zero, or_self, hth, if_true,
    sub_zero, mul_one]
  refine ⟨_, rfl, rfl, rfl, ?_⟩
  rw [← Real.sqrt_sq_eq_abs]
  show Real.sqrt _ = Real.sqrt ((p.ueff x.uth0 x.w.ustar - p.uf / Real.sqrt (2 * p.alpha)) ^ 2)
  congr 1
  linear_combination (p.ueff x.uth0 x.w.ustar - p.uf / Real.sqrt (2 * p.alpha)) ^ 2 * hunit

/-- **More shear drives grains faster**: the driving wind grows with the shear velocity, in proportion to its excess over the threshold. -/
theorem C129_increasing {p : Duran.Params} (h : DuranOk p) (uth a b : ℝ) (hu : 0 < uth) (hab : a < b) :
    p.ueff uth a < p.ueff uth b := by
  have := duran_lv h; have := duran_tv h; have := h.kappa
  have h1 : 0 < p.z1 / p.zm uth := by unfold Duran.Params.z1 Duran.Params.zm; positivity
  unfold Duran.Params.ueff
  gcongr

/-- **The driving wind**: at the threshold it is that of a logarithmic profile over the grains, `uth / κ · log (700 lv / d)`, and it grows
linearly with the shear velocity. -/
theorem C129_drive {p : Duran.Params} (h : DuranOk p) (uth ustar : ℝ) (hu : 0 < uth) :
    p.ueff uth ustar = uth / p.kappa * Real.log (700 * p.lv / p.d) + 6 * p.lv / (p.kappa * p.tv * uth) * (ustar - uth) := by
  have := duran_lv h; have := duran_tv h; have := h.kappa; have := h.d
  have h1 : p.z1 / p.z0 = 700 * p.lv / p.d := by
    unfold Duran.Params.z1 Duran.Params.z0; field_simp; norm_num
  unfold Duran.Params.ueff
  rw [h1]
  unfold Duran.Params.z1 Duran.Params.zm
  field_simp
  ring

/-- **The scales of saltation**: the time scale of the grains, their length scale, the friction with the bed and the settling velocity. The
last is the Jimenez-Madsen form `√((s - 1) g d) / (0.95 + 5.12 √(2α) / S)` with `S = d √((s - 1) g d) / (4 v)`. -/
theorem C129_scales {p : Duran.Params} (h : DuranOk p) :
    0 < p.tv ∧ p.tv ^ 3 * p.g ^ 2 = p.v ∧ 0 < p.lv ∧ p.lv ^ 3 * (p.Aa ^ 2 * p.g * (p.rhog / p.rhoa - 1)) = p.v ^ 2 ∧
    p.alpha * p.lv = 0.17 * p.d ∧ 0 < p.uf ∧
    p.uf * (0.95 + 5.12 * (4 * p.v) * Real.sqrt (2 * p.alpha) / (p.d * Real.sqrt ((p.rhog / p.rhoa - 1) * p.g * p.d))) =
      Real.sqrt ((p.rhog / p.rhoa - 1) * p.g * p.d) := by
  have hs := duran_srho h
  have ha := duran_alpha h
  have hv := h.v; have hg := h.g; have hA := h.Aa; have hd := h.d
  have cube : ∀ x : ℝ, 0 ≤ x → (x ^ (1 / 3 : ℝ)) ^ 3 = x := fun x hx => by
    rw [← Real.rpow_natCast, ← Real.rpow_mul hx]
    norm_num
  have e : p.rhog / p.rhoa = p.srho := rfl
  rw [e]
  refine ⟨duran_tv h, ?_, duran_lv h, ?_, ?_, duran_uf h, ?_⟩
  · unfold Duran.Params.tv
    rw [cube _ (by positivity)]
    field_simp
  · unfold Duran.Params.lv
    rw [cube _ (by positivity)]
    field_simp
  · unfold Duran.Params.alpha
    have := duran_lv h
    field_simp
  · have hw : 0 < (p.srho - 1) * p.g * p.d := by positivity
    have hroot := Real.sqrt_pos.mpr hw
    have hX : 0.95 + 5.12 * (4 * p.v) * Real.sqrt (2 * p.alpha) / (p.d * Real.sqrt ((p.srho - 1) * p.g * p.d)) =
        0.95 + Real.sqrt (2 * p.alpha) * 5.12 / p.Sstar := by
      unfold Duran.Params.Sstar
      rw [show p.g * p.d * (p.srho - 1) = (p.srho - 1) * p.g * p.d by ring]
      field_simp
    rw [hX]
    have hS : 0 < p.Sstar := by unfold Duran.Params.Sstar; positivity
    have hpos : 0 < 0.95 + Real.sqrt (2 * p.alpha) * 5.12 / p.Sstar := by positivity
    unfold Duran.Params.uf Duran.Params.Cd
    generalize 0.95 + Real.sqrt (2 * p.alpha) * 5.12 / p.Sstar = X at hpos ⊢
    rw [show 4 / (3 * (4 / 3 * X ^ 2)) * (p.srho - 1) * p.g * p.d = (p.srho - 1) * p.g * p.d / X ^ 2 by field_simp, Real.sqrt_div hw.le,
      Real.sqrt_sq hpos.le]
    field_simp

/-- **Where there is no velocity**: exactly in cells without wind and shear and, outside of separation bubbles, cells whose threshold is zero
(for example because thresholds come from a file or the process is off) or whose slope cancels the wind. -/
theorem C129_defined {p : Duran.Params} (x : Duran.Cell) :
    Duran.velocity p x = none ↔
      (x.w.ustar < 0.05 ∧ x.w.uw = 0) ∨
      (¬ x.zb + 0.01 < x.zsep ∧ ∃ es en, Duran.direction x.w = some (es, en) ∧
        (x.uth0 = 0 ∨ (es + 2 * p.alpha * x.dhs = 0 ∧ en + 2 * p.alpha * x.dhn = 0))) := by
  have hdir : Duran.direction x.w = none ↔ x.w.ustar < 0.05 ∧ x.w.uw = 0 := by
    unfold Duran.direction
    split_ifs with h1 h2
    · simp [not_lt.mpr h1]
    · simp [h2, not_le.mp h1]
    · simp [h2]
  have hroot : ∀ a b : ℝ, Real.sqrt (a ^ 2 + b ^ 2) = 0 ↔ a = 0 ∧ b = 0 := by
    intro a b
    rw [Real.sqrt_eq_zero (by positivity)]
    constructor
    · intro h
      constructor <;> nlinarith [sq_nonneg a, sq_nonneg b]
    · rintro ⟨rfl, rfl⟩; simp
  rw [← hdir]
  cases he : Duran.direction x.w with
  | none => simp [Duran.velocity, he]
  | some e =>
    obtain ⟨es, en⟩ := e
    by_cases hb : x.zb + 0.01 < x.zsep
    · have hb' : Duran.InBubble x := hb
      simp [Duran.velocity, he, hb', hb]
    · have hb' : ¬ Duran.InBubble x := hb
      unfold Duran.velocity
      rw [he]
      simp only [hb', if_false, hroot]
      split_ifs with h0 <;> simp [hb, h0]

/-- **The speed without bed** is none if the threshold is zero and otherwise that of grains on a flat bed driven by the undisturbed shear. -/
theorem C129_undisturbed {p : Duran.Params} (x : Duran.Cell) :
    (Duran.speed0 p x = none ↔ x.uth0 = 0) ∧
    (x.uth0 ≠ 0 → Duran.speed0 p x = some (p.ueff x.uth0 x.w.ustar0 - dragSpeed p)) := by
  unfold Duran.speed0
  constructor
  · split_ifs with h <;> simp [h]
  · intro h; simp [h, dragSpeed]

/-- **Slopes of a plane**: on a bed that is a plane the slopes are those of the plane in all cells of the interior; and in planar grids of at
least three by three cells in all cells. -/
theorem C129_plane (nx ny : ℕ) (a b c : ℝ) (x y : ℕ → ℕ → ℝ) (hnx : 2 ≤ nx)
    (hx : ∀ i j, x i j = x 0 j) (hy : ∀ i j, y i j = y i 0)
    (hxm : ∀ j, 1 ≤ j → j < nx → x 0 (j - 1) ≠ x 0 (j + 1)) (hym : ∀ i, 1 ≤ i → i < ny → y (i - 1) 0 ≠ y (i + 1) 0)
    (i j : ℕ) (hi : i ≤ ny) (hj : j ≤ nx) :
    let z : ℕ → ℕ → ℝ := fun i j => a + b * x i j + c * y i j
    ((0 < ny ∨ (1 ≤ j ∧ j < nx)) → Duran.slopeS nx ny z x i j = b) ∧ (2 ≤ ny → Duran.slopeN ny z y i j = c) := by
  intro z
  have hs : ∀ k, 1 ≤ k → k < nx → (z i (k + 1) - z i (k - 1)) / (x i (k + 1) - x i (k - 1)) = b := by
    intro k k1 k2
    have hne := hxm k k1 k2
    have h1 : x i (k + 1) - x i (k - 1) ≠ 0 := by
      rw [hx i (k + 1), hx i (k - 1)]; exact sub_ne_zero.mpr (Ne.symm hne)
    have h2 : z i (k + 1) - z i (k - 1) = b * (x i (k + 1) - x i (k - 1)) := by
      simp only [z, hy i (k + 1), hy i (k - 1)]; ring
    rw [h2, mul_div_assoc, div_self h1, mul_one]
  have hn : ∀ k, 1 ≤ k → k < ny → (z (k - 1) j - z (k + 1) j) / (y (k - 1) j - y (k + 1) j) = c := by
    intro k k1 k2
    have hne := hym k k1 k2
    have h1 : y (k - 1) j - y (k + 1) j ≠ 0 := by
      rw [hy (k + 1) j, hy (k - 1) j]; exact sub_ne_zero.mpr hne
    have h2 : z (k - 1) j - z (k + 1) j = c * (y (k - 1) j - y (k + 1) j) := by
      simp only [z, hx (k + 1) j, hx (k - 1) j]; ring
    rw [h2, mul_div_assoc, div_self h1, mul_one]
  constructor
  · intro h
    unfold Duran.slopeS
    simp only
    split_ifs
    all_goals first
      | exact hs _ (by omega) (by omega)
      | omega
  · intro h
    unfold Duran.slopeN
    simp only
    split_ifs
    all_goals first
      | exact hn _ (by omega) (by omega)
      | omega

/-- Ends of a transect have no slope, whatever the bed. -/
theorem C129_transect_ends (nx : ℕ) (z x : ℕ → ℕ → ℝ) (i : ℕ) :
    Duran.slopeS nx 0 z x i 0 = 0 ∧ Duran.slopeS nx 0 z x i nx = 0 := by
  simp [Duran.slopeS]

/-! ### Examples -/

/-- Default parameters with grains of 225 micrometres. -/
def duranSand : Duran.Params := ⟨0.000015, 9.81, 2650, 1.225, 0.085, 0.41, 0.000225⟩

theorem duranSand_ok : DuranOk duranSand := by constructor <;> norm_num [duranSand]

/-- Onshore wind. -/
def duranWind (ustar : ℝ) : Wind := ⟨10, 10, 0, ustar, ustar, 0, ustar⟩

theorem duranWind_direction (ustar : ℝ) (h : 0 < ustar) : Duran.direction (duranWind ustar) = some (1, 0) := by
  unfold Duran.direction duranWind
  split_ifs with h1 h2
  · simp [h.ne']
  · norm_num at h2
  · norm_num

/-- Below the threshold with onshore wind grains move offshore. -/
example : ∃ r, Duran.velocity duranSand ⟨duranWind 0.1, 0.2, 0, 0, 0, 0⟩ = some r ∧ r.us < 0 := by
  have he := duranWind_direction 0.1 (by norm_num)
  cases hr : Duran.velocity duranSand ⟨duranWind 0.1, 0.2, 0, 0, 0, 0⟩ with
  | none =>
    rw [C129_defined] at hr
    rcases hr with ⟨-, h⟩ | ⟨-, es, en, h1, h2⟩
    · norm_num [duranWind] at h
    · rw [he] at h1
      simp only [Option.some.injEq, Prod.mk.injEq] at h1
      obtain ⟨rfl, rfl⟩ := h1
      norm_num at h2
  | some r =>
    refine ⟨r, rfl, ?_⟩
    have := C129_against_wind duranSand_ok _ 1 0 he (by norm_num) (by norm_num) (by norm_num [duranWind]) r hr
    rw [(this.2 rfl rfl).1]
    have := dragSpeed_pos duranSand_ok
    linarith

example : ∃ r, Duran.velocity duranSand ⟨duranWind 0.4, 0.2, 0, 0, 0, 0⟩ = some r ∧ r.un = 0 := by
  obtain ⟨r, h1, -, h3, -⟩ := C129_flat duranSand_ok ⟨duranWind 0.4, 0.2, 0, 0, 0, 0⟩ 1 0
    (duranWind_direction 0.4 (by norm_num)) (by norm_num) (by norm_num) (by norm_num) (by norm_num [duranWind]) rfl rfl
  exact ⟨r, h1, by rw [h3]; ring⟩

example : Duran.velocity duranSand ⟨duranWind 0.4, 0.2, 0.3, 0.1, 0, 1⟩ = some ⟨0.1, 0.1 * 1, 0.1 * 0⟩ :=
  C129_bubble duranSand _ 1 0 (duranWind_direction 0.4 (by norm_num)) (by norm_num) (by norm_num)

/-- With a threshold of zero there is no velocity. -/
example : Duran.velocity duranSand ⟨duranWind 0.4, 0, 0, 0, 0, 0⟩ = none :=
  C129_defined _ |>.mpr (.inr ⟨by norm_num, 1, 0, duranWind_direction 0.4 (by norm_num), .inl rfl⟩)

end

/-- On a flat bed at a shear velocity of 0.4 m/s: the speed stays within the drive and the drag. -/
example : ∃ r, Duran.velocity duranSand ⟨duranWind 0.4, 0.2, 0, 0, 0, 0⟩ = some r ∧ 0 ≤ r.u ∧ r.u ^ 2 = r.us ^ 2 + r.un ^ 2 ∧
    r.u ≤ |drive duranSand ⟨duranWind 0.4, 0.2, 0, 0, 0, 0⟩| + dragSpeed duranSand := by
  obtain ⟨r, h1, -⟩ := C129_flat duranSand_ok ⟨duranWind 0.4, 0.2, 0, 0, 0, 0⟩ 1 0
    (duranWind_direction 0.4 (by norm_num)) (by norm_num) (by norm_num) (by norm_num) (by norm_num [duranWind]) rfl rfl
  have hm := C129_magnitude _ _ r h1
  exact ⟨r, h1, hm.1, hm.2, (C129_drag duranSand_ok _ 1 0 (duranWind_direction 0.4 (by norm_num)) (by norm_num) (by norm_num) r h1).2.2.2⟩

example : duranSand.ueff 0.2 0.3 < duranSand.ueff 0.2 0.4 := C129_increasing duranSand_ok _ _ _ (by norm_num) (by norm_num)

/-- At the threshold only the logarithm is left. -/
example : duranSand.ueff 0.2 0.2 = 0.2 / 0.41 * Real.log (700 * duranSand.lv / 0.000225) := by
  rw [C129_drive duranSand_ok _ _ (by norm_num)]
  norm_num [duranSand]

example : duranSand.tv ^ 3 * 9.81 ^ 2 = 0.000015 ∧ 0 < duranSand.uf :=
  ⟨(C129_scales duranSand_ok).2.1, (C129_scales duranSand_ok).2.2.2.2.2.1⟩

/-- A plane on a grid of four by four nodes with unequal distances. -/
example : Duran.slopeS 3 3 (fun i j => 1 + 0.5 * ((j : ℝ) ^ 2) + 0.25 * (i : ℝ)) (fun _ j => (j : ℝ) ^ 2) 1 3 = 0.5 ∧
    Duran.slopeN 3 (fun i j => 1 + 0.5 * ((j : ℝ) ^ 2) + 0.25 * (i : ℝ)) (fun i _ => (i : ℝ)) 1 3 = 0.25 := by
  have h := C129_plane 3 3 1 0.5 0.25 (fun _ j => (j : ℝ) ^ 2) (fun i _ => (i : ℝ)) (by norm_num) (fun _ _ => rfl) (fun _ _ => rfl)
    (fun j h1 _ => by
      obtain ⟨k, rfl⟩ := Nat.exists_eq_add_of_le' h1
      push_cast
      intro h
      nlinarith [Nat.cast_nonneg (α := ℝ) k])
    (fun i h1 _ => by
      obtain ⟨k, rfl⟩ := Nat.exists_eq_add_of_le' h1
      push_cast
      intro h
      linarith)
    1 3 (by norm_num) (by norm_num)
  exact ⟨h.1 (.inl (by norm_num)), h.2 (by norm_num)⟩

end Aeolis.Props
