import Verif.Model.Transport
import Mathlib.Tactic.Linarith
import Mathlib.Tactic.Ring
import Mathlib.Tactic.Positivity
import Mathlib.Tactic.NormNum
import Mathlib.Tactic.FieldSimp

namespace Aeolis

namespace XR

@[simp] theorem fin_mul (a b : ℝ) : (fin a * fin b : XR) = fin (a * b) := rfl
@[simp] theorem fin_add (a b : ℝ) : (fin a + fin b : XR) = fin (a + b) := rfl
@[simp] theorem neg_fin (a : ℝ) : (-fin a : XR) = fin (-a) := rfl
@[simp] theorem neg_pinf : (-pinf : XR) = ninf := rfl
@[simp] theorem neg_ninf : (-ninf : XR) = pinf := rfl
@[simp] theorem fin_sub (a b : ℝ) : (fin a - fin b : XR) = fin (a - b) := by
  change fin (a + -b) = _; rw [sub_eq_add_neg]
@[simp] theorem fin_sub_pinf (a : ℝ) : (fin a - pinf : XR) = ninf := rfl
@[simp] theorem fin_add_pinf (a : ℝ) : (fin a + pinf : XR) = pinf := rfl
@[simp] theorem pinf_add_fin (a : ℝ) : (pinf + fin a : XR) = pinf := rfl
@[simp] theorem pinf_mul_pinf : (pinf * pinf : XR) = pinf := rfl
@[simp] theorem pinf_mul_ninf : (pinf * ninf : XR) = ninf := rfl
@[simp] theorem ninf_mul_pinf : (ninf * pinf : XR) = ninf := rfl
@[simp] theorem ninf_mul_ninf : (ninf * ninf : XR) = pinf := rfl
@[simp] theorem nan_mul (a : XR) : (nan * a : XR) = nan := rfl

theorem fin_mul_pinf {a : ℝ} (h : 0 < a) : (fin a * pinf : XR) = pinf := by
  change infSign a = _; unfold infSign; rw [if_pos h]
theorem fin_mul_ninf {a : ℝ} (h : 0 < a) : (fin a * ninf : XR) = ninf := by
  change infSign (-a) = _; unfold infSign; rw [if_neg (by linarith), if_pos (by linarith)]
theorem pinf_mul_fin {a : ℝ} (h : 0 < a) : (pinf * fin a : XR) = pinf := by
  change infSign a = _; unfold infSign; rw [if_pos h]
theorem ninf_mul_fin {a : ℝ} (h : 0 < a) : (ninf * fin a : XR) = ninf := by
  change infSign (-a) = _; unfold infSign; rw [if_neg (by linarith), if_pos (by linarith)]

@[simp] theorem max0_fin (a : ℝ) : max0 (fin a) = fin (max 0 a) := rfl
@[simp] theorem max0_ninf : max0 ninf = fin 0 := rfl

theorem fin_inj {a b : ℝ} : (fin a = fin b) ↔ a = b := ⟨fun h => by cases h; rfl, fun h => by rw [h]⟩

theorem mul_one' (a : XR) : a * fin 1 = a := by
  cases a with
  | fin r => simp
  | pinf => exact pinf_mul_fin one_pos
  | ninf => exact ninf_mul_fin one_pos
  | nan => rfl

theorem mul_assoc_pos (x : XR) {a b : ℝ} (ha : 0 < a) (hb : 0 < b) :
    x * fin a * fin b = x * fin (a * b) := by
  cases x with
  | fin r => simp [mul_assoc]
  | pinf => rw [pinf_mul_fin ha, pinf_mul_fin hb, pinf_mul_fin (mul_pos ha hb)]
  | ninf => rw [ninf_mul_fin ha, ninf_mul_fin hb, ninf_mul_fin (mul_pos ha hb)]
  | nan => rfl

end XR

namespace Transport

open XR

/-- What a formulation returns in a cell with wind: a finite, non-negative value that is zero exactly
if the shear velocity is at most the threshold. -/
def Supplies (v : XR) (zero : Prop) : Prop := ∃ r : ℝ, 0 ≤ r ∧ v = fin r ∧ (r = 0 ↔ zero)

theorem pos_iff_cube (c u x : ℝ) (hc : 0 < c) (hu : 0 < u) :
    max 0 (c * (x * x * x) * (1 / u)) = 0 ↔ x ≤ 0 := by
  rw [max_eq_left_iff]
  constructor
  · intro h
    by_contra hx
    push Not at hx
    have : 0 < c * (x * x * x) * (1 / u) := by positivity
    linarith
  · intro h
    have h1 : x * x * x ≤ 0 := by nlinarith [mul_self_nonneg x]
    have : 0 ≤ c * (-(x * x * x)) * (1 / u) := by
      have : 0 ≤ -(x * x * x) := by linarith
      positivity
    linarith

theorem bagnold_supplies (c u s : ℝ) (th : XR) (hc : 0 < c) (hu : 0 < u) (ht : th.IsThreshold) :
    Supplies (bagnold c u s th) (leOf s th) := by
  cases th with
  | fin t =>
    refine ⟨max 0 (c * ((s - t) * (s - t) * (s - t)) * (1 / u)), le_max_left _ _, ?_, ?_⟩
    · simp [bagnold, cube]
    · rw [pos_iff_cube c u _ hc hu]; simp [leOf]
  | pinf =>
    refine ⟨0, le_rfl, ?_, by simp [leOf]⟩
    simp [bagnold, cube, fin_mul_ninf hc, ninf_mul_fin (inv_pos.mpr hu)]
  | ninf => exact ht.elim
  | nan => exact ht.elim

theorem kawamura_supplies (c u s : ℝ) (th : XR) (hc : 0 < c) (hu : 0 < u) (hs : 0 < s)
    (ht : th.IsThreshold) : Supplies (kawamura c u s th) (leOf s th) := by
  cases th with
  | fin t =>
    have ht' : 0 ≤ t := ht
    refine ⟨max 0 (c * ((s + t) * (s + t)) * (s - t) * (1 / u)), le_max_left _ _, ?_, ?_⟩
    · simp [kawamura, XR.sq]
    · rw [max_eq_left_iff]
      have hp : 0 < c * ((s + t) * (s + t)) := by positivity
      constructor
      · intro h
        by_contra hx
        simp only [leOf, not_le] at hx
        have : 0 < c * ((s + t) * (s + t)) * (s - t) * (1 / u) := by
          have : 0 < s - t := by linarith
          positivity
        linarith
      · intro h
        simp only [leOf] at h
        have : 0 ≤ c * ((s + t) * (s + t)) * (t - s) * (1 / u) := by
          have : 0 ≤ t - s := by linarith
          positivity
        linarith
  | pinf =>
    refine ⟨0, le_rfl, ?_, by simp [leOf]⟩
    simp [kawamura, XR.sq, fin_mul_pinf hc, ninf_mul_fin (inv_pos.mpr hu)]
  | ninf => exact ht.elim
  | nan => exact ht.elim

theorem lettau_supplies (c u s : ℝ) (th : XR) (hc : 0 < c) (hu : 0 < u) (hs : 0 < s)
    (ht : th.IsThreshold) : Supplies (lettau c u s th) (leOf s th) := by
  cases th with
  | fin t =>
    refine ⟨max 0 (c * (s * s) * (s - t) * (1 / u)), le_max_left _ _, ?_, ?_⟩
    · simp [lettau, XR.sq]
    · rw [max_eq_left_iff]
      constructor
      · intro h
        by_contra hx
        simp only [leOf, not_le] at hx
        have : 0 < c * (s * s) * (s - t) * (1 / u) := by
          have : 0 < s - t := by linarith
          positivity
        linarith
      · intro h
        simp only [leOf] at h
        have : 0 ≤ c * (s * s) * (t - s) * (1 / u) := by
          have : 0 ≤ t - s := by linarith
          positivity
        linarith
  | pinf =>
    refine ⟨0, le_rfl, ?_, by simp [leOf]⟩
    simp [lettau, XR.sq, fin_mul_ninf (mul_pos hc (mul_pos hs hs)), ninf_mul_fin (inv_pos.mpr hu)]
  | ninf => exact ht.elim
  | nan => exact ht.elim

theorem dk_supplies (c u s : ℝ) (th : XR) (hc : 0 < c) (hu : 0 < u) (hs : 0 < s)
    (ht : th.IsThreshold) :
    Supplies (dk c u s th) (th = fin 0 ∨ leOf s (fin 0.8 * th)) := by
  cases th with
  | fin t =>
    have ht' : 0 ≤ t := ht
    refine ⟨max 0 (c * 0.8 * t * (s * s - 0.8 * t * (0.8 * t)) * (1 / u)), le_max_left _ _, ?_, ?_⟩
    · simp [dk, XR.sq]
    · rw [max_eq_left_iff]
      simp only [fin_inj, fin_mul, leOf]
      constructor
      · intro h
        by_contra hx
        push Not at hx
        have ht0 : 0 < t := lt_of_le_of_ne ht' (Ne.symm hx.1)
        have h1 : 0 < s * s - 0.8 * t * (0.8 * t) := by nlinarith
        have : 0 < c * 0.8 * t * (s * s - 0.8 * t * (0.8 * t)) * (1 / u) := by positivity
        linarith
      · rintro (h | h)
        · rw [h]; simp
        · have h1 : 0 ≤ 0.8 * t * (0.8 * t) - s * s := by nlinarith
          have : 0 ≤ c * 0.8 * t * (0.8 * t * (0.8 * t) - s * s) * (1 / u) := by positivity
          linarith
  | pinf =>
    have h8 : (0 : ℝ) < 0.8 := by norm_num
    refine ⟨0, le_rfl, ?_, ?_⟩
    · simp [dk, XR.sq, fin_mul_pinf h8, fin_mul_pinf (mul_pos hc h8), ninf_mul_fin (inv_pos.mpr hu)]
    · simp [leOf, fin_mul_pinf h8]
  | ninf => exact ht.elim
  | nan => exact ht.elim

theorem sauermann_supplies (c s : ℝ) (th : XR) (hc : 0 < c) (hs : 0 < s)
    (ht : th.IsThreshold) : Supplies (sauermann c s th) (leOf s th) := by
  cases th with
  | fin t =>
    have ht' : 0 ≤ t := ht
    refine ⟨max 0 (c * (s * s - t * t)), le_max_left _ _, ?_, ?_⟩
    · simp [sauermann, XR.sq]
    · rw [max_eq_left_iff]
      simp only [leOf]
      constructor
      · intro h
        by_contra hx
        push Not at hx
        have : 0 < s * s - t * t := by nlinarith
        have := mul_pos hc this
        linarith
      · intro h
        have : 0 ≤ t * t - s * s := by nlinarith
        have := mul_nonneg hc.le this
        linarith
  | pinf =>
    refine ⟨0, le_rfl, ?_, by simp [leOf]⟩
    simp [sauermann, XR.sq, fin_mul_ninf hc]
  | ninf => exact ht.elim
  | nan => exact ht.elim

theorem vanRijn_supplies (c u s : ℝ) (th : XR) (hc : 0 < c) (hu : 0 < u) (hs : 0 < s)
    (ht : th.IsThreshold) : Supplies (vanRijn c u s th) (leOf s th) := by
  cases th with
  | fin t =>
    have ht' : 0 ≤ t := ht
    refine ⟨max 0 (c * (s * s * s - t * t * t) * (1 / u)), le_max_left _ _, ?_, ?_⟩
    · simp [vanRijn, cube]
    · rw [max_eq_left_iff]
      simp only [leOf]
      have hfac : s * s * s - t * t * t = (s - t) * (s * s + s * t + t * t) := by ring
      have hp : 0 < s * s + s * t + t * t := by positivity
      rw [hfac]
      constructor
      · intro h
        by_contra hx
        push Not at hx
        have : 0 < c * ((s - t) * (s * s + s * t + t * t)) * (1 / u) := by
          have : 0 < s - t := by linarith
          positivity
        linarith
      · intro h
        have : 0 ≤ c * ((t - s) * (s * s + s * t + t * t)) * (1 / u) := by
          have : 0 ≤ t - s := by linarith
          positivity
        linarith
  | pinf =>
    refine ⟨0, le_rfl, ?_, by simp [leOf]⟩
    simp [vanRijn, cube, fin_mul_ninf hc, ninf_mul_fin (inv_pos.mpr hu)]
  | ninf => exact ht.elim
  | nan => exact ht.elim

/-! Monotonicity -/

theorem max0_mono {a b : ℝ} (h : a ≤ b) : XR.le (fin (max 0 a)) (fin (max 0 b)) :=
  max_le_max le_rfl h

theorem cube_mono {a b : ℝ} (h : a ≤ b) : a * a * a ≤ b * b * b := by
  nlinarith [sq_nonneg (a + b), sq_nonneg (a - b), mul_self_nonneg a, mul_self_nonneg b]

theorem scaled {a b c u : ℝ} (hc : 0 < c) (hu : 0 < u) (h : a ≤ b) :
    c * a * (1 / u) ≤ c * b * (1 / u) :=
  mul_le_mul_of_nonneg_right (mul_le_mul_of_nonneg_left h hc.le) (by positivity)

/-- Finite and non-negative values are at least zero in the order of thresholds. -/
theorem zero_le_supplies {v : XR} {P : Prop} (h : Supplies v P) : XR.le (fin 0) v := by
  obtain ⟨r, h0, rfl, _⟩ := h; exact h0

theorem supplies_zero {v : XR} {P : Prop} (h : Supplies v P) (hp : P) : v = fin 0 := by
  obtain ⟨r, _, rfl, h⟩ := h; rw [h.mpr hp]

theorem mono_of_finite (f : ℝ → XR → XR) (s s' : ℝ) (th : XR) (ht : th.IsThreshold)
    (hss : s ≤ s')
    (hsup : Supplies (f s th) (leOf s th)) (hsup' : Supplies (f s' th) (leOf s' th))
    (hfin : ∀ t : ℝ, th = fin t → t < s → XR.le (f s th) (f s' th)) : XR.le (f s th) (f s' th) := by
  cases th with
  | fin t =>
    rcases le_or_gt s t with h | h
    · rw [supplies_zero hsup h]; exact zero_le_supplies hsup'
    · exact hfin t rfl h
  | pinf => rw [supplies_zero hsup trivial]; exact zero_le_supplies hsup'
  | ninf => exact ht.elim
  | nan => exact ht.elim

end Transport

end Aeolis
