import Verif.Model.Resample
import Verif.Spec.Resample
import Mathlib.Tactic.Linarith
import Mathlib.Tactic.Ring
import Mathlib.Tactic.FieldSimp
import Mathlib.Tactic.LinearCombination
import Mathlib.Tactic.Positivity
import Mathlib.Data.Int.NatAbs

/-! Helper lemmas on resampling between grids. -/

set_option linter.unusedSectionVars false

namespace Aeolis.Resample

open Aeolis.Spec

noncomputable section

open Classical

/-! ### Interpolation on ascending axes -/

theorem cellOf_le (g : ℕ → ℝ) (x : ℝ) (n : ℕ) : cellOf g x n ≤ n := by
  induction n with
  | zero => simp [cellOf]
  | succ n ih => rw [cellOf]; split_ifs <;> omega

theorem cellOf_low (g : ℕ → ℝ) (x : ℝ) (n : ℕ) (h0 : g 0 ≤ x) : g (cellOf g x n) ≤ x := by
  induction n with
  | zero => simpa [cellOf] using h0
  | succ n ih => rw [cellOf]; split_ifs with h <;> assumption

theorem cellOf_high (g : ℕ → ℝ) (x : ℝ) (n : ℕ) (h0 : x ≤ g (n + 1)) : x ≤ g (cellOf g x n + 1) := by
  induction n with
  | zero => simpa [cellOf] using h0
  | succ n ih =>
    rw [cellOf]
    split_ifs with h
    · exact h0
    · exact ih (not_le.mp h).le

/-- Linear interpolation between two nodes. -/
def blend (f : ℕ → ℝ) (i : ℕ) (u : ℝ) : ℝ := f i * (1 - u) + f (i + 1) * u

theorem regular_eq_blend (R C : ℕ) (gy gx : ℕ → ℝ) (z : ℕ → ℕ → ℝ) (fill py px : ℝ)
    (h : ¬ (py < gy 0 ∨ gy (R - 1) < py ∨ px < gx 0 ∨ gx (C - 1) < px)) :
    regular R C gy gx z fill py px =
      blend (fun j => blend (z j) (cellOf gx px (C - 2)) (position gx (cellOf gx px (C - 2)) px))
        (cellOf gy py (R - 2)) (position gy (cellOf gy py (R - 2)) py) := by
  unfold regular
  rw [if_neg h]
  unfold blend
  ring

/-- The interval chosen by the code gives the same value as any other interval containing the point. -/
theorem blend_cellOf (g : ℕ → ℝ) (hg : StrictMono g) (f : ℕ → ℝ) (x : ℝ) (n i : ℕ) (hi : i ≤ n) (h1 : g i ≤ x)
    (h2 : x ≤ g (i + 1)) :
    blend f (cellOf g x n) (position g (cellOf g x n) x) = blend f i (position g i x) := by
  have hlow : g (cellOf g x n) ≤ x := cellOf_low g x n ((hg.monotone (Nat.zero_le i)).trans h1)
  have hhigh : x ≤ g (cellOf g x n + 1) := cellOf_high g x n (h2.trans (hg.monotone (by omega)))
  have hd : ∀ k, g (k + 1) - g k ≠ 0 := fun k => (sub_pos.mpr (hg (Nat.lt_succ_self k))).ne'
  generalize cellOf g x n = c at *
  rcases lt_trichotomy c i with h | h | h
  · have hxi : x = g i := le_antisymm (hhigh.trans (hg.monotone h)) h1
    have hc : c + 1 = i := by
      by_contra hne
      have : g (c + 1) < g i := hg (by omega)
      linarith
    have hc' : g (c + 1) = x := by rw [hc, hxi]
    unfold blend position
    rw [hc', hc, ← hxi, sub_self, zero_div, div_self]
    · ring
    · rw [← hc']; exact hd c
  · rw [h]
  · have hxi : x = g c := le_antisymm (h2.trans (hg.monotone h)) hlow
    have hc : c = i + 1 := by
      by_contra hne
      have : g (i + 1) < g c := hg (by omega)
      linarith
    unfold blend position
    rw [← hxi, sub_self, zero_div, hc] 
    have hc' : g (i + 1) = x := by rw [← hc, hxi]
    rw [hc', div_self]
    · ring
    · rw [← hc']; exact hd i

/-- Interpolation at a point of the cell `(j, i)` of ascending axes. -/
theorem regular_cell (R C : ℕ) (gy gx : ℕ → ℝ) (hy : StrictMono gy) (hx : StrictMono gx) (z : ℕ → ℕ → ℝ) (fill py px : ℝ)
    (j i : ℕ) (hj : j + 2 ≤ R) (hi : i + 2 ≤ C) (hy1 : gy j ≤ py) (hy2 : py ≤ gy (j + 1)) (hx1 : gx i ≤ px)
    (hx2 : px ≤ gx (i + 1)) :
    regular R C gy gx z fill py px = blend (fun j => blend (z j) i (position gx i px)) j (position gy j py) := by
  rw [regular_eq_blend]
  · rw [blend_cellOf gy hy _ py (R - 2) j (by omega) hy1 hy2]
    unfold blend
    have := fun k => blend_cellOf gx hx (z k) px (C - 2) i (by omega) hx1 hx2
    unfold blend at this
    simp only [this]
  · push Not
    exact ⟨(hy.monotone (Nat.zero_le j)).trans hy1, hy2.trans (hy.monotone (by omega)),
      (hx.monotone (Nat.zero_le i)).trans hx1, hx2.trans (hx.monotone (by omega))⟩

theorem position_range (g : ℕ → ℝ) (hg : StrictMono g) (i : ℕ) (x : ℝ) (h1 : g i ≤ x) (h2 : x ≤ g (i + 1)) :
    0 ≤ position g i x ∧ position g i x ≤ 1 := by
  have hd : 0 < g (i + 1) - g i := sub_pos.mpr (hg (Nat.lt_succ_self i))
  unfold position
  constructor
  · exact div_nonneg (by linarith) hd.le
  · rw [div_le_one hd]; linarith

theorem blend_nonneg (f : ℕ → ℝ) (i : ℕ) (u : ℝ) (h0 : 0 ≤ f i) (h1 : 0 ≤ f (i + 1)) (hu : 0 ≤ u ∧ u ≤ 1) : 0 ≤ blend f i u :=
  add_nonneg (mul_nonneg h0 (by linarith [hu.2])) (mul_nonneg h1 hu.1)

/-- Interpolation of non-negative values with a non-negative fill value is not negative. -/
theorem regular_nonneg (R C : ℕ) (hR : 2 ≤ R) (hC : 2 ≤ C) (gy gx : ℕ → ℝ) (hy : StrictMono gy) (hx : StrictMono gx)
    (z : ℕ → ℕ → ℝ) (fill py px : ℝ) (hz : ∀ j < R, ∀ i < C, 0 ≤ z j i) (hf : 0 ≤ fill) :
    0 ≤ regular R C gy gx z fill py px := by
  by_cases h : py < gy 0 ∨ gy (R - 1) < py ∨ px < gx 0 ∨ gx (C - 1) < px
  · unfold regular; rw [if_pos h]; exact hf
  · rw [regular_eq_blend _ _ _ _ _ _ _ _ h]
    push Not at h
    obtain ⟨a, b, c, d⟩ := h
    have hj := cellOf_le gy py (R - 2)
    have hi := cellOf_le gx px (C - 2)
    have hu := position_range gx hx (cellOf gx px (C - 2)) px (cellOf_low _ _ _ c)
      (cellOf_high _ _ _ (by rw [show C - 2 + 1 = C - 1 from by omega]; exact d))
    have hv := position_range gy hy (cellOf gy py (R - 2)) py (cellOf_low _ _ _ a)
      (cellOf_high _ _ _ (by rw [show R - 2 + 1 = R - 1 from by omega]; exact b))
    refine blend_nonneg _ _ _ (blend_nonneg _ _ _ ?_ ?_ hu) (blend_nonneg _ _ _ ?_ ?_ hu) hv <;>
      exact hz _ (by omega) _ (by omega)

/-- Interpolation is linear in the values and the fill value. -/
theorem regular_linear (R C : ℕ) (gy gx : ℕ → ℝ) (z w : ℕ → ℕ → ℝ) (f1 f2 a b py px : ℝ) :
    regular R C gy gx (fun j i => a * z j i + b * w j i) (a * f1 + b * f2) py px =
      a * regular R C gy gx z f1 py px + b * regular R C gy gx w f2 py px := by
  unfold regular
  split_ifs
  · rfl
  · ring

theorem regular_const (R C : ℕ) (gy gx : ℕ → ℝ) (c py px : ℝ) : regular R C gy gx (fun _ _ => c) c py px = c := by
  unfold regular
  split_ifs
  · rfl
  · ring

/-! ### Padding of equidistant axes -/

theorem reflectOdd_linear (n : ℕ) (hn : 2 ≤ n) (c h : ℝ) (k : ℤ) : reflectOdd n (fun i => c + i * h) k = c + k * h := by
  have hm : (0 : ℤ) < n - 1 := by omega
  have hr : 0 ≤ k % ((n : ℤ) - 1) := Int.emod_nonneg _ hm.ne'
  have hlt : k % ((n : ℤ) - 1) < n - 1 := Int.emod_lt_of_pos _ hm
  have hk : k = (n - 1) * (k / (n - 1)) + k % ((n : ℤ) - 1) := (Int.mul_ediv_add_emod k _).symm
  unfold reflectOdd
  dsimp only
  generalize hq : k / ((n : ℤ) - 1) = q at *
  have hto : (((k % ((n : ℤ) - 1)).toNat : ℕ) : ℤ) = k % ((n : ℤ) - 1) := Int.toNat_of_nonneg hr
  generalize hrr : (k % ((n : ℤ) - 1)).toNat = r at *
  have hkr : (k : ℝ) = ((n : ℝ) - 1) * q + r := by
    rw [hk, ← hto]; push_cast; ring
  have hrn : r ≤ n - 1 := by omega
  have h1 : ((n - 1 : ℕ) : ℝ) = n - 1 := by push_cast [Nat.cast_sub (show 1 ≤ n by omega)]; ring
  have h2 : ((n - 1 - r : ℕ) : ℝ) = n - 1 - r := by rw [Nat.cast_sub hrn, h1]
  split_ifs
  · rw [h1, hkr]; push_cast; ring
  · rw [h1, h2, hkr]; push_cast; ring

theorem reflectOdd_const (n : ℕ) (hn : 2 ≤ n) (c : ℝ) (k : ℤ) : reflectOdd n (fun _ => c) k = c := by
  have := reflectOdd_linear n hn c 0 k
  simpa using this

/-! ### Rectangular grids -/

theorem rotatePt_fst (φ : ℝ) (o p : ℝ × ℝ) :
    (rotatePt φ o p).1 = (p.1 - o.1) * Real.cos (φ / 180 * Real.pi) + (p.2 - o.2) * Real.sin (φ / 180 * Real.pi) + o.1 := rfl

theorem rotatePt_snd (φ : ℝ) (o p : ℝ × ℝ) :
    (rotatePt φ o p).2 = (p.1 - o.1) * -Real.sin (φ / 180 * Real.pi) + (p.2 - o.2) * Real.cos (φ / 180 * Real.pi) + o.2 := rfl

theorem deg (φ : ℝ) : φ * 180 / Real.pi / 180 * Real.pi = φ := by
  have := Real.pi_pos.ne'
  field_simp

theorem sqrt_tan (c s : ℝ) (h : c ^ 2 + s ^ 2 = 1) (hc : 0 < c) : Real.sqrt (1 + (s / c) ^ 2) = 1 / c := by
  rw [show 1 + (s / c) ^ 2 = (1 / c) ^ 2 by field_simp; linarith]
  exact Real.sqrt_sq (by positivity)

/-- Direction found by `arctan`: that of the row or its opposite. -/
theorem arctanDeg_dir (h θ : ℝ) (hh : 0 < h) :
    let φ := arctanDeg (h * Real.cos θ) (h * Real.sin θ) / 180 * Real.pi
    (0 < Real.cos θ → Real.cos φ = Real.cos θ ∧ Real.sin φ = Real.sin θ) ∧
    (Real.cos θ < 0 → Real.cos φ = -Real.cos θ ∧ Real.sin φ = -Real.sin θ) ∧
    (Real.cos θ = 0 → Real.cos φ = Real.cos θ ∧ Real.sin φ = Real.sin θ) := by
  intro φ
  have hsq := Real.cos_sq_add_sin_sq θ
  have hquot : h * Real.sin θ / (h * Real.cos θ) = Real.sin θ / Real.cos θ := by
    rcases eq_or_ne (Real.cos θ) 0 with h0 | h0
    · simp [h0]
    · field_simp
  refine ⟨fun hc => ?_, fun hc => ?_, fun hc => ?_⟩
  · have hne : h * Real.cos θ ≠ 0 := (mul_pos hh hc).ne'
    have hφ : φ = Real.arctan (Real.sin θ / Real.cos θ) := by
      simp only [φ, arctanDeg, if_neg hne, hquot]; exact deg _
    rw [hφ, Real.cos_arctan, Real.sin_arctan, sqrt_tan _ _ hsq hc]
    constructor <;> field_simp
  · have hne : h * Real.cos θ ≠ 0 := (mul_neg_of_pos_of_neg hh hc).ne
    have hφ : φ = Real.arctan ((-Real.sin θ) / (-Real.cos θ)) := by
      simp only [φ, arctanDeg, if_neg hne, hquot, neg_div_neg_eq]; exact deg _
    have hc' : 0 < -Real.cos θ := by linarith
    rw [hφ, Real.cos_arctan, Real.sin_arctan, sqrt_tan (-Real.cos θ) (-Real.sin θ) (by nlinarith) hc']
    have := hc.ne
    constructor <;> field_simp
  · have hs : Real.sin θ = 1 ∨ Real.sin θ = -1 := by
      rw [hc] at hsq
      exact sq_eq_one_iff.mp (by linarith)
    rcases hs with hs | hs
    · have : φ = Real.pi / 2 := by
        simp only [φ, arctanDeg, hc, hs, mul_zero, if_true, mul_one, if_pos hh]; ring
      rw [this, Real.cos_pi_div_two, Real.sin_pi_div_two, hc, hs]; simp
    · have : φ = -(Real.pi / 2) := by
        have h1 : ¬ (0 < h * -1) := by linarith
        have h2 : h * -1 < 0 := by linarith
        simp only [φ, arctanDeg, hc, hs, mul_zero, if_true, if_neg h1, if_pos h2]; ring
      rw [this, Real.cos_neg, Real.sin_neg, Real.cos_pi_div_two, Real.sin_pi_div_two, hc, hs]; simp

/-- Coordinates of a point in the frame of a rectangular grid with angle `θ`, relative to the centre of rotation. -/
theorem rotate_rect (φ : ℝ) (o : ℝ × ℝ) (ox oy θ hx hy t s σ : ℝ) (hc : Real.cos (φ / 180 * Real.pi) = σ * Real.cos θ)
    (hs : Real.sin (φ / 180 * Real.pi) = σ * Real.sin θ) :
    rotatePt φ o (rect ox oy θ hx hy t s) =
      (σ * ((ox - o.1) * Real.cos θ + (oy - o.2) * Real.sin θ + s * hx) + o.1,
        σ * ((oy - o.2) * Real.cos θ - (ox - o.1) * Real.sin θ + t * hy) + o.2) := by
  have h1 := Real.cos_sq_add_sin_sq θ
  ext
  · rw [rotatePt_fst, hc, hs]
    unfold rect
    linear_combination (σ * s * hx) * h1
  · rw [rotatePt_snd, hc, hs]
    unfold rect
    linear_combination (σ * t * hy) * h1

/-- The angle of the first row, up to half a turn. -/
theorem rowAngle_rect (ox oy θ hx hy : ℝ) (hh : 0 < hx) :
    ∃ σ : ℝ, (σ = 1 ∨ σ = -1) ∧
      Real.cos (rowAngle (fun j i => rect ox oy θ hx hy j i) / 180 * Real.pi) = σ * Real.cos θ ∧
      Real.sin (rowAngle (fun j i => rect ox oy θ hx hy j i) / 180 * Real.pi) = σ * Real.sin θ := by
  obtain ⟨hp, hn, hz⟩ := arctanDeg_dir hx θ hh
  have hdx : (rect ox oy θ hx hy (0 : ℕ) (1 : ℕ)).1 - (rect ox oy θ hx hy (0 : ℕ) (0 : ℕ)).1 = hx * Real.cos θ := by
    unfold rect; push_cast; ring
  have hdy : (rect ox oy θ hx hy (0 : ℕ) (1 : ℕ)).2 - (rect ox oy θ hx hy (0 : ℕ) (0 : ℕ)).2 = hx * Real.sin θ := by
    unfold rect; push_cast; ring
  have hφ : ∃ τ : ℝ, (τ = 1 ∨ τ = -1) ∧
      Real.cos (arctanDeg (hx * Real.cos θ) (hx * Real.sin θ) / 180 * Real.pi) = τ * Real.cos θ ∧
      Real.sin (arctanDeg (hx * Real.cos θ) (hx * Real.sin θ) / 180 * Real.pi) = τ * Real.sin θ := by
    rcases lt_trichotomy (Real.cos θ) 0 with h | h | h
    · exact ⟨-1, Or.inr rfl, by rw [(hn h).1]; ring, by rw [(hn h).2]; ring⟩
    · exact ⟨1, Or.inl rfl, by rw [(hz h).1]; ring, by rw [(hz h).2]; ring⟩
    · exact ⟨1, Or.inl rfl, by rw [(hp h).1]; ring, by rw [(hp h).2]; ring⟩
  obtain ⟨τ, hτ, hc, hs⟩ := hφ
  unfold rowAngle
  rw [hdx, hdy]
  dsimp only
  split_ifs
  · refine ⟨-τ, ?_, ?_, ?_⟩
    · rcases hτ with h | h <;> rw [h] <;> norm_num
    · rw [show (arctanDeg (hx * Real.cos θ) (hx * Real.sin θ) + 180) / 180 * Real.pi =
        arctanDeg (hx * Real.cos θ) (hx * Real.sin θ) / 180 * Real.pi + Real.pi by ring, Real.cos_add_pi, hc]
      ring
    · rw [show (arctanDeg (hx * Real.cos θ) (hx * Real.sin θ) + 180) / 180 * Real.pi =
        arctanDeg (hx * Real.cos θ) (hx * Real.sin θ) / 180 * Real.pi + Real.pi by ring, Real.sin_add_pi, hs]
      ring
  · exact ⟨τ, hτ, hc, hs⟩

theorem cos_180 : Real.cos (180 / 180 * Real.pi) = -1 := by norm_num
theorem sin_180 : Real.sin (180 / 180 * Real.pi) = 0 := by norm_num

/-- The rotations in `interpolate` align a rectangular grid of any orientation with the axes. -/
theorem align_rect (R C : ℕ) (hR : 2 ≤ R) (hC : 2 ≤ C) (o : ℝ × ℝ) (ox oy θ hx hy : ℝ) (hhx : 0 < hx) (hhy : 0 < hy) (t s : ℝ) :
    align R C o (fun j i => rect ox oy θ hx hy j i) (rect ox oy θ hx hy t s) =
      ((ox - o.1) * Real.cos θ + (oy - o.2) * Real.sin θ + o.1 + s * hx,
        (oy - o.2) * Real.cos θ - (ox - o.1) * Real.sin θ + o.2 + t * hy) := by
  obtain ⟨σ, hσ, hc, hs⟩ := rowAngle_rect ox oy θ hx hy hhx
  have hrot := fun t s => rotate_rect _ o ox oy θ hx hy t s σ hc hs
  unfold align
  dsimp only
  simp only [hrot]
  rcases hσ with rfl | rfl
  · have h : ascending R (fun j : ℕ => 1 * ((oy - o.2) * Real.cos θ - (ox - o.1) * Real.sin θ + (j : ℝ) * hy) + o.2) := by
      intro k _
      beta_reduce
      push_cast
      linarith
    rw [if_neg (fun hn => hn.1 h)]
    ext <;> dsimp only <;> ring
  · have h1 : ¬ ascending R
        (fun j : ℕ => -1 * ((oy - o.2) * Real.cos θ - (ox - o.1) * Real.sin θ + (j : ℝ) * hy) + o.2) := by
      intro h
      have := h 0 (by omega)
      norm_num at this
      linarith
    have h2 : ¬ ascending C
        (fun i : ℕ => -1 * ((ox - o.1) * Real.cos θ + (oy - o.2) * Real.sin θ + (i : ℝ) * hx) + o.1) := by
      intro h
      have := h 0 (by omega)
      norm_num at this
      linarith
    rw [if_pos ⟨h1, h2⟩]
    ext
    · rw [rotatePt_fst, cos_180, sin_180]; dsimp only; ring
    · rw [rotatePt_snd, cos_180, sin_180]; dsimp only; ring

/-- `interpolate` on a rectangular grid of any orientation: interpolation on the padded axes, in fractions of rows and columns. -/
theorem interpolate_rect (R C : ℕ) (hR : 2 ≤ R) (hC : 2 ≤ C) (o : ℝ × ℝ) (ox oy θ hx hy : ℝ) (hhx : 0 < hx) (hhy : 0 < hy)
    (z : ℕ → ℕ → ℝ) (fill t s : ℝ) :
    ∃ c1 c2 : ℝ, interpolate R C o (fun j i => rect ox oy θ hx hy j i) z fill (rect ox oy θ hx hy t s) =
      regular (R + 2 * max R C) (C + 2 * max R C) (fun j => c2 + ((j : ℝ) - (max R C : ℕ)) * hy)
        (fun i => c1 + ((i : ℝ) - (max R C : ℕ)) * hx) (padValue R C (max R C) z) fill (c2 + t * hy) (c1 + s * hx) := by
  refine ⟨(ox - o.1) * Real.cos θ + (oy - o.2) * Real.sin θ + o.1,
    (oy - o.2) * Real.cos θ - (ox - o.1) * Real.sin θ + o.2, ?_⟩
  unfold interpolate
  dsimp only
  simp only [align_rect R C hR hC o ox oy θ hx hy hhx hhy]
  congr 1
  · funext j
    unfold padCoord
    rw [reflectOdd_const C hC, reflectOdd_linear R hR]
    push_cast; ring
  · funext i
    unfold padCoord
    simp only [reflectOdd_const R hR]
    rw [reflectOdd_linear C hC]
    push_cast; ring

theorem axis_mono (c h : ℝ) (p : ℕ) (hh : 0 < h) : StrictMono (fun i : ℕ => c + ((i : ℝ) - p) * h) := by
  intro a b hab
  have : (a : ℝ) < b := by exact_mod_cast hab
  have := mul_lt_mul_of_pos_right this hh
  beta_reduce
  nlinarith

theorem axis_position (c h : ℝ) (p i : ℕ) (s : ℝ) (hh : 0 < h) :
    position (fun i : ℕ => c + ((i : ℝ) - p) * h) i (c + s * h) = s + p - i := by
  unfold position
  beta_reduce
  rw [div_eq_iff (by push_cast; nlinarith)]
  push_cast; ring

/-- Value at fractional row `t` and column `s` in the cell `(j, i)` of the padded grid. -/
theorem interpolate_padded (R C : ℕ) (hR : 2 ≤ R) (hC : 2 ≤ C) (o : ℝ × ℝ) (ox oy θ hx hy : ℝ) (hhx : 0 < hx) (hhy : 0 < hy)
    (z : ℕ → ℕ → ℝ) (fill t s : ℝ) (j i : ℤ) (hj0 : -(max R C : ℕ) ≤ j) (hj1 : j + 2 ≤ R + (max R C : ℕ))
    (hi0 : -(max R C : ℕ) ≤ i) (hi1 : i + 2 ≤ C + (max R C : ℕ)) (ht1 : (j : ℝ) ≤ t) (ht2 : t ≤ j + 1) (hs1 : (i : ℝ) ≤ s)
    (hs2 : s ≤ i + 1) :
    interpolate R C o (fun j i => rect ox oy θ hx hy j i) z fill (rect ox oy θ hx hy t s) =
      (z (edge R j) (edge C i) * (1 - (s - i)) + z (edge R j) (edge C (i + 1)) * (s - i)) * (1 - (t - j)) +
      (z (edge R (j + 1)) (edge C i) * (1 - (s - i)) + z (edge R (j + 1)) (edge C (i + 1)) * (s - i)) * (t - j) := by
  obtain ⟨c1, c2, h⟩ := interpolate_rect R C hR hC o ox oy θ hx hy hhx hhy z fill t s
  rw [h]
  generalize max R C = p at *
  obtain ⟨J, hJ⟩ : ∃ J : ℕ, (J : ℤ) = j + p := ⟨(j + p).toNat, by omega⟩
  obtain ⟨I, hI⟩ : ∃ I : ℕ, (I : ℤ) = i + p := ⟨(i + p).toNat, by omega⟩
  have hJr : (J : ℝ) = j + p := by exact_mod_cast hJ
  have hIr : (I : ℝ) = i + p := by exact_mod_cast hI
  rw [regular_cell (R + 2 * p) (C + 2 * p) _ _ (axis_mono c2 hy p hhy) (axis_mono c1 hx p hhx) _ _ _ _ J I (by omega) (by omega)
    (by beta_reduce; rw [hJr]; nlinarith) (by beta_reduce; push_cast; rw [hJr]; nlinarith)
    (by beta_reduce; rw [hIr]; nlinarith) (by beta_reduce; push_cast; rw [hIr]; nlinarith)]
  rw [axis_position c1 hx p I s hhx, axis_position c2 hy p J t hhy]
  unfold blend padValue
  beta_reduce
  have e1 : (J : ℤ) - p = j := by omega
  have e2 : ((J + 1 : ℕ) : ℤ) - p = j + 1 := by push_cast; omega
  have e3 : (I : ℤ) - p = i := by omega
  have e4 : ((I + 1 : ℕ) : ℤ) - p = i + 1 := by push_cast; omega
  rw [e1, e2, e3, e4, hJr, hIr]
  ring

theorem edge_inside (n : ℕ) (k : ℕ) (hk : k < n) : edge n k = k := by
  unfold edge; omega

theorem edge_right (n : ℕ) (k : ℤ) (hk : (n : ℤ) - 1 ≤ k) : edge n k = n - 1 := by
  unfold edge; omega

theorem edge_left (n : ℕ) (k : ℤ) (hk : k ≤ 0) : edge n k = 0 := by
  unfold edge; omega

/-- One axis: the interval of a coordinate in the padded axis and that of the nearest coordinate within the axis give the same
value. -/
theorem axis_clamp (n p : ℕ) (hn : 2 ≤ n) (t : ℝ) (h1 : -(p : ℝ) ≤ t) (h2 : t ≤ n - 1 + p) :
    ∃ j k : ℤ, (-(p : ℤ) ≤ j ∧ j + 2 ≤ n + p ∧ (j : ℝ) ≤ t ∧ t ≤ j + 1) ∧
      (-(p : ℤ) ≤ k ∧ k + 2 ≤ n + p ∧ (k : ℝ) ≤ max 0 (min t (n - 1)) ∧ max 0 (min t (n - 1)) ≤ k + 1) ∧
      ∀ f : ℕ → ℝ, f (edge n j) * (1 - (t - j)) + f (edge n (j + 1)) * (t - j) =
        f (edge n k) * (1 - (max 0 (min t (n - 1)) - k)) + f (edge n (k + 1)) * (max 0 (min t (n - 1)) - k) := by
  have hn' : (2 : ℝ) ≤ n := by exact_mod_cast hn
  rcases lt_or_ge t 0 with h | h
  · have hc : max 0 (min t ((n : ℝ) - 1)) = 0 := max_eq_left ((min_le_left _ _).trans h.le)
    rw [hc]
    have hf1 := Int.floor_le t
    have hf2 := Int.lt_floor_add_one t
    have hneg : ⌊t⌋ ≤ -1 := by
      have : ⌊t⌋ < 0 := Int.floor_lt.mpr (by exact_mod_cast h)
      omega
    refine ⟨⌊t⌋, 0, ⟨?_, by omega, hf1, hf2.le⟩, ⟨by omega, by omega, by simp, by simp⟩, fun f => ?_⟩
    · exact Int.le_floor.mpr (by push_cast; exact h1)
    · rw [edge_left n ⌊t⌋ (by omega), edge_left n (⌊t⌋ + 1) (by omega), edge_left n 0 le_rfl]
      push_cast; ring
  · rcases le_or_gt t (n - 1) with h' | h'
    · have hc : max 0 (min t ((n : ℝ) - 1)) = t := by rw [min_eq_left h', max_eq_right h]
      rw [hc]
      have : ∃ j : ℤ, 0 ≤ j ∧ j + 2 ≤ n ∧ (j : ℝ) ≤ t ∧ t ≤ j + 1 := by
        rcases eq_or_lt_of_le h' with he | hl
        · refine ⟨n - 2, by omega, by omega, ?_, ?_⟩ <;> push_cast <;> linarith
        · refine ⟨⌊t⌋, Int.floor_nonneg.mpr h, ?_, Int.floor_le t, (Int.lt_floor_add_one t).le⟩
          have : ⌊t⌋ < (n : ℤ) - 1 := Int.floor_lt.mpr (by push_cast; exact hl)
          omega
      obtain ⟨j, a, b, c, d⟩ := this
      exact ⟨j, j, ⟨by omega, by omega, c, d⟩, ⟨by omega, by omega, c, d⟩, fun f => rfl⟩
    · have hc : max 0 (min t ((n : ℝ) - 1)) = n - 1 := by rw [min_eq_right h'.le, max_eq_right (by linarith)]
      rw [hc]
      have : ∃ j : ℤ, (n : ℤ) - 1 ≤ j ∧ j + 2 ≤ n + p ∧ (j : ℝ) ≤ t ∧ t ≤ j + 1 := by
        rcases eq_or_lt_of_le h2 with he | hl
        · have hp : 1 ≤ p := by
            by_contra hp
            have : p = 0 := by omega
            rw [this] at he
            push_cast at he
            linarith
          have hp' : (1 : ℝ) ≤ p := by exact_mod_cast hp
          refine ⟨n + p - 2, by omega, by omega, ?_, ?_⟩ <;> push_cast <;> linarith
        · refine ⟨⌊t⌋, Int.le_floor.mpr (by push_cast; exact h'.le), ?_, Int.floor_le t, (Int.lt_floor_add_one t).le⟩
          have : ⌊t⌋ < (n : ℤ) - 1 + p := Int.floor_lt.mpr (by push_cast; exact hl)
          omega
      obtain ⟨j, a, b, c, d⟩ := this
      refine ⟨j, n - 2, ⟨by omega, b, c, d⟩, ⟨by omega, by omega, by push_cast; linarith, by push_cast; linarith⟩, fun f => ?_⟩
      rw [edge_right n j a, edge_right n (j + 1) (by omega), edge_right n (n - 2 + 1) (by omega)]
      push_cast; ring

theorem interpolate_linear (R C : ℕ) (o : ℝ × ℝ) (g : ℕ → ℕ → ℝ × ℝ) (z w : ℕ → ℕ → ℝ) (f1 f2 a b : ℝ) (pt : ℝ × ℝ) :
    interpolate R C o g (fun j i => a * z j i + b * w j i) (a * f1 + b * f2) pt =
      a * interpolate R C o g z f1 pt + b * interpolate R C o g w f2 pt := by
  unfold interpolate
  exact regular_linear _ _ _ _ (padValue R C (max R C) z) (padValue R C (max R C) w) _ _ _ _ _ _

theorem interpolate_const (R C : ℕ) (o : ℝ × ℝ) (g : ℕ → ℕ → ℝ × ℝ) (c : ℝ) (pt : ℝ × ℝ) :
    interpolate R C o g (fun _ _ => c) c pt = c := by
  unfold interpolate
  exact regular_const _ _ _ _ _ _ _

/-- Every point is at some fractional row and column of a rectangular grid. -/
theorem exists_rect (ox oy θ hx hy : ℝ) (hhx : 0 < hx) (hhy : 0 < hy) (pt : ℝ × ℝ) :
    ∃ t s, pt = rect ox oy θ hx hy t s := by
  refine ⟨((pt.2 - oy) * Real.cos θ - (pt.1 - ox) * Real.sin θ) / hy,
    ((pt.1 - ox) * Real.cos θ + (pt.2 - oy) * Real.sin θ) / hx, ?_⟩
  have h := Real.cos_sq_add_sin_sq θ
  unfold rect
  rw [div_mul_cancel₀ _ hhx.ne', div_mul_cancel₀ _ hhy.ne']
  ext
  · dsimp only; linear_combination (ox - pt.1) * h
  · dsimp only; linear_combination (oy - pt.2) * h

theorem edge_lt (n : ℕ) (hn : 1 ≤ n) (k : ℤ) : edge n k < n := by
  unfold edge; omega

/-- Interpolation of a non-negative field on a rectangular grid is not negative anywhere. -/
theorem interpolate_nonneg (R C : ℕ) (hR : 2 ≤ R) (hC : 2 ≤ C) (o : ℝ × ℝ) (ox oy θ hx hy : ℝ) (hhx : 0 < hx) (hhy : 0 < hy)
    (z : ℕ → ℕ → ℝ) (fill : ℝ) (hz : ∀ j < R, ∀ i < C, 0 ≤ z j i) (hf : 0 ≤ fill) (pt : ℝ × ℝ) :
    0 ≤ interpolate R C o (fun j i => rect ox oy θ hx hy j i) z fill pt := by
  obtain ⟨t, s, rfl⟩ := exists_rect ox oy θ hx hy hhx hhy pt
  obtain ⟨c1, c2, h⟩ := interpolate_rect R C hR hC o ox oy θ hx hy hhx hhy z fill t s
  rw [h]
  refine regular_nonneg _ _ (by omega) (by omega) _ _ (axis_mono c2 hy _ hhy) (axis_mono c1 hx _ hhx) _ _ _ _ ?_ hf
  intro j _ i _
  exact hz _ (edge_lt R (by omega) _) _ (edge_lt C (by omega) _)

end

end Aeolis.Resample
