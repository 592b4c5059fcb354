import Verif.Props.Shear

/-! Property theorems on the two-dimensional shear model: the stress over a wavy bed, C110. -/

set_option linter.unusedSectionVars false

namespace Aeolis.Props

open Aeolis.Spec Aeolis.Resample Aeolis.Shear

noncomputable section

/-! ### Specification: linear theory -/

/-- Height `ℓ` of the inner layer and non-dimensional velocity `ul` there, for hills of length `L`, a first guess `l` and roughness `z0`:
five improvements of the heights of inner and middle layer. -/
def Layers (L l z0 ℓ ul : ℝ) : Prop :=
  ∃ inner middle : ℕ → ℝ, inner 0 = l ∧ (∀ n, inner (n + 1) = 2 * 0.41 ^ 2 * (L / 4) / Real.log (inner n / z0)) ∧
    middle 0 = 1 ∧ (∀ n, middle (n + 1) = L / 4 / Real.sqrt (Real.log (middle n / z0))) ∧
    ℓ = inner 5 ∧ ul = Real.log (ℓ / z0) / Real.log (middle 5 / z0)

/-- The square root with positive real part. -/
def PrincipalRoot (w σ : ℂ) : Prop := σ ^ 2 = w ∧ (0 < σ.re ∨ σ = 0)

/-- Number of the wave at place `k` of `n`: one more than the place in the first half, negative in the second. -/
def waveNo (n k : ℕ) : ℝ := if k + 1 ≤ n / 2 then (k : ℝ) + 1 else (k : ℝ) - n

/-- Part of a wave of `px` cells along and `py` cells across the wind that the tapering leaves. -/
def kept (px py : ℝ) : ℝ := 1 / (1 + (99 : ℝ) ^ (1 - px)) * (1 / (1 + (99 : ℝ) ^ ((1 - py) / 2)))

/-- Relative stress `(X, Y)` along and across the wind over a wave of unit height with wave numbers `kx` and `ky`. -/
def StressOver (kv : ℝ → ℂ → ℂ) (L l z0 dx dy kx ky : ℝ) (X Y : ℂ) : Prop :=
  ∃ ℓ ul σ, Layers L l z0 ℓ ul ∧ PrincipalRoot (Complex.I * ((L / 4 * kx * z0 / ℓ : ℝ) : ℂ)) σ ∧
    let k := Real.sqrt (kx ^ 2 + ky ^ 2)
    let part : ℂ := kept (2 * Real.pi / (dx * |kx|)) (2 * Real.pi / (dy * |ky|))
    X = part * (2 * kx ^ 2 / (k * ul ^ 2) : ℝ) *
      (((2 * Real.log (ℓ / z0) + k ^ 2 / kx ^ 2 : ℝ) : ℂ) * σ * kv 1 (2 * σ) / kv 0 (2 * σ) - 1) ∧
    Y = part * (2 * kx * ky / (k * ul ^ 2) : ℝ) * ((2 * Real.sqrt 2 : ℝ) * σ * kv 1 ((2 * Real.sqrt 2 : ℝ) * σ))

/-! ### The model follows it -/

theorem principal_unique {w σ τ : ℂ} (h : PrincipalRoot w σ) (h' : PrincipalRoot w τ) : σ = τ := by
  obtain ⟨h1, h2⟩ := h
  obtain ⟨h3, h4⟩ := h'
  rcases sq_eq_sq_iff_eq_or_eq_neg.mp (h1.trans h3.symm) with h | h
  · exact h
  · rcases h2 with h2 | h2 <;> rcases h4 with h4 | h4
    · rw [h, Complex.neg_re] at h2; linarith
    · rw [h, h4, neg_zero]
    · rw [h2] at h; rw [h2, ← neg_eq_zero.mp h.symm]
    · rw [h2, h4]

theorem principal_cpow (y : ℝ) : PrincipalRoot (Complex.I * (y : ℂ)) ((Complex.I * (y : ℂ)) ^ (1 / 2 : ℂ)) := by
  constructor
  · rw [← Complex.cpow_nat_mul]
    norm_num
  · rcases eq_or_ne y 0 with rfl | hy
    · right; simp
    · left
      have hne : Complex.I * (y : ℂ) ≠ 0 := mul_ne_zero Complex.I_ne_zero (by exact_mod_cast hy)
      rw [Complex.cpow_def_of_ne_zero hne, Complex.exp_re]
      refine mul_pos (Real.exp_pos _) (Real.cos_pos_of_mem_Ioo ?_)
      have e : (Complex.log (Complex.I * (y : ℂ)) * (1 / 2 : ℂ)).im = Complex.arg (Complex.I * (y : ℂ)) / 2 := by
        rw [show (1 / 2 : ℂ) = ((1 / 2 : ℝ) : ℂ) by push_cast; rfl, Complex.im_mul_ofReal, Complex.log_im]; ring
      rw [e]
      have hlt : Complex.arg (Complex.I * (y : ℂ)) < Real.pi := by
        refine lt_of_le_of_ne (Complex.arg_le_pi _) fun h => ?_
        rw [Complex.arg_eq_pi_iff] at h
        simp at h
      have := Complex.neg_pi_lt_arg (Complex.I * (y : ℂ))
      constructor <;> linarith

theorem layers_model (L l z0 : ℝ) : Layers L l z0 (innerLayer L l z0) (innerVelocity L l z0) :=
  ⟨fun n => (fun l => 2 * 0.41 ^ 2 * (L / 4) / Real.log (l / z0))^[n] l, fun n => (fun h => (L / 4) / Real.sqrt (Real.log (h / z0)))^[n] 1,
    rfl, fun _ => Function.iterate_succ_apply' _ _ _, rfl, fun _ => Function.iterate_succ_apply' _ _ _, rfl, rfl⟩

theorem layers_unique {L l z0 ℓ ul ℓ' ul' : ℝ} (h : Layers L l z0 ℓ ul) (h' : Layers L l z0 ℓ' ul') : ℓ = ℓ' ∧ ul = ul' := by
  obtain ⟨a, b, h1, h2, h3, h4, h5, h6⟩ := h
  obtain ⟨a', b', h1', h2', h3', h4', h5', h6'⟩ := h'
  have e : ∀ n, a n = a' n := fun n => by
    induction n with
    | zero => rw [h1, h1']
    | succ n ih => rw [h2, h2', ih]
  have e' : ∀ n, b n = b' n := fun n => by
    induction n with
    | zero => rw [h3, h3']
    | succ n ih => rw [h4, h4', ih]
  rw [h5, h6, h5', h6', h5, h5', e, e']
  exact ⟨rfl, rfl⟩

theorem filter_kept (dx dy kx ky : ℝ) :
    filterFactor 1 2 dx dy kx ky = kept (2 * Real.pi / (dx * |kx|)) (2 * Real.pi / (dy * |ky|)) := by
  have hl : Real.log (1 / 0.99 - 1) = -Real.log 99 := by rw [← Real.log_inv]; congr 1; norm_num
  have h99 : Real.log (1 / 0.01 - 1) = Real.log 99 := by norm_num
  have hp : 0 < Real.log 99 := Real.log_pos (by norm_num)
  unfold filterFactor taper kept
  dsimp only
  rw [hl, h99, Real.rpow_def_of_pos (by norm_num), Real.rpow_def_of_pos (by norm_num), div_div (2 * Real.pi), div_div (2 * Real.pi)]
  congr 4
  · field_simp
    ring
  · field_simp
    ring

theorem wavenumber_no (n : ℕ) (d : ℝ) (k : ℕ) : wavenumber n d k = 2 * Real.pi * waveNo n k / ((n + 1) * d) := by
  unfold wavenumber fftfreq waveNo
  rw [Nat.add_sub_cancel, mul_div_assoc]
  push_cast
  congr 2
  split_ifs <;> ring

theorem spectral_stress (P : Params) (c : CGrid) (z0 : ℕ → ℕ → ℝ) (q p : ℕ) (X Y : ℂ)
    (h : StressOver P.kv P.L P.l (z0 q p) c.dx c.dy (2 * Real.pi * waveNo c.cols p / ((c.cols + 1) * c.dx))
      (2 * Real.pi * waveNo c.rows q / ((c.rows + 1) * c.dy)) X Y) :
    spectralX P c z0 q p = X ∧ spectralY P c z0 q p = Y := by
  obtain ⟨ℓ, ul, σ, hL, hσ, hX, hY⟩ := h
  obtain ⟨e1, e2⟩ := layers_unique hL (layers_model P.L P.l (z0 q p))
  have e3 : σ = sigma P.L P.l (z0 q p) (2 * Real.pi * waveNo c.cols p / ((c.cols + 1) * c.dx)) := by
    refine principal_unique hσ ?_
    unfold sigma
    rw [← e1]
    have := principal_cpow (P.L / 4 * (2 * Real.pi * waveNo c.cols p / ((c.cols + 1) * c.dx)) * z0 q p / ℓ)
    convert this using 2
    push_cast
    ring
  unfold spectralX spectralY transferX transferY
  dsimp only
  rw [wavenumber_no, wavenumber_no, filter_kept, ← e1, ← e2, ← e3, hX, hY]
  constructor
  · push_cast
    ring
  · push_cast
    ring_nf

/-- Spectrum of a wave. -/
theorem fft2_wave (R C : ℕ) (hR : 0 < R) (hC : 0 < C) (a b : ℕ) (ha : a < R) (hb : b < C) (u : ℂ) (q p : ℕ) (hq : q < R) (hp : p < C) :
    fft2 R C (fun j i => u * Complex.exp (2 * Real.pi * Complex.I * ((a * j : ℂ) / R + (b * i : ℂ) / C))) q p =
      if q = a ∧ p = b then u * (R * C) else 0 := by
  have hR' : (R : ℂ) ≠ 0 := by exact_mod_cast hR.ne'
  have hC' : (C : ℂ) ≠ 0 := by exact_mod_cast hC.ne'
  have hcirc : ∀ (n q a : ℕ), q < n → a < n → ∀ j : ℕ, Complex.exp (-(2 * Real.pi * Complex.I * ((q * j : ℂ) / n))) *
      Complex.exp (2 * Real.pi * Complex.I * ((a * j : ℂ) / n)) =
      Complex.exp (-(2 * Real.pi * Complex.I * ((((q + (n - a)) % n : ℕ) * j : ℂ) / n))) := by
    intro n q a hq ha j
    have hn : (n : ℂ) ≠ 0 := by exact_mod_cast (by omega : n ≠ 0)
    obtain ⟨m, hm⟩ : ∃ m : ℤ, (((q + (n - a)) % n : ℕ) : ℤ) = q - a + m * n := by
      refine ⟨1 - ((q + (n - a)) / n : ℕ), ?_⟩
      have := Nat.div_add_mod (q + (n - a)) n
      have h2 : ((n - a : ℕ) : ℤ) = n - a := by omega
      zify at this
      rw [h2] at this
      push_cast
      rw [h2]
      linear_combination this
    have hm' : (((q + (n - a)) % n : ℕ) : ℂ) = q - a + m * n := by
      have := congrArg (Int.cast (R := ℂ)) hm
      push_cast at this ⊢
      exact this
    rw [hm', ← Complex.exp_add]
    have := exp_int (-(m * j))
    rw [← mul_one (Complex.exp (_ + _)), ← this, ← Complex.exp_add]
    congr 1
    push_cast
    field_simp
    ring
  unfold fft2
  have e : ∀ j i : ℕ, u * Complex.exp (2 * Real.pi * Complex.I * ((a * j : ℂ) / R + (b * i : ℂ) / C)) *
      Complex.exp (-(2 * Real.pi * Complex.I * ((q * j : ℂ) / R + (p * i : ℂ) / C))) =
      u * Complex.exp (-(2 * Real.pi * Complex.I * ((((q + (R - a)) % R : ℕ) * j : ℂ) / R))) *
        Complex.exp (-(2 * Real.pi * Complex.I * ((((p + (C - b)) % C : ℕ) * i : ℂ) / C))) := by
    intro j i
    rw [← hcirc R q a hq ha j, ← hcirc C p b hp hb i, mul_assoc u, mul_assoc u, ← Complex.exp_add, ← Complex.exp_add, ← Complex.exp_add,
      ← Complex.exp_add]
    congr 2
    ring
  simp only [e, ← Finset.mul_sum, sum_phase C _ hC (Nat.mod_lt _ hC)]
  rw [← Finset.sum_mul, ← Finset.mul_sum, sum_phase R _ hR (Nat.mod_lt _ hR)]
  have z : ∀ n q a : ℕ, q < n → a < n → ((q + (n - a)) % n = 0 ↔ q = a) := by
    intro n q a hq ha
    constructor
    · intro h
      obtain ⟨k, hk⟩ := Nat.dvd_of_mod_eq_zero h
      have : k = 1 := by
        rcases Nat.lt_or_ge k 1 with h1 | h1
        · rw [show k = 0 by omega] at hk; omega
        · rcases Nat.lt_or_ge 1 k with h2 | h2
          · have := Nat.mul_le_mul_left n (show 2 ≤ k from h2); omega
          · omega
      subst this; omega
    · rintro rfl
      rw [show q + (n - q) = n by omega, Nat.mod_self]
  rw [if_congr (z C p b hp hb) rfl rfl, if_congr (z R q a hq ha) rfl rfl]
  by_cases h1 : q = a <;> by_cases h2 : p = b <;> simp [h1, h2]
  ring

/-- Response to a wavy bed. -/
theorem response_wave (R C : ℕ) (a b : ℕ) (ha : a < R) (hb : b < C) (T : ℕ → ℕ → ℂ) (A φ : ℝ) (j i : ℕ) :
    let θ : ℝ := 2 * Real.pi * ((a * j : ℝ) / R + (b * i : ℝ) / C) + φ
    response R C T (fun j i => A * Real.cos (2 * Real.pi * ((a * j : ℝ) / R + (b * i : ℝ) / C) + φ)) j i =
      A / 2 * (T a b * Complex.exp (θ * Complex.I) + T ((R - a) % R) ((C - b) % C) * Complex.exp (-(θ * Complex.I))).re := by
  intro θ
  have hR : 0 < R := by omega
  have hC : 0 < C := by omega
  have hR' : (R : ℂ) ≠ 0 := by exact_mod_cast hR.ne'
  have hC' : (C : ℂ) ≠ 0 := by exact_mod_cast hC.ne'
  have back : ∀ n a : ℕ, a < n → ∀ j : ℕ, ∃ m : ℤ, (((n - a) % n : ℕ) : ℂ) * j / n = -(a * j / n) + m := by
    intro n a h j
    have hn : (n : ℂ) ≠ 0 := by exact_mod_cast (by omega : n ≠ 0)
    rcases Nat.eq_zero_or_pos a with rfl | h0
    · exact ⟨0, by simp⟩
    · refine ⟨j, ?_⟩
      rw [Nat.mod_eq_of_lt (by omega), Nat.cast_sub h.le]
      field_simp
      push_cast
      ring
  have backexp : ∀ (j i : ℕ), Complex.exp (2 * Real.pi * Complex.I * ((((R - a) % R : ℕ) * j : ℂ) / R + (((C - b) % C : ℕ) * i : ℂ) / C)) =
      Complex.exp (-(2 * Real.pi * Complex.I * ((a * j : ℂ) / R + (b * i : ℂ) / C))) := by
    intro j i
    obtain ⟨m, hm⟩ := back R a ha j
    obtain ⟨n, hn⟩ := back C b hb i
    rw [hm, hn, ← mul_one (Complex.exp (-_)), ← exp_int (m + n), ← Complex.exp_add]
    congr 1
    push_cast
    ring
  -- the bed as two complex waves
  have hbed : ∀ j i : ℕ, ((A * Real.cos (2 * Real.pi * ((a * j : ℝ) / R + (b * i : ℝ) / C) + φ) : ℝ) : ℂ) =
      A / 2 * Complex.exp (φ * Complex.I) * Complex.exp (2 * Real.pi * Complex.I * ((a * j : ℂ) / R + (b * i : ℂ) / C)) +
      A / 2 * Complex.exp (-(φ * Complex.I)) *
        Complex.exp (2 * Real.pi * Complex.I * ((((R - a) % R : ℕ) * j : ℂ) / R + (((C - b) % C : ℕ) * i : ℂ) / C)) := by
    intro j i
    rw [backexp, Complex.ofReal_mul, Complex.ofReal_cos, Complex.cos, mul_assoc _ (Complex.exp _), mul_assoc _ (Complex.exp _), ← Complex.exp_add,
      ← Complex.exp_add]
    push_cast
    rw [show (2 * (Real.pi : ℂ) * (a * j / R + b * i / C) + φ) * Complex.I =
      φ * Complex.I + 2 * Real.pi * Complex.I * (a * j / R + b * i / C) by ring,
      show -(2 * (Real.pi : ℂ) * (a * j / R + b * i / C) + φ) * Complex.I =
      -(φ * Complex.I) + -(2 * Real.pi * Complex.I * (a * j / R + b * i / C)) by ring]
    ring
  have hspec : ∀ q < R, ∀ p < C, fft2 R C (fun j i => ((A * Real.cos (2 * Real.pi * ((a * j : ℝ) / R + (b * i : ℝ) / C) + φ) : ℝ) : ℂ)) q p =
      (if q = a ∧ p = b then A / 2 * Complex.exp (φ * Complex.I) * (R * C) else 0) +
      if q = (R - a) % R ∧ p = (C - b) % C then A / 2 * Complex.exp (-(φ * Complex.I)) * (R * C) else 0 := by
    intro q hq p hp
    rw [← fft2_wave R C hR hC a b ha hb _ q p hq hp,
      ← fft2_wave R C hR hC _ _ (Nat.mod_lt (R - a) hR) (Nat.mod_lt (C - b) hC) _ q p hq hp]
    unfold fft2
    simp only [hbed, add_mul, Finset.sum_add_distrib]
  unfold response ifft2
  have hsum : ∀ (a' b' : ℕ) (u : ℂ), a' < R → b' < C → ∑ q ∈ Finset.range R, ∑ p ∈ Finset.range C,
      (if q = a' ∧ p = b' then u * (R * C) else 0) * T q p * Complex.exp (2 * Real.pi * Complex.I * ((q * j : ℂ) / R + (p * i : ℂ) / C)) =
      u * (R * C) * T a' b' * Complex.exp (2 * Real.pi * Complex.I * ((a' * j : ℂ) / R + (b' * i : ℂ) / C)) := by
    intro a' b' u h1 h2
    rw [Finset.sum_eq_single a' (fun q _ hq => Finset.sum_eq_zero fun p _ => by simp [hq]) (fun h => absurd (Finset.mem_range.mpr h1) h),
      Finset.sum_eq_single b' (fun p _ hp => by simp [hp]) (fun h => absurd (Finset.mem_range.mpr h2) h)]
    simp
  have e : ∑ q ∈ Finset.range R, ∑ p ∈ Finset.range C,
      fft2 R C (fun j i => ((A * Real.cos (2 * Real.pi * ((a * j : ℝ) / R + (b * i : ℝ) / C) + φ) : ℝ) : ℂ)) q p * T q p *
        Complex.exp (2 * Real.pi * Complex.I * ((q * j : ℂ) / R + (p * i : ℂ) / C)) =
      A / 2 * Complex.exp (φ * Complex.I) * (R * C) * T a b * Complex.exp (2 * Real.pi * Complex.I * ((a * j : ℂ) / R + (b * i : ℂ) / C)) +
      A / 2 * Complex.exp (-(φ * Complex.I)) * (R * C) * T ((R - a) % R) ((C - b) % C) *
        Complex.exp (2 * Real.pi * Complex.I * ((((R - a) % R : ℕ) * j : ℂ) / R + (((C - b) % C : ℕ) * i : ℂ) / C)) := by
    rw [← hsum a b _ ha hb, ← hsum _ _ _ (Nat.mod_lt (R - a) hR) (Nat.mod_lt (C - b) hC), ← Finset.sum_add_distrib]
    refine Finset.sum_congr rfl fun q hq => ?_
    rw [← Finset.sum_add_distrib]
    refine Finset.sum_congr rfl fun p hp => ?_
    rw [hspec q (Finset.mem_range.mp hq) p (Finset.mem_range.mp hp)]
    ring
  rw [e, backexp]
  have hθ : (θ : ℂ) * Complex.I = φ * Complex.I + 2 * Real.pi * Complex.I * ((a * j : ℂ) / R + (b * i : ℂ) / C) := by
    simp only [θ]; push_cast; ring
  rw [hθ, neg_add, Complex.exp_add, Complex.exp_add]
  rw [← Complex.re_ofReal_mul]
  congr 1
  push_cast
  field_simp

/-- **C110** The stress over a wavy bed: every wave of the (periodic) bed contributes two waves of the same length, one with the stress that linear
theory gives for its place in the spectrum and one for the place of its mirror image, each with its tapering.  The wave numbers of the two are
those of `waveNo`: for a wave of `b` periods those of `b + 1` and of `b` periods in one cell more than the row has.  With the linearity in the
bed this gives the perturbation of any bed. -/
theorem C110_wave (P : Params) (c : CGrid) (z0 : ℕ → ℕ → ℝ) (u0 : ℝ) (hu : u0 ≠ 0) (a b : ℕ) (ha : a < c.rows) (hb : b < c.cols) (A φ : ℝ)
    (X Y X' Y' : ℂ)
    (h : StressOver P.kv P.L P.l (z0 a b) c.dx c.dy (2 * Real.pi * waveNo c.cols b / ((c.cols + 1) * c.dx))
      (2 * Real.pi * waveNo c.rows a / ((c.rows + 1) * c.dy)) X Y)
    (h' : StressOver P.kv P.L P.l (z0 ((c.rows - a) % c.rows) ((c.cols - b) % c.cols)) c.dx c.dy
      (2 * Real.pi * waveNo c.cols ((c.cols - b) % c.cols) / ((c.cols + 1) * c.dx))
      (2 * Real.pi * waveNo c.rows ((c.rows - a) % c.rows) / ((c.rows + 1) * c.dy)) X' Y') (q p : ℕ) :
    let θ : ℝ := 2 * Real.pi * ((a * q : ℝ) / c.rows + (b * p : ℝ) / c.cols) + φ
    computeShear P c z0 u0 (fun q p => A * Real.cos (2 * Real.pi * ((a * q : ℝ) / c.rows + (b * p : ℝ) / c.cols) + φ)) q p =
      (A / 2 * ((X + X').re * Real.cos θ - (X - X').im * Real.sin θ), A / 2 * ((Y + Y').re * Real.cos θ - (Y - Y').im * Real.sin θ)) := by
  intro θ
  obtain ⟨hX, hY⟩ := spectral_stress P c z0 a b X Y h
  obtain ⟨hX', hY'⟩ := spectral_stress P c z0 _ _ X' Y' h'
  unfold computeShear
  rw [if_neg hu, response_wave _ _ a b ha hb, response_wave _ _ a b ha hb, hX, hY, hX', hY']
  have hre : ∀ U V : ℂ, (U * Complex.exp (θ * Complex.I) + V * Complex.exp (-(θ * Complex.I))).re =
      (U + V).re * Real.cos θ - (U - V).im * Real.sin θ := by
    intro U V
    rw [show -((θ : ℂ) * Complex.I) = ((-θ : ℝ) : ℂ) * Complex.I by push_cast; ring, Complex.add_re, Complex.mul_re, Complex.mul_re,
      Complex.exp_ofReal_mul_I_re, Complex.exp_ofReal_mul_I_im, Complex.exp_ofReal_mul_I_re, Complex.exp_ofReal_mul_I_im, Real.cos_neg, Real.sin_neg,
      Complex.add_re, Complex.sub_im]
    ring
  rw [hre, hre]

/-- The theory gives a stress for every wave, so that the conditions can be met. -/
theorem stressOver_exists (kv : ℝ → ℂ → ℂ) (L l z0 dx dy kx ky : ℝ) : ∃ X Y, StressOver kv L l z0 dx dy kx ky X Y :=
  ⟨_, _, _, _, _, layers_model L l z0, principal_cpow _, rfl, rfl⟩

/-- A dune field of three waves on a grid of 40 by 100 cells of 1 m, in phase with the origin. -/
example (kv : ℝ → ℂ → ℂ) : ∃ X X' : ℂ, ∀ q p : ℕ,
    (computeShear ⟨100, 10, kv⟩ ⟨(0, 0), 0, 0, 1, 1, 40, 100⟩ (fun _ _ => 0.001) 5
      (fun q p => 2 * Real.cos (2 * Real.pi * (((0 : ℕ) * q : ℝ) / (40 : ℕ) + ((3 : ℕ) * p : ℝ) / (100 : ℕ)) + 0)) q p).1 =
      2 / 2 * ((X + X').re * Real.cos (2 * Real.pi * (((0 : ℕ) * q : ℝ) / (40 : ℕ) + ((3 : ℕ) * p : ℝ) / (100 : ℕ)) + 0) -
        (X - X').im * Real.sin (2 * Real.pi * (((0 : ℕ) * q : ℝ) / (40 : ℕ) + ((3 : ℕ) * p : ℝ) / (100 : ℕ)) + 0)) := by
  obtain ⟨X, Y, h⟩ := stressOver_exists kv 100 10 0.001 1 1 (2 * Real.pi * waveNo 100 3 / (((100 : ℕ) + 1) * 1))
    (2 * Real.pi * waveNo 40 0 / (((40 : ℕ) + 1) * 1))
  obtain ⟨X', Y', h'⟩ := stressOver_exists kv 100 10 0.001 1 1 (2 * Real.pi * waveNo 100 ((100 - 3) % 100) / (((100 : ℕ) + 1) * 1))
    (2 * Real.pi * waveNo 40 ((40 - 0) % 40) / (((40 : ℕ) + 1) * 1))
  exact ⟨X, X', fun q p => congrArg Prod.fst (C110_wave ⟨100, 10, kv⟩ ⟨(0, 0), 0, 0, 1, 1, 40, 100⟩ (fun _ _ => 0.001) 5 (by norm_num) 0 3
    (by norm_num) (by norm_num) 2 0 X Y X' Y' h h' q p)⟩

end

end Aeolis.Props
