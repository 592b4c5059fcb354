import Verif.Props.Wind
import Mathlib.Algebra.BigOperators.Intervals
import Mathlib.Algebra.Order.BigOperators.Group.Finset
import Mathlib.Algebra.BigOperators.Fin

/-! Property theorems on roughness and on the shear over transects: C75, C92, C93. -/

set_option linter.unusedSectionVars false

namespace Aeolis.Props

open Aeolis.Wind Aeolis.Spec

noncomputable section

/-- C92 The two constant methods differ by the factor 30 between roughness height and roughness length; an unknown method
fails. -/
theorem C92_constant {n : ℕ} (r : Rough n) (method : String) :
    roughness "constant" r = .ok (some r.k) ∧ roughness "constant_nikuradse" r = .ok (some (r.k / 30)) ∧
    (method ∉ ["constant", "constant_nikuradse", "mean_grainsize_initial", "mean_grainsize_adaptive",
      "median_grainsize_adaptive", "vanrijn_strypsteen"] → roughness method r = .error .nameError) := by
  refine ⟨rfl, ?_, ?_⟩
  · unfold roughness
    rw [if_neg (by decide), if_pos rfl]
  · intro h
    simp only [List.mem_cons, List.not_mem_nil, or_false, not_or] at h
    obtain ⟨h1, h2, h3, h4, h5, h6⟩ := h
    unfold roughness
    rw [if_neg h1, if_neg h2, if_neg h3, if_neg h4, if_neg h5, if_neg h6]

example : "nikuradse" ∉ ["constant", "constant_nikuradse", "mean_grainsize_initial", "mean_grainsize_adaptive",
      "median_grainsize_adaptive", "vanrijn_strypsteen"] := by decide

/-- C92 Roughness from the mean grain size lies between a thirtieth of the smallest and a thirtieth of the largest grain
size: initially for a composition that adds up to one, later whenever there is any sand. -/
theorem C92_mean_grain_size {n : ℕ} (r : Rough n) (lo hi : ℝ) (hs : ∀ i, lo ≤ r.size i ∧ r.size i ≤ hi)
    (hd : ∀ i, 0 ≤ r.dist i) (hd1 : ∑ i, r.dist i = 1) (hm : ∀ i, 0 ≤ r.mass i) (hm1 : 0 < ∑ i, r.mass i) :
    (∃ z, roughness "mean_grainsize_initial" r = .ok (some z) ∧ lo / 30 ≤ z ∧ z ≤ hi / 30) ∧
    (∃ z, roughness "mean_grainsize_adaptive" r = .ok (some z) ∧ lo / 30 ≤ z ∧ z ≤ hi / 30) := by
  have key : ∀ w : Fin n → ℝ, (∀ i, 0 ≤ w i) → ∑ i, w i = 1 →
      lo / 30 ≤ (∑ i, r.size i * w i) / 30 ∧ (∑ i, r.size i * w i) / 30 ≤ hi / 30 := by
    intro w h0 h1
    have a : ∑ i, lo * w i ≤ ∑ i, r.size i * w i :=
      Finset.sum_le_sum fun i _ => mul_le_mul_of_nonneg_right (hs i).1 (h0 i)
    have b : ∑ i, r.size i * w i ≤ ∑ i, hi * w i :=
      Finset.sum_le_sum fun i _ => mul_le_mul_of_nonneg_right (hs i).2 (h0 i)
    rw [← Finset.mul_sum, h1] at a b
    constructor <;> linarith
  constructor
  · refine ⟨_, by unfold roughness; rw [if_neg (by decide), if_neg (by decide), if_pos rfl], key _ hd hd1⟩
  · have := key (fun i => r.mass i / ∑ j, r.mass j) (fun i => div_nonneg (hm i) hm1.le)
      (by rw [← Finset.sum_div, div_self hm1.ne'])
    refine ⟨_, ?_, this⟩
    unfold roughness
    rw [if_neg (by decide), if_neg (by decide), if_neg (by decide), if_pos rfl]
    unfold meanGrainSize
    rw [if_neg hm1.ne']
    rfl

/-- Two fractions, half and half. -/
def twoFractions : Rough 2 := ⟨0.001, 10, 0.41, 2650, 1.225, 9.81, ![0.0002, 0.0004], ![0.5, 0.5], ![3, 1], 8⟩

example : (∀ i, (0.0002:ℝ) ≤ twoFractions.size i ∧ twoFractions.size i ≤ 0.0004) ∧ ∑ i, twoFractions.dist i = 1 ∧
    0 < ∑ i, twoFractions.mass i := by
  unfold twoFractions
  refine ⟨?_, ?_, ?_⟩
  · intro i; fin_cases i <;> norm_num
  · simp; norm_num
  · simp; norm_num

/-- C92 Van Rijn and Strypsteen's roughness is `(d90 + 15 d50 (u/ut)²)/30` with `u` the grain shear velocity and `ut` the
threshold: at least `d90/30`, growing with the wind. It is undefined only when the grain shear velocity equals the
threshold. -/
theorem C92_van_rijn {kappa z rhog rhoa g uw d50 d90 : ℝ} (hd : 0 < d50) (h9 : 0 < d90) (hz : d90 < 30 * z)
    (hr : 0 < rhoa) (hrg : rhoa < rhog) (hg : 0 < g) :
    let u := kappa * uw / Real.log (30 * z / d90)
    let ut := 0.1 * Real.sqrt ((rhog - rhoa) / rhoa * g * d50)
    (u ^ 2 ≠ ut ^ 2 → ∃ z0, vanRijn kappa z rhog rhoa g uw d50 d90 = some z0 ∧
      z0 = (d90 + 15 * d50 * (u / ut) ^ 2) / 30 ∧ d90 / 30 ≤ z0) ∧
    (u ^ 2 = ut ^ 2 → vanRijn kappa z rhog rhoa g uw d50 d90 = none) := by
  dsimp only
  have hl : 0 < Real.log (30 * z / d90) := Real.log_pos ((one_lt_div h9).mpr hz)
  have ht : 0 < 0.1 * Real.sqrt ((rhog - rhoa) / rhoa * g * d50) := by
    have : 0 < (rhog - rhoa) / rhoa := div_pos (by linarith) hr
    have : 0 < Real.sqrt ((rhog - rhoa) / rhoa * g * d50) := Real.sqrt_pos.mpr (by positivity)
    exact mul_pos (by norm_num) this
  unfold vanRijn
  dsimp only
  rw [show kappa * (uw / Real.log (30 * z / d90)) = kappa * uw / Real.log (30 * z / d90) by ring]
  generalize kappa * uw / Real.log (30 * z / d90) = u
  generalize 0.1 * Real.sqrt ((rhog - rhoa) / rhoa * g * d50) = ut at ht
  constructor
  · intro hne
    have hT : (u ^ 2 - ut ^ 2) / ut ^ 2 ≠ 0 := div_ne_zero (sub_ne_zero.mpr hne) (by positivity)
    rw [if_neg hT]
    refine ⟨_, rfl, ?_, ?_⟩
    · have : (1 + 1 / ((u ^ 2 - ut ^ 2) / ut ^ 2)) * ((u ^ 2 - ut ^ 2) / ut ^ 2) = (u / ut) ^ 2 := by
        rw [add_mul, one_div, inv_mul_cancel₀ hT]
        field_simp
        ring
      linear_combination 15 * d50 / 30 * this
    · have : 15 * (1 + 1 / ((u ^ 2 - ut ^ 2) / ut ^ 2)) * d50 * ((u ^ 2 - ut ^ 2) / ut ^ 2) =
          15 * d50 * (u / ut) ^ 2 := by
        have : (1 + 1 / ((u ^ 2 - ut ^ 2) / ut ^ 2)) * ((u ^ 2 - ut ^ 2) / ut ^ 2) = (u / ut) ^ 2 := by
          rw [add_mul, one_div, inv_mul_cancel₀ hT]
          field_simp
          ring
        linear_combination 15 * d50 * this
      rw [this]
      have : 0 ≤ 15 * d50 * (u / ut) ^ 2 := by positivity
      linarith
  · intro h
    rw [if_pos (by rw [h, sub_self, zero_div])]

example : (0:ℝ) < 0.00025 ∧ (0:ℝ) < 0.0005 ∧ (0.0005:ℝ) < 30 * 10 ∧ (1.225:ℝ) < 2650 := by norm_num

/-- Slope terms: sum over all other cells. -/
theorem stressRatio_eq (nx : ℕ) (dx : ℝ) (z : ℕ → ℝ) (i : ℕ) (hi : i ≤ nx) :
    stressRatio nx dx z i = max (3 * (∑ m ∈ (Finset.range (nx + 1)).filter (· ≠ i),
      slope nx dx z m / (((i : ℝ) - m) * Real.pi) + slope nx dx z i) + 1) 0.1 := by
  unfold stressRatio
  dsimp only
  have h0 : slope nx dx z 0 = 0 := by unfold slope; simp
  congr 4
  · rw [Finset.sum_filter]
    have e : ∑ m ∈ Finset.range (nx + 1), (if m ≠ i then slope nx dx z m / (((i : ℝ) - m) * Real.pi) else 0) =
        ∑ m ∈ Finset.Icc 1 nx, (if m ≠ i then slope nx dx z m / (((i : ℝ) - m) * Real.pi) else 0) := by
      symm
      apply Finset.sum_subset
      · intro m hm
        rw [Finset.mem_Icc] at hm
        rw [Finset.mem_range]; omega
      · intro m hm hn
        rw [Finset.mem_range] at hm
        rw [Finset.mem_Icc] at hn
        have : m = 0 := by omega
        subst this
        rw [h0]; simp
    rw [e]
    symm
    apply Finset.sum_bij (fun (m : ℕ) _ => (i : ℤ) - m)
    · intro m hm
      rw [Finset.mem_Icc] at hm ⊢
      omega
    · intro a _ b _ h
      have : (i : ℤ) - a = (i : ℤ) - b := h
      omega
    · intro j hj
      rw [Finset.mem_Icc] at hj
      refine ⟨((i : ℤ) - j).toNat, ?_, ?_⟩
      · rw [Finset.mem_Icc]; omega
      · show (i : ℤ) - (((i : ℤ) - j).toNat : ℕ) = j
        omega
    · intro m hm
      have e1 : ((i : ℤ) - ((i : ℤ) - m)).toNat = m := by omega
      have e2 : ((i : ℤ) - (m : ℤ) ≠ 0) ↔ m ≠ i := by omega
      beta_reduce
      rw [e1]
      simp only [e2]
      push_cast
      rfl
  · rw [one_mul]

/-- C92 With a single fraction of size `d` the method takes 2 `d` for the 90th percentile. -/
theorem C92_van_rijn_one_fraction (r : Rough 1) (hd : 0 < r.size 0) (hz : 2 * r.size 0 < 30 * r.z) (hr : 0 < r.rhoa)
    (hrg : r.rhoa < r.rhog) (hg : 0 < r.g) :
    let u := r.kappa * r.uw / Real.log (15 * r.z / r.size 0)
    let ut := 0.1 * Real.sqrt ((r.rhog - r.rhoa) / r.rhoa * r.g * r.size 0)
    u ^ 2 ≠ ut ^ 2 → roughness "vanrijn_strypsteen" r = .ok (some ((2 * r.size 0 + 15 * r.size 0 * (u / ut) ^ 2) / 30)) := by
  intro u ut hne
  have e : 30 * r.z / (2 * r.size 0) = 15 * r.z / r.size 0 := by field_simp; ring
  obtain ⟨z0, h1, h2, -⟩ := (C92_van_rijn (kappa := r.kappa) (uw := r.uw) hd (by linarith : 0 < 2 * r.size 0) hz hr hrg hg).1
    (by rw [e]; exact hne)
  have hrough : roughness "vanrijn_strypsteen" r =
      .ok (vanRijn r.kappa r.z r.rhog r.rhoa r.g r.uw (r.size 0) (2 * r.size 0)) := by
    unfold roughness
    simp
  rw [hrough, h1, h2, e]

/-- C92 With more fractions it takes the median and the 90th percentile of the mass in the cell. -/
theorem C92_van_rijn_fractions {n : ℕ} (hn : n ≠ 1) (r : Rough n) (d50 d90 : ℝ)
    (h5 : grainSizePercentile (List.ofFn r.size) (List.ofFn r.mass) 50 = some d50)
    (h9 : grainSizePercentile (List.ofFn r.size) (List.ofFn r.mass) 90 = some d90) :
    roughness "vanrijn_strypsteen" r = .ok (vanRijn r.kappa r.z r.rhog r.rhoa r.g r.uw d50 d90) := by
  unfold roughness
  simp [hn, h5, h9]

/-- C75 Over a flat bed the shear stress is not changed; a bed level offset makes no difference; nowhere does the stress
fall below a tenth of that over a flat bed. -/
theorem C75_flat_bed (nx : ℕ) (dx : ℝ) (z : ℕ → ℝ) (i : ℕ) :
    ((∀ j ≤ nx, z j = z 0) → stressRatio nx dx z i = 1) ∧
    (∀ d, stressRatio nx dx (fun j => z j + d) i = stressRatio nx dx z i) ∧
    0.1 ≤ stressRatio nx dx z i := by
  refine ⟨?_, ?_, le_max_right _ _⟩
  · intro h
    have hs : ∀ j, slope nx dx z j = 0 := by
      intro j
      unfold slope
      split_ifs with hj
      · rw [h (j + 1) (by omega), h (j - 1) (by omega)]; simp
      · rfl
    unfold stressRatio
    simp only [hs, zero_div, ite_self, Finset.sum_const_zero]
    norm_num
  · intro d
    have hs : ∀ j, slope nx dx (fun j => z j + d) j = slope nx dx z j := by
      intro j
      unfold slope
      split_ifs
      · ring
      · rfl
    unfold stressRatio
    simp only [hs]

/-- C75 The wind direction is kept: both components are scaled with the stress, by a factor of at least 0.1 that is the
same for all winds blowing along the transect the same way. -/
theorem C75_scales_stress (nx : ℕ) (x z : ℕ → ℝ) (c : ℕ → Shear) (hc : ∀ i, (c i).tau = hypot (c i).taus (c i).taun) :
    ∃ f : ℕ → ℝ, ∀ i, 0.1 ≤ f i ∧ (shear1d nx x z c i).tau = f i * (c i).tau ∧
      (shear1d nx x z c i).taus = f i * (c i).taus ∧ (shear1d nx x z c i).taun = f i * (c i).taun := by
  classical
  refine ⟨fun i => if ∑ i ∈ Finset.range (nx + 1), (c i).taus < 0 then
      stressRatio nx |mirror nx x 1 - mirror nx x 0| (mirror nx z) (nx - i) else stressRatio nx |x 1 - x 0| z i, ?_⟩
  intro i
  have hz : (c i).tau = 0 → (c i).taus = 0 ∧ (c i).taun = 0 := fun h => hypot_zero (by rw [← hc, h])
  beta_reduce
  refine ⟨by split_ifs <;> exact le_max_right _ _, ?_⟩
  unfold shear1d
  dsimp only
  by_cases hb : ∑ i ∈ Finset.range (nx + 1), (c i).taus < 0
  · simp only [hb, if_true, mirror]
    by_cases h0 : (c i).tau = 0
    · simp [h0, hz h0]
    · simp only [ne_eq, h0, not_false_eq_true, if_true]
      refine ⟨by ring, ?_, ?_⟩ <;> field_simp
  · simp only [hb, if_false]
    by_cases h0 : (c i).tau = 0
    · simp [h0, hz h0]
    · simp only [ne_eq, h0, not_false_eq_true, if_true]
      refine ⟨by ring, ?_, ?_⟩ <;> field_simp

theorem breeze_hypot : hypot 3 4 = 5 := by
  unfold hypot
  rw [show (3:ℝ) ^ 2 + 4 ^ 2 = 5 ^ 2 by norm_num, Real.sqrt_sq (by norm_num)]

example : (⟨0, 0, 0, 5, 3, 4⟩ : Shear).tau = hypot 3 4 := breeze_hypot.symm

/-- The wind reversed: all components change sign. -/
def reversed (c : Shear) : Shear := { c with taus := -c.taus, taun := -c.taun }

/-- C75 Mirror symmetry on an equidistant grid: the stress under the reversed wind over the mirrored bed is the mirror
image of the stress. -/
theorem C75_mirror (nx : ℕ) (hn : 1 ≤ nx) (x z : ℕ → ℝ) (dx : ℝ) (hx : ∀ i, i < nx → |x (i + 1) - x i| = dx)
    (c : ℕ → Shear) (hpos : 0 < ∑ i ∈ Finset.range (nx + 1), (c i).taus) (i : ℕ) (hi : i ≤ nx) :
    let a := shear1d nx x z c (nx - i)
    let b := shear1d nx x (mirror nx z) (fun i => reversed (c (nx - i))) i
    b.tau = a.tau ∧ b.taus = -a.taus ∧ b.taun = -a.taun := by
  dsimp only
  have hsum : ∑ i ∈ Finset.range (nx + 1), (reversed (c (nx - i))).taus =
      -∑ i ∈ Finset.range (nx + 1), (c i).taus := by
    rw [← Finset.sum_range_reflect (fun i => (c i).taus) (nx + 1), ← Finset.sum_neg_distrib]
    apply Finset.sum_congr rfl
    intro j hj
    rw [show nx + 1 - 1 - j = nx - j by omega]
    rfl
  have hneg : ∑ i ∈ Finset.range (nx + 1), (reversed (c (nx - i))).taus < 0 := by rw [hsum]; linarith
  have hff : ∀ j, j ≤ nx → mirror nx (mirror nx z) j = z j := by
    intro j hj; unfold mirror; rw [show nx - (nx - j) = j by omega]
  have hslope : ∀ d j, slope nx d (mirror nx (mirror nx z)) j = slope nx d z j := by
    intro d j
    unfold slope
    split_ifs with hj
    · rw [hff _ (by omega), hff _ (by omega)]
    · rfl
  have hratio : ∀ d j, stressRatio nx d (mirror nx (mirror nx z)) j = stressRatio nx d z j := by
    intro d j
    unfold stressRatio
    simp only [hslope]
  have hdx0 : |x 1 - x 0| = dx := hx 0 (by omega)
  have hdx1 : |mirror nx x 1 - mirror nx x 0| = dx := by
    unfold mirror
    have := hx (nx - 1) (by omega)
    rw [show nx - 1 + 1 = nx by omega] at this
    rw [Nat.sub_zero, abs_sub_comm]; exact this
  unfold shear1d
  dsimp only
  rw [if_pos hneg, if_pos hneg, if_pos hneg, if_neg (not_lt.mpr hpos.le), if_neg (not_lt.mpr hpos.le),
    if_neg (not_lt.mpr hpos.le), hdx0, hdx1]
  rw [show mirror nx (stressRatio nx dx (mirror nx (mirror nx z))) i = stressRatio nx dx z (nx - i) from hratio _ _]
  unfold reversed
  dsimp only
  refine ⟨rfl, ?_, ?_⟩
  · by_cases h : (c (nx - i)).tau = 0
    · simp [h]
    · simp only [ne_eq, h, not_false_eq_true, if_true]; ring
  · by_cases h : (c (nx - i)).tau = 0
    · simp [h]
    · simp only [ne_eq, h, not_false_eq_true, if_true]; ring

example : (∀ i < 3, |((i + 1 : ℕ) : ℝ) - (i : ℕ)| = 1) ∧
    0 < ∑ _i ∈ Finset.range (3 + 1), (⟨0, 0, 0, 5, 3, 4⟩ : Shear).taus := by
  constructor
  · intro i _; push_cast; simp
  · norm_num

/-- C75 The dependence on the bed: the stress at a cell is raised by the slope there and by slopes rising towards it from
upwind, lowered by slopes rising downwind of it (before the lower limit of a tenth). Slopes `S` are central differences,
zero at both ends. -/
theorem C75_formula (nx : ℕ) (dx : ℝ) (z : ℕ → ℝ) (i : ℕ) (hi : i ≤ nx) (S : ℕ → ℝ)
    (hS : ∀ m, 1 ≤ m → m < nx → S m = (z (m + 1) - z (m - 1)) / (2 * dx)) (h0 : S 0 = 0) (hn : S nx = 0) :
    stressRatio nx dx z i = max (1 + 3 * S i +
      3 / Real.pi * (∑ m ∈ Finset.range i, S m / ((i : ℝ) - m)) -
      3 / Real.pi * (∑ m ∈ Finset.Ico (i + 1) (nx + 1), S m / ((m : ℝ) - i))) 0.1 := by
  have hSm : ∀ m ≤ nx, S m = slope nx dx z m := by
    intro m hm
    unfold slope
    split_ifs with h
    · rw [hS m h.1 h.2, div_div]
    · rcases Nat.eq_zero_or_pos m with h' | h'
      · rw [h', h0]
      · rw [show m = nx by omega, hn]
  rw [hSm i hi, Finset.sum_congr rfl fun m hm => by rw [hSm m (by have := Finset.mem_range.mp hm; omega)],
    Finset.sum_congr (s₁ := Finset.Ico (i + 1) (nx + 1)) rfl fun m hm => by
      rw [hSm m (by have := (Finset.mem_Ico.mp hm).2; omega)]]
  rw [stressRatio_eq nx dx z i hi]
  have hpi := Real.pi_pos
  congr 1
  have hsplit : (Finset.range (nx + 1)).filter (· ≠ i) = Finset.range i ∪ Finset.Ico (i + 1) (nx + 1) := by
    ext m
    simp only [Finset.mem_filter, Finset.mem_range, Finset.mem_union, Finset.mem_Ico]
    omega
  have hdis : Disjoint (Finset.range i) (Finset.Ico (i + 1) (nx + 1)) := by
    rw [Finset.disjoint_left]
    intro m hm hm'
    rw [Finset.mem_range] at hm
    rw [Finset.mem_Ico] at hm'
    omega
  rw [hsplit, Finset.sum_union hdis, Finset.mul_sum, Finset.mul_sum]
  have e1 : ∑ m ∈ Finset.range i, slope nx dx z m / (((i : ℝ) - m) * Real.pi) =
      (∑ m ∈ Finset.range i, 3 / Real.pi * (slope nx dx z m / ((i : ℝ) - m))) / 3 := by
    rw [Finset.sum_div]
    apply Finset.sum_congr rfl
    intro m hm
    rw [Finset.mem_range] at hm
    have : (i : ℝ) - m ≠ 0 := by
      have : (m : ℝ) < i := by exact_mod_cast hm
      linarith
    field_simp
  have e2 : ∑ m ∈ Finset.Ico (i + 1) (nx + 1), slope nx dx z m / (((i : ℝ) - m) * Real.pi) =
      -(∑ m ∈ Finset.Ico (i + 1) (nx + 1), 3 / Real.pi * (slope nx dx z m / ((m : ℝ) - i))) / 3 := by
    rw [← Finset.sum_neg_distrib, Finset.sum_div]
    apply Finset.sum_congr rfl
    intro m hm
    rw [Finset.mem_Ico] at hm
    have h1 : (m : ℝ) - i ≠ 0 := by
      have : (i : ℝ) < m := by exact_mod_cast hm.1
      linarith
    have h2 : (i : ℝ) - m ≠ 0 := by
      intro h; apply h1; linarith
    field_simp
    ring
  rw [e1, e2]
  ring

/-- C93 With flow separation on a transect the components of the shear stress and of the shear velocity are reduced by a
factor between 0 and 1 that vanishes where the separation surface is 0.1 m or more above the bed, and is 1 where the
surface touches the bed. -/
theorem C93_separation_reduces_components {rhoa : ℝ} (hr : 0 < rhoa) (nx : ℕ) (x z raw : ℕ → ℝ) (c : ℕ → Shear)
    (hc : ∀ i, (c i).tau = hypot (c i).taus (c i).taun) (i : ℕ) :
    let a := shearTransect rhoa nx x z none c i
    let b := shearTransect rhoa nx x z (some raw) c i
    ∃ f, 0 ≤ f ∧ f ≤ 1 ∧ (z i + 0.1 ≤ raw i → f = 0) ∧ (raw i ≤ z i → f = 1) ∧
      b.ustars = f * a.ustars ∧ b.ustarn = f * a.ustarn ∧ b.taus = f * a.taus ∧ b.taun = f * a.taun := by
  dsimp only
  obtain ⟨g, hg⟩ := C75_scales_stress nx x z c hc
  obtain ⟨hg0, ht, hs, hn⟩ := hg i
  have hg' : 0 ≤ g i := by linarith
  have hnn : 0 ≤ (shear1d nx x z c i).tau := by
    rw [ht, hc i]; exact mul_nonneg hg' (hypot_nonneg _ _)
  have hz0 : (shear1d nx x z c i).tau = 0 → (shear1d nx x z c i).taus = 0 ∧ (shear1d nx x z c i).taun = 0 := by
    intro h
    refine hypot_zero ?_
    rw [hs, hn, hypot_scale _ _ _ hg', ← hc i, ← ht, h]
  refine ⟨separationFactor (liftSurface (raw i) (z i)) (z i), ?_, ?_, ?_, ?_, ?_⟩
  · unfold separationFactor; exact le_min (le_max_right _ _) zero_le_one
  · unfold separationFactor; exact min_le_right _ _
  · intro h
    unfold separationFactor liftSurface
    rw [if_neg (by linarith), max_eq_right (by norm_num; linarith)]
    norm_num
  · intro h
    unfold separationFactor liftSurface
    have : (if raw i < z i then z i else raw i) = z i := by
      split_ifs with h'
      · rfl
      · linarith [not_lt.mp h']
    rw [this]
    norm_num
  · unfold shearTransect
    dsimp only
    generalize separationFactor (liftSurface (raw i) (z i)) (z i) = f
    generalize shear1d nx x z c i = d at hnn hz0
    unfold stressVelocity
    rcases hnn.lt_or_eq with hp | hz
    · simp only [hp, hp.ne', if_true, if_false]
      refine ⟨by ring, by ring, by ring, by ring⟩
    · simp [← hz, hz0 hz.symm]

/-- C93 The shear velocity itself, which drives the transport, is not reduced in the separation bubble. -/
theorem C93_separation_keeps_shear_velocity (rhoa : ℝ) (nx : ℕ) (x z raw : ℕ → ℝ) (c : ℕ → Shear) (i : ℕ) :
    (shearTransect rhoa nx x z (some raw) c i).ustar = (shearTransect rhoa nx x z none c i).ustar := by
  unfold shearTransect
  dsimp only
  generalize shear1d nx x z c i = d
  unfold stressVelocity
  by_cases h : d.tau = 0 <;> simp [h]

/-- In the middle of a bubble the components vanish while the shear velocity stays. -/
example : let b := shearTransect 1 1 (fun i => i) (fun _ => 0) (some fun _ => 1) (fun _ => ⟨0, 0, 0, 5, 3, 4⟩) 0
    b.ustars = 0 ∧ b.ustarn = 0 ∧ 0 < b.ustar := by
  have hc : ∀ _ : ℕ, (⟨0, 0, 0, 5, 3, 4⟩ : Shear).tau = hypot 3 4 := fun _ => breeze_hypot.symm
  dsimp only
  obtain ⟨f, -, -, h0, -, h1, h2, -, -⟩ := C93_separation_reduces_components (rhoa := 1) one_pos 1 (fun i => i)
    (fun _ => 0) (fun _ => 1) (fun _ => ⟨0, 0, 0, 5, 3, 4⟩) hc 0
  have hf : f = 0 := h0 (by norm_num)
  rw [h1, h2, hf, zero_mul, zero_mul, C93_separation_keeps_shear_velocity]
  refine ⟨rfl, rfl, ?_⟩
  obtain ⟨g, hg⟩ := C75_scales_stress 1 (fun i => i) (fun _ => 0) (fun _ => ⟨0, 0, 0, 5, 3, 4⟩) hc
  obtain ⟨hg0, ht, -, -⟩ := hg 0
  unfold shearTransect
  dsimp only
  have hp : 0 < (shear1d 1 (fun i => i) (fun _ => 0) (fun _ => ⟨0, 0, 0, 5, 3, 4⟩) 0).tau := by
    rw [ht]; show 0 < g 0 * 5; linarith
  unfold stressVelocity
  simp only [hp.ne', if_false]
  exact Real.sqrt_pos.mpr (by positivity)

end

end Aeolis.Props
