import Verif.Proofs.Generator
import Mathlib.Analysis.SpecialFunctions.Pow.Deriv

/-! The wind generator: C76, C96. -/

namespace Aeolis.Props

open Aeolis.Gen Finset

/-- C76. The rows of the transition matrix sum to one, whenever the normalisation of the row is not by zero. -/
theorem C76_rows_sum_to_one (n : ℕ) (p : ℕ → ℝ) (x : ℕ) (hx : x < n)
    (h : ∑ k ∈ range n, decay x k * p k ≠ 0) : ∑ y ∈ range n, mtm n p x y = 1 :=
  row_sum n p x hx h

/-- C76. A state is followed by state `j` if and only if the draw lies in an interval whose length is the entry `j` of its row
in the transition matrix; these intervals are consecutive, from zero. -/
theorem C76_next_state (g : Setup) (x j : ℕ) (r : ℝ) (hx : x < g.n) (hp : ∀ k < g.n, 0 ≤ g.p k) (hr : 0 ≤ r) :
    next g x r = some j ↔
      j < g.n ∧ ∑ y ∈ range j, mtm g.n g.p x y ≤ r ∧ r < ∑ y ∈ range j, mtm g.n g.p x y + mtm g.n g.p x j := by
  have hm : ∀ y < g.n, 0 ≤ mtm g.n g.p x y := by
    intro y hy
    rw [mtm_eq _ _ _ _ hx hy]
    refine div_nonneg (mul_nonneg (decay_pos x y).le (hp y hy)) ?_
    exact Finset.sum_nonneg (fun k hk => mul_nonneg (decay_pos x k).le (hp k (Finset.mem_range.mp hk)))
  have mono : ∀ a b, a ≤ b → b ≤ g.n → ∑ y ∈ range a, mtm g.n g.p x y ≤ ∑ y ∈ range b, mtm g.n g.p x y := by
    intro a b hab hb
    apply Finset.sum_le_sum_of_subset_of_nonneg
    · exact Finset.range_mono hab
    · intro y hy _
      exact hm y (lt_of_lt_of_le (Finset.mem_range.mp hy) hb)
  constructor
  · intro h
    obtain ⟨hj, hc⟩ := next_lt g x r j h
    refine ⟨hj, ?_, ?_⟩
    · rcases Nat.eq_zero_or_pos j with h0 | h0
      · subst h0
        simpa using hr
      · by_contra hlt
        have hlt := not_le.mp hlt
        unfold next at h
        rw [List.find?_range_eq_some] at h
        have := h.2.2 (j - 1) (by omega)
        simp only [gt_iff_lt, Bool.not_eq_true', decide_eq_false_iff_not, not_lt] at this
        unfold cum at this
        rw [show j - 1 + 1 = j by omega] at this
        linarith
    · unfold cum at hc
      rw [Finset.sum_range_succ] at hc
      exact hc
  · rintro ⟨hj, h1, h2⟩
    unfold next
    rw [List.find?_range_eq_some]
    refine ⟨?_, List.mem_range.mpr hj, ?_⟩
    · simp only [gt_iff_lt, decide_eq_true_eq]
      unfold cum
      rw [Finset.sum_range_succ]
      exact h2
    · intro i hi
      simp only [gt_iff_lt, Bool.not_eq_true', decide_eq_false_iff_not, not_lt]
      unfold cum
      exact le_trans (mono _ _ (by omega) (by omega)) h1

/-- C76. Generation ends with `1 + ⌈duration/dt⌉` samples, for every sequence of draws in `[0,1)`; sample `k` is written at
time `k dt` with direction zero; it is drawn from the bin of its state, which follows the previous state (initially the
first). -/
theorem C76_series (g : Setup) (draws : ℕ → ℝ × ℝ) (duration : ℝ) (hdt : 0 < g.dt)
    (hspeed : 0 < g.maxSpeed) (hn : 0 < g.n) (hrow : ∀ x < g.n, ∑ k ∈ range g.n, decay x k * g.p k ≠ 0)
    (hdraw : ∀ k, 0 ≤ (draws k).1 ∧ (draws k).1 < 1 ∧ 0 ≤ (draws k).2 ∧ (draws k).2 < 1) :
    ∃ s, (∀ fuel, ⌈duration / g.dt⌉₊ < fuel → generate g draws duration fuel = some (.ok s)) ∧
      (rows g s).length = 1 + ⌈duration / g.dt⌉₊ ∧ s.states.length = 1 + ⌈duration / g.dt⌉₊ ∧
      ∀ k (hk : k < 1 + ⌈duration / g.dt⌉₊), ∃ j, s.states[k]? = some j ∧ j < g.n ∧
        next g (if k = 0 then 0 else s.states.getD (k - 1) 0) (draws k).1 = some j ∧
        (rows g s)[k]? = some ((k : ℝ) * g.dt,
          max 0 ((j + 1 / 2 + (draws k).2) * (g.maxSpeed / g.n) - 1 / 2), 0) := by
  obtain ⟨s, hs, hi, hd⟩ := generate_spec g draws ⟨hspeed, hn, hrow, hdraw⟩ duration hdt
  have hlen : (rows g s).length = s.drawn := by simp [rows, hi.count]
  refine ⟨s, ?_, by rw [hlen, hd], by rw [hi.count', hd], ?_⟩
  · intro fuel hfuel
    obtain ⟨extra, rfl⟩ : ∃ e, fuel = ⌈duration / g.dt⌉₊ + 1 + e := ⟨fuel - (⌈duration / g.dt⌉₊ + 1), by omega⟩
    unfold generate at hs ⊢
    cases hu : update g draws { state := 0, states := [], speeds := [], t := 0, drawn := 0 } with
    | error e => rw [hu] at hs; exact hs
    | ok s1 =>
      rw [hu] at hs
      exact loop_mono g draws duration _ _ _ extra hs
  · intro k hk
    obtain ⟨j, h1, h2, h3, h4⟩ := hi.path k (by omega)
    refine ⟨j, h1, h2, h3, ?_⟩
    have hk2 : k < s.speeds.length := by rw [hi.count]; omega
    have hz : (List.zip ((List.range s.speeds.length).map (fun i : ℕ => (i : ℝ) * g.dt)) s.speeds)[k]? =
        some ((k : ℝ) * g.dt, s.speeds[k]) := by
      rw [List.getElem?_eq_getElem (by simpa using hk2)]
      simp
    unfold rows
    rw [List.getElem?_map, hz]
    rw [List.getElem?_eq_getElem hk2] at h4
    rw [Option.some.inj h4]
    simp only [Option.map_some, Option.some.injEq, Prod.mk.injEq, true_and, and_true]
    congr 1
    unfold binSize
    ring

/-- C76. Every generated speed is non-negative, and zero or less than the maximum speed plus half of the excess of the bin
size over one. -/
theorem C76_speed_bounds (maxSpeed : ℝ) (n j : ℕ) (hj : j < n) (hm : 0 < maxSpeed) (r : ℝ) (hr : r < 1) :
    let u := max 0 ((j + 1 / 2 + r) * (maxSpeed / n) - 1 / 2)
    0 ≤ u ∧ (u = 0 ∨ u < maxSpeed + (maxSpeed / n - 1) / 2) ∧ (maxSpeed ≤ n → u < maxSpeed) := by
  intro u
  have hn : (0 : ℝ) < n := by exact_mod_cast (by omega : 0 < n)
  have hj' : (j : ℝ) + 1 ≤ n := by exact_mod_cast hj
  set b := maxSpeed / n with hb
  have hbpos : 0 < b := div_pos hm hn
  have hmb : maxSpeed = n * b := by rw [hb]; field_simp
  have key : (j + 1 / 2 + r) * b - 1 / 2 < maxSpeed + (b - 1) / 2 := by
    rw [hmb]
    have : ((j : ℝ) + r) * b < n * b := mul_lt_mul_of_pos_right (by linarith) hbpos
    linarith [this]
  refine ⟨le_max_left _ _, ?_, ?_⟩
  · rcases le_total ((j + 1 / 2 + r) * b - 1 / 2) 0 with h | h
    · exact Or.inl (max_eq_left h)
    · refine Or.inr ?_
      simp only [u]
      rw [max_eq_right h]
      exact key
  · intro hle
    have hb1 : b ≤ 1 := by rw [hb, div_le_one hn]; exact hle
    exact max_lt hm (by linarith)

/-- C76. All speeds lie in the bin of their state if and only if the bins have size one. -/
theorem C76_bin (maxSpeed : ℝ) (n : ℕ) (hn : 2 ≤ n) (hm : 0 < maxSpeed) :
    (∀ j < n, ∀ r : ℝ, 0 ≤ r → r < 1 →
      j * (maxSpeed / n) ≤ max 0 ((j + 1 / 2 + r) * (maxSpeed / n) - 1 / 2) ∧
        max 0 ((j + 1 / 2 + r) * (maxSpeed / n) - 1 / 2) < (j + 1) * (maxSpeed / n)) ↔ maxSpeed = n := by
  have hn' : (0 : ℝ) < n := by exact_mod_cast (by omega : 0 < n)
  set b := maxSpeed / n with hb
  have hbpos : 0 < b := div_pos hm hn'
  have hone : maxSpeed = n ↔ b = 1 := by rw [hb, div_eq_one_iff_eq (ne_of_gt hn')]
  rw [hone]
  constructor
  · intro h
    apply le_antisymm
    · by_contra hgt
      have hgt := not_le.mp hgt
      have hq : 0 < (b - 1) / (4 * b) := div_pos (by linarith) (by linarith)
      have hq1 : (b - 1) / (4 * b) < 1 := by rw [div_lt_one (by linarith)]; linarith
      have := (h 0 (by omega) (1 - (b - 1) / (4 * b)) (by linarith) (by linarith)).2
      have h2 := lt_of_le_of_lt (le_max_right _ _) this
      have e : (b - 1) / (4 * b) * b = (b - 1) / 4 := by field_simp
      norm_num at h2
      nlinarith
    · by_contra hlt
      have hlt := not_le.mp hlt
      have := (h 1 (by omega) 0 (le_refl _) (by norm_num)).1
      rw [le_max_iff] at this
      norm_num at this
      rcases this with h | h <;> linarith
  · intro h j _ r h0 h1
    rw [h]
    have hj : (0 : ℝ) ≤ j := Nat.cast_nonneg j
    rw [max_eq_right (by linarith)]
    constructor <;> linarith

/-- C76. The maximum speed can be exceeded: with bins of two metres per second, a draw close to one gives more. -/
theorem C76_maximum_exceeded : ∃ (maxSpeed : ℝ) (n j : ℕ) (r : ℝ), j < n ∧ 0 < maxSpeed ∧ 0 ≤ r ∧ r < 1 ∧
    maxSpeed < max 0 ((j + 1 / 2 + r) * (maxSpeed / n) - 1 / 2) := by
  refine ⟨30, 15, 14, 0.9, by norm_num, by norm_num, by norm_num, by norm_num, ?_⟩
  rw [lt_max_iff]
  right
  norm_num

/-- A generator with two states. -/
noncomputable def twoStates : Setup := { maxSpeed := 2, n := 2, dt := 60, p := fun _ => 1 / 2 }

theorem twoStates_rows : ∀ x < twoStates.n, ∑ k ∈ range twoStates.n, decay x k * twoStates.p k ≠ 0 := by
  intro x _
  refine ne_of_gt (Finset.sum_pos (fun k _ => mul_pos (decay_pos x k) ?_) ⟨0, by simp [twoStates]⟩)
  norm_num [twoStates]

example : ∃ s, generate twoStates (fun _ => (1 / 2, 1 / 2)) 3600 100 = some (.ok s) ∧ (rows twoStates s).length = 61 := by
  have e : ⌈(3600 : ℝ) / twoStates.dt⌉₊ = 60 := by norm_num [twoStates]
  obtain ⟨s, h1, h2, -⟩ := C76_series twoStates (fun _ => (1 / 2, 1 / 2)) 3600 (by norm_num [twoStates])
    (by norm_num [twoStates]) (by norm_num [twoStates]) twoStates_rows (fun _ => by norm_num)
  rw [e] at h1 h2
  exact ⟨s, h1 100 (by norm_num), h2⟩

/-- C76. A time step that is not positive: generation does not end. -/
theorem C76_no_progress (g : Setup) (draws : ℕ → ℝ × ℝ) (duration : ℝ) (hd : 0 < duration) (hdt : g.dt ≤ 0)
    (hspeed : 0 < g.maxSpeed) (hn : 0 < g.n) (hrow : ∀ x < g.n, ∑ k ∈ range g.n, decay x k * g.p k ≠ 0)
    (hdraw : ∀ k, 0 ≤ (draws k).1 ∧ (draws k).1 < 1 ∧ 0 ≤ (draws k).2 ∧ (draws k).2 < 1) (fuel : ℕ) :
    generate g draws duration fuel = none := by
  have hv : Valid g draws := ⟨hspeed, hn, hrow, hdraw⟩
  have key : ∀ (fuel : ℕ) (s : Series), s.state < g.n → s.t ≤ 0 → loop g draws duration fuel s = none := by
    intro fuel
    induction fuel with
    | zero => intro s _ _; rfl
    | succ fuel ih =>
      intro s hs ht
      obtain ⟨j, -, hj, hu⟩ := update_ok g draws hv s hs
      rw [loop, if_pos (lt_of_le_of_lt ht hd), hu]
      exact ih _ hj (by dsimp only; linarith)
  obtain ⟨j, -, hj, hu⟩ := update_ok g draws hv { state := 0, states := [], speeds := [], t := 0, drawn := 0 } hn
  unfold generate
  rw [hu]
  exact key fuel _ hj (le_refl _)

/-- Share of state `x` in the products of the vector `p` and its weighted sums. -/
noncomputable def share (n : ℕ) (p : ℕ → ℝ) (x : ℕ) : ℝ :=
  (p x * ∑ k ∈ range n, decay x k * p k) / ∑ y ∈ range n, p y * ∑ k ∈ range n, decay y k * p k

theorem response_eq (n : ℕ) (p : ℕ → ℝ) (x : ℕ) (hx : x < n) : response n p x = share n p x := by
  unfold response share
  rw [diag_mulVec _ _ _ _ hx]
  congr 1
  exact Finset.sum_congr rfl (fun y hy => diag_mulVec _ _ _ _ (Finset.mem_range.mp hy))

/-- C96. The chain is reversible with respect to the shares, which are therefore stationary: drawn from them, the next
state has the same distribution. -/
theorem C96_stationary (n : ℕ) (p : ℕ → ℝ) (hrow : ∀ x < n, ∑ k ∈ range n, decay x k * p k ≠ 0) :
    (∀ x < n, ∀ y < n, share n p x * mtm n p x y = share n p y * mtm n p y x) ∧
      ∀ y < n, ∑ x ∈ range n, share n p x * mtm n p x y = share n p y := by
  have hrev : ∀ x < n, ∀ y < n, share n p x * mtm n p x y = share n p y * mtm n p y x := by
    intro x hx y hy
    rw [mtm_eq _ _ _ _ hx hy, mtm_eq _ _ _ _ hy hx, decay_comm y x]
    unfold share mulVec
    have h1 := hrow x hx
    have h2 := hrow y hy
    set a := ∑ k ∈ range n, decay x k * p k
    set b := ∑ k ∈ range n, decay y k * p k
    set S := ∑ y ∈ range n, p y * ∑ k ∈ range n, decay y k * p k
    rw [div_mul_div_comm, div_mul_div_comm]
    rcases eq_or_ne S 0 with hS | hS
    · rw [hS]; simp
    · field_simp
  refine ⟨hrev, fun y hy => ?_⟩
  have : ∑ x ∈ range n, share n p x * mtm n p x y = ∑ x ∈ range n, share n p y * mtm n p y x :=
    Finset.sum_congr rfl (fun x hx => hrev x (Finset.mem_range.mp hx) y hy)
  rw [this, ← Finset.mul_sum, row_sum n p y hy (hrow y hy), mul_one]

/-- C96. When the iteration ends, the shares of its last but one vector differ from the target by at most `2e-10` (root mean
square), and the last vector is that vector moved over half of the difference. -/
theorem C96_fit (n : ℕ) (hn : 0 < n) (p0 q : ℕ → ℝ) (fuel : ℕ) (h : fit n p0 fuel p0 = some q) :
    ∃ p, (∑ x ∈ range n, (p0 x - share n p x) ^ 2) / n ≤ (2e-10) ^ 2 ∧
      ∀ x < n, q x = p x + (p0 x - share n p x) / 2 := by
  have key : ∀ fuel p, fit n p0 fuel p = some q → ∃ p, rmse n q p ≤ 1e-10 ∧ q = improve n p0 p := by
    intro fuel
    induction fuel with
    | zero => intro p h; cases h
    | succ fuel ih =>
      intro p h
      rw [fit] at h
      split_ifs at h with hr
      · exact ih _ h
      · cases h
        exact ⟨p, not_lt.mp hr, rfl⟩
  obtain ⟨p, hr, hq⟩ := key fuel p0 h
  refine ⟨p, ?_, ?_⟩
  · unfold rmse at hr
    have hn' : (0 : ℝ) < n := by exact_mod_cast hn
    have h1 := (Real.sqrt_le_left (by norm_num)).mp hr
    have e : (∑ x ∈ range n, (p0 x - share n p x) ^ 2) = 4 * ∑ k ∈ range n, (q k - p k) ^ 2 := by
      rw [Finset.mul_sum]
      refine Finset.sum_congr rfl (fun x hx => ?_)
      rw [hq]
      unfold improve
      rw [response_eq n p x (Finset.mem_range.mp hx)]
      norm_num
      ring
    rw [e, mul_div_assoc]
    calc 4 * ((∑ k ∈ range n, (q k - p k) ^ 2) / n) ≤ 4 * (1e-10) ^ 2 := by linarith
      _ = (2e-10) ^ 2 := by norm_num
  · intro x hx
    rw [hq]
    unfold improve
    rw [response_eq n p x hx]
    norm_num
    ring

/-- C96. Every iterate has the sum of the target, which is one. -/
theorem C96_sum (n : ℕ) (p0 p : ℕ → ℝ) (h0 : ∑ x ∈ range n, p0 x = 1) (hp : ∑ x ∈ range n, p x = 1)
    (hs : ∑ y ∈ range n, p y * ∑ k ∈ range n, decay y k * p k ≠ 0) :
    ∑ x ∈ range n, improve n p0 p x = 1 := by
  have hr : ∑ x ∈ range n, response n p x = 1 := by
    rw [Finset.sum_congr rfl (fun x hx => response_eq n p x (Finset.mem_range.mp hx))]
    unfold share
    rw [← Finset.sum_div]
    exact div_self hs
  unfold improve
  rw [Finset.sum_add_distrib, ← Finset.mul_sum, Finset.sum_sub_distrib, hp, h0, hr]
  norm_num

/-- C96. The target is a positive distribution. -/
theorem C96_target (meanSpeed maxSpeed shape scale : ℝ) (n : ℕ) (hm : 0 < meanSpeed) (hx : 0 < maxSpeed)
    (hsh : 0 < shape) (hsc : 0 < scale) (hn : 0 < n) :
    (∀ j < n, 0 < target meanSpeed maxSpeed shape scale n j) ∧
      ∑ j ∈ range n, target meanSpeed maxSpeed shape scale n j = 1 := by
  have hw : ∀ j < n, 0 < weibull (scale * meanSpeed / Real.sqrt Real.pi) shape ((bins maxSpeed n).getD j 0) := by
    intro j hj
    have hn' : (0 : ℝ) < n := by exact_mod_cast hn
    have hsq : 0 < Real.sqrt Real.pi := Real.sqrt_pos.mpr Real.pi_pos
    have hb : 0 < (bins maxSpeed n).getD j 0 := by
      rw [List.getD_eq_getElem?_getD, bins_get _ _ hx j hj]
      have : 0 < binSize maxSpeed n := div_pos hx hn'
      simp only [Option.getD_some]
      positivity
    unfold weibull
    positivity
  have hS : 0 < ∑ k ∈ range n, weibull (scale * meanSpeed / Real.sqrt Real.pi) shape ((bins maxSpeed n).getD k 0) :=
    Finset.sum_pos (fun k hk => hw k (Finset.mem_range.mp hk)) ⟨0, Finset.mem_range.mpr hn⟩
  constructor
  · intro j hj
    exact div_pos (hw j hj) hS
  · unfold target
    dsimp only
    rw [← Finset.sum_div]
    exact div_self (ne_of_gt hS)

/-- C96. It is proportional to the density of the Weibull distribution `1 - exp (-(x / λ) ^ k)`, with `λ` the mean speed times `scale / √π`, at the
centres of equal bins up to the maximum speed. -/
theorem C96_weibull (meanSpeed maxSpeed shape scale : ℝ) (n : ℕ) (hm : 0 < meanSpeed) (hx : 0 < maxSpeed)
    (hsh : 0 < shape) (hsc : 0 < scale) (hn : 0 < n) :
    ∃ N, 0 < N ∧ ∀ j < n, HasDerivAt (fun x : ℝ => N * (1 - Real.exp (-(x / (scale * meanSpeed / Real.sqrt Real.pi)) ^ shape)))
      (target meanSpeed maxSpeed shape scale n j) ((j + 1 / 2) * (maxSpeed / n)) := by
  have hn' : (0 : ℝ) < n := by exact_mod_cast hn
  have hsq : 0 < Real.sqrt Real.pi := Real.sqrt_pos.mpr Real.pi_pos
  have hb : ∀ j < n, (bins maxSpeed n).getD j 0 = (j + 1 / 2) * (maxSpeed / n) := fun j hj => by
    rw [List.getD_eq_getElem?_getD, bins_get _ _ hx j hj]
    simp only [Option.getD_some, binSize]
    ring
  set l := scale * meanSpeed / Real.sqrt Real.pi with hl
  have hlp : 0 < l := by positivity
  have hw : ∀ j < n, 0 < weibull l shape ((bins maxSpeed n).getD j 0) := fun j hj => by
    rw [hb j hj]
    unfold weibull
    positivity
  refine ⟨1 / ∑ k ∈ range n, weibull l shape ((bins maxSpeed n).getD k 0),
    one_div_pos.mpr (Finset.sum_pos (fun k hk => hw k (Finset.mem_range.mp hk)) ⟨0, Finset.mem_range.mpr hn⟩), fun j hj => ?_⟩
  have hpos : 0 < ((j : ℝ) + 1 / 2) * (maxSpeed / n) := by positivity
  have h1 : HasDerivAt (fun x : ℝ => x / l) (1 / l) (((j : ℝ) + 1 / 2) * (maxSpeed / n)) := (hasDerivAt_id _).div_const l
  have h2 := h1.rpow_const (p := shape) (Or.inl (div_pos hpos hlp).ne')
  have h3 := ((h2.neg.exp.const_sub 1).const_mul (1 / ∑ k ∈ range n, weibull l shape ((bins maxSpeed n).getD k 0)))
  refine h3.congr_deriv ?_
  unfold target
  dsimp only
  rw [← hl, hb j hj]
  conv_rhs => rw [weibull, neg_one_mul]
  simp only [Pi.neg_apply]
  generalize (((j : ℝ) + 1 / 2) * (maxSpeed / n) / l) ^ (shape - 1) = a
  generalize Real.exp (-(((j : ℝ) + 1 / 2) * (maxSpeed / n) / l) ^ shape) = e
  ring

/-- Thirty bins up to 30 m/s with a mean of 9 m/s and the default shape and scale. -/
example : ∃ N, 0 < N ∧ ∀ j < 30, HasDerivAt (fun x : ℝ => N * (1 - Real.exp (-(x / (2 * 9 / Real.sqrt Real.pi)) ^ (2 : ℝ))))
    (target 9 30 2 2 30 j) ((j + 1 / 2) * (30 / (30 : ℕ))) :=
  C96_weibull 9 30 2 2 30 (by norm_num) (by norm_num) (by norm_num) (by norm_num) (by norm_num)

/-- The iteration ends at once for two equally likely states. -/
example : fit 2 (fun _ => 1 / 2) 1 (fun _ => 1 / 2) = some (improve 2 (fun _ => 1 / 2) (fun _ => 1 / 2)) := by
  have hs : ∀ x < 2, share 2 (fun _ => 1 / 2) x = 1 / 2 := by
    intro x hx
    have : decay 0 1 = decay 1 0 := decay_comm 0 1
    have h0 : decay 0 0 = 1 := by simp [decay]
    have h1 : decay 1 1 = 1 := by simp [decay]
    have hp := decay_pos 1 0
    have hx' : x = 0 ∨ x = 1 := by omega
    rcases hx' with rfl | rfl
    · simp only [share, Finset.sum_range_succ, Finset.sum_range_zero, this, h0, h1]
      field_simp
      ring
    · simp only [share, Finset.sum_range_succ, Finset.sum_range_zero, this, h0, h1]
      field_simp
      ring
  rw [fit]
  have : rmse 2 (improve 2 (fun _ => 1 / 2) (fun _ => 1 / 2)) (fun _ => 1 / 2) = 0 := by
    unfold rmse improve
    rw [Finset.sum_eq_zero]
    · simp
    · intro k hk
      rw [response_eq _ _ _ (Finset.mem_range.mp hk), hs k (Finset.mem_range.mp hk)]
      norm_num
  rw [this, if_neg (by norm_num)]

example : ∑ y ∈ range 2, mtm 2 (fun _ => 1 / 2) 0 y = 1 :=
  C76_rows_sum_to_one 2 _ 0 (by norm_num) (twoStates_rows 0 (by norm_num [twoStates]))

/-- From the first of two states: a draw of zero keeps it. -/
example : next twoStates 0 0 = some 0 := by
  rw [C76_next_state twoStates 0 0 0 (by norm_num [twoStates]) (fun _ _ => by norm_num [twoStates]) le_rfl]
  refine ⟨by norm_num [twoStates], by simp, ?_⟩
  have h := C76_rows_sum_to_one 2 (fun _ => 1 / 2) 0 (by norm_num) (twoStates_rows 0 (by norm_num [twoStates]))
  have hs : ∀ y < 2, 0 < mtm 2 (fun _ => 1 / 2) 0 y := by
    intro y hy
    have h0 : decay 0 0 = 1 := by simp [decay]
    have hp := decay_pos 0 1
    have : y = 0 ∨ y = 1 := by omega
    rcases this with rfl | rfl <;>
      simp [mtm, mulMat, Gen.diag, mulVec, Finset.sum_range_succ, h0] <;> positivity
  simpa [twoStates] using hs 0 (by norm_num)

/-- The last of thirty bins of 1 m/s. -/
example : max 0 (((29 : ℕ) + 1 / 2 + 0.9) * ((30 : ℝ) / (30 : ℕ)) - 1 / 2) < 30 :=
  (C76_speed_bounds 30 30 29 (by norm_num) (by norm_num) 0.9 (by norm_num)).2.2 (by norm_num)

/-- Bins of 2 m/s: the speeds do not stay within their bins. -/
example : ¬ ∀ j : ℕ, j < 10 → ∀ r : ℝ, 0 ≤ r → r < 1 →
    (j : ℝ) * (20 / (10 : ℕ)) ≤ max 0 ((j + 1 / 2 + r) * (20 / (10 : ℕ)) - 1 / 2) ∧
      max 0 ((j + 1 / 2 + r) * (20 / (10 : ℕ)) - 1 / 2) < (j + 1) * ((20 : ℝ) / (10 : ℕ)) :=
  fun h => absurd ((C76_bin 20 10 (by norm_num) (by norm_num)).1 h) (by norm_num)

/-- A time step of zero. -/
example (fuel : ℕ) : generate { twoStates with dt := 0 } (fun _ => (1 / 2, 1 / 2)) 3600 fuel = none :=
  C76_no_progress { twoStates with dt := 0 } (fun _ => (1 / 2, 1 / 2)) 3600 (by norm_num) le_rfl (by norm_num [twoStates]) (by norm_num [twoStates]) twoStates_rows
    (fun _ => by norm_num) fuel

example : ∀ y < 2, ∑ x ∈ range 2, share 2 (fun _ => 1 / 2) x * mtm 2 (fun _ => 1 / 2) x y = share 2 (fun _ => 1 / 2) y :=
  (C96_stationary 2 _ twoStates_rows).2

example : ∑ x ∈ range 2, improve 2 (fun _ => 1 / 2) (fun _ => 1 / 2) x = 1 :=
  C96_sum 2 _ _ (by norm_num) (by norm_num) (by
    have h0 : ∀ x, decay x x = 1 := fun x => by simp [decay]
    have hp := decay_pos 0 1
    have hq := decay_pos 1 0
    have : 0 < ∑ y ∈ range 2, (1 / 2 : ℝ) * ∑ k ∈ range 2, decay y k * (1 / 2) := by
      simp only [Finset.sum_range_succ, Finset.sum_range_zero, h0]
      positivity
    exact this.ne')

example : ∑ j ∈ range 30, target 9 30 2 2 30 j = 1 :=
  (C96_target 9 30 2 2 30 (by norm_num) (by norm_num) (by norm_num) (by norm_num) (by norm_num)).2

end Aeolis.Props
