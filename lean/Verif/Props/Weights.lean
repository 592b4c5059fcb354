import Verif.Proofs.Solver

/-!
Transport weights and the iteration of the solver: C44, C45, C46, C47, C81.
-/

set_option linter.unusedSectionVars false

namespace Aeolis.Props

open Aeolis.Solver Finset

variable {K : Type*} [Field K] [LinearOrder K] [IsStrictOrderedRing K] {nf : ℕ}

/-! ### C44 -/

/-- C44: weights are never negative. -/
theorem C44_nonneg (bi : K) (Ct Cu mass : Fin nf → K) (hb0 : 0 ≤ bi) (hb1 : bi ≤ 1)
    (hC : ∀ k, 0 ≤ Ct k) (hU : ∀ k, 0 ≤ Cu k) (hm : ∀ k, 0 ≤ mass k) (k : Fin nf) :
    0 ≤ computeWeights bi Ct Cu mass k := by
  refine normalize_nonneg_fill 0 le_rfl _ (fun l => ?_) k
  refine add_nonneg (mul_nonneg (by linarith) (weightsAir_nonneg Ct Cu hC hU l)) (mul_nonneg ?_ ?_)
  · linarith [min_le_left (1 : K) ((1 - bi) * ∑ l, weightsAir Ct Cu l)]
  · exact normalize_nonneg_fill 0 le_rfl _ hm l

/-- C44: weights sum to one if the top layer holds sediment, or if some fraction is in transport and the
bed interaction is not complete. -/
theorem C44_sum_one (bi : K) (Ct Cu mass : Fin nf → K) (hb0 : 0 ≤ bi) (hb1 : bi ≤ 1)
    (hC : ∀ k, 0 ≤ Ct k) (hU : ∀ k, 0 ≤ Cu k) (hm : ∀ k, 0 ≤ mass k)
    (h : (∃ k, 0 < mass k) ∨ (bi < 1 ∧ ∃ k, 0 < Ct k ∧ 0 < Cu k)) :
    ∑ k, computeWeights bi Ct Cu mass k = 1 := by
  refine normalize_sum 0 _ (ne_of_gt ?_)
  have hair := weightsAir_nonneg Ct Cu hC hU
  have hbed : ∀ k, 0 ≤ weightsBed mass k := fun k => normalize_nonneg_fill 0 le_rfl _ hm k
  have hS : 0 ≤ (1 - bi) * ∑ l, weightsAir Ct Cu l :=
    mul_nonneg (by linarith) (sum_nonneg fun l _ => hair l)
  have hmin := min_le_left (1 : K) ((1 - bi) * ∑ l, weightsAir Ct Cu l)
  rw [sum_add_distrib, ← mul_sum, ← mul_sum]
  have hB : 0 ≤ ∑ k, weightsBed mass k := sum_nonneg fun k _ => hbed k
  rcases h with ⟨k, hk⟩ | ⟨hb, k, hk, hk'⟩
  · have h1 : ∑ k, weightsBed mass k = 1 := normalize_sum 0 mass (ne_of_gt
      (sum_pos' (fun l _ => hm l) ⟨k, mem_univ _, hk⟩))
    rw [h1, mul_one]
    rcases le_total 1 ((1 - bi) * ∑ l, weightsAir Ct Cu l) with h | h
    · rw [min_eq_left h]; linarith
    · rw [min_eq_right h]; linarith
  · have hp : 0 < weightsAir Ct Cu k := by
      unfold weightsAir normalizeRef
      rw [if_pos hk'.ne']; exact div_pos hk hk'
    have : 0 < ∑ l, weightsAir Ct Cu l := sum_pos' (fun l _ => hair l) ⟨k, mem_univ _, hp⟩
    have := mul_pos (by linarith : (0 : K) < 1 - bi) this
    have := mul_nonneg (by linarith : 0 ≤ 1 - min (1 : K) ((1 - bi) * ∑ l, weightsAir Ct Cu l)) hB
    linarith

/-- C44 (not claimed by the property): with complete bed interaction and an empty top layer all weights
are zero, whatever is in transport. -/
theorem C44_empty_bed (Ct Cu mass : Fin nf → K) (hm : ∀ k, mass k = 0) (k : Fin nf) :
    computeWeights 1 Ct Cu mass k = 0 := by
  have hb : ∀ k, weightsBed mass k = 0 := normalize_zero 0 mass (sum_eq_zero fun l _ => hm l)
  refine normalize_zero 0 _ ?_ k
  simp [hb]

example : (∑ k, computeWeights (1/2 : ℚ) ![1, 3] ![4, 6] ![10, 30] k = 1) ∧
    computeWeights (1/2 : ℚ) ![1, 3] ![4, 6] ![10, 30] 0 = 9/32 := by
  constructor
  · exact C44_sum_one _ _ _ _ (by norm_num) (by norm_num) (by intro k; fin_cases k <;> norm_num)
      (by intro k; fin_cases k <;> norm_num) (by intro k; fin_cases k <;> norm_num)
      (Or.inl ⟨0, by norm_num⟩)
  · norm_num [computeWeights, weightsAir, weightsBed, normalize, normalizeRef, Fin.sum_univ_two]

/-! ### C45 -/

/-- C45: renormalised weights sum to one, whatever the input. -/
theorem C45_sum_one (ix : ℕ) (w : Fin nf → K) (hn : 0 < nf) :
    ∑ k, renormalizeWeights ix w k = 1 := by
  rw [renormalizeWeights_eq]; exact normalize_sum_fill _ hn

/-- C45: if the weights from `ix` on do not cancel, the weights before `ix` are kept and the others are
all scaled by the same factor. -/
theorem C45_earlier_kept (ix : ℕ) (w : Fin nf → K)
    (h : (∑ l : Fin nf, if ix ≤ (l : ℕ) then w l else 0) ≠ 0) :
    (∀ k : Fin nf, (k : ℕ) < ix → renormalizeWeights ix w k = w k) ∧
    ∃ s, ∀ k : Fin nf, ix ≤ (k : ℕ) → renormalizeWeights ix w k = w k * s := by
  rw [renormalize_eq_raw ix w h]
  constructor
  · intro k hk
    unfold renormRaw; rw [if_neg (not_le.mpr hk)]
  · refine ⟨(1 - ∑ l : Fin nf, if (l : ℕ) < ix then w l else 0) /
        (∑ l : Fin nf, if ix ≤ (l : ℕ) then w l else 0), fun k hk => ?_⟩
    unfold renormRaw normalizeTail
    rw [if_pos hk]
    simp only
    rw [if_pos h]; ring

/-- C45: non-negative weights stay non-negative if the earlier ones sum to at most one. -/
theorem C45_nonneg (ix : ℕ) (w : Fin nf → K) (h0 : ∀ k, 0 ≤ w k)
    (h1 : (∑ l : Fin nf, if (l : ℕ) < ix then w l else 0) ≤ 1) (k : Fin nf) :
    0 ≤ renormalizeWeights ix w k := by
  rw [renormalizeWeights_eq]
  exact normalize_nonneg_fill _ (div_nonneg zero_le_one (Nat.cast_nonneg _)) _
    (renormRaw_nonneg ix w h0 h1) k

example : (renormalizeWeights 1 (![1/2, 1/4, 0] : Fin 3 → ℚ) 0 = 1/2) ∧
    renormalizeWeights 1 (![1/2, 1/4, 0] : Fin 3 → ℚ) 1 = 1/2 := by
  constructor
  · rw [(C45_earlier_kept 1 _ (by simp [Fin.sum_univ_three])).1 0 (by norm_num)]; norm_num
  · norm_num [renormalizeWeights, normalizeTail, normalize, Fin.sum_univ_succ]

/-! ### C46 -/

variable {ι : Type*} [Fintype ι]

/-- C46: if the iteration converges no cell gives more than its top layer holds, for any linear solver
and any number of iterations.  If it stops at the limit, some cell gives more than it holds. -/
theorem C46_pickup (f : FracIn K ι) (lin : (ι → K) → ι → K) (n : ℕ) (w : ι → K)
    (r : FracOut K ι) (hr : fractionLoop f lin n w = .ok r) :
    (r.conv = true → ∀ c, r.pickup c ≤ f.mass c) ∧
    (r.conv = false → ∃ c, f.mass c + f.maxError < r.pickup c) :=
  ⟨(fractionLoop_spec f lin n w r hr).1, (fractionLoop_spec f lin n w r hr).2.1⟩

/-- C46: after convergence, away from cells limited by supply, pickup is the exchange with the
equilibrium concentration `(w Cu - Ct) dt / T` for the returned weights and concentrations, and it
differs from it by at most `max_error` where something can be picked up. -/
theorem C46_pickup_consistent (f : FracIn K ι) (lin : (ι → K) → ι → K) (n : ℕ) (w : ι → K)
    (r : FracOut K ι) (hr : fractionLoop f lin n w = .ok r) (hc : r.conv = true) (c : ι) :
    r.pickup c = min ((r.w c * f.Cu c - r.Ct c) / f.T * f.dt) (f.mass c) ∧
    (0 < r.w c * f.Cu c → (r.w c * f.Cu c - r.Ct c) / f.T * f.dt ≤ f.mass c + f.maxError) := by
  induction n generalizing w with
  | zero => simp [fractionLoop] at hr
  | succ n ih =>
    unfold fractionLoop at hr
    simp only at hr
    split at hr
    · split at hr
      · cases hr; simp at hc
      · exact ih _ hr
    · rename_i hex
      cases hr
      refine ⟨rfl, fun hp => ?_⟩
      by_contra hlt
      push Not at hlt
      exact hex ⟨c, by unfold pickupOf; linarith, hp⟩

/-- C46: the weight correction makes the deficit of a corrected cell exactly zero, lowers its weight,
and leaves the other cells alone. -/
theorem C46_correction (f : FracIn K ι) (Ct w : ι → K) (c : ι) (hT : 0 < f.T) (hdt : 0 < f.dt)
    (he : 0 ≤ f.maxError) (hCu : 0 ≤ f.Cu c) :
    (inDeficit f Ct w c → (correctWeights f Ct w c * f.Cu c - Ct c) / f.T * f.dt = f.mass c ∧
      correctWeights f Ct w c < w c) ∧
    (¬ inDeficit f Ct w c → correctWeights f Ct w c = w c) :=
  ⟨fun h => ⟨correct_zero_deficit f Ct w c hT.ne' hdt.ne' h, correct_lt f Ct w c hT hdt he hCu h⟩,
   fun h => by unfold correctWeights; rw [if_neg h]⟩

/-- C46: an iteration limit of at least one always gives a result. -/
theorem C46_total (f : FracIn K ι) (lin : (ι → K) → ι → K) (n : ℕ) (w : ι → K) :
    ∃ r, fractionLoop f lin (n + 1) w = .ok r := by
  induction n generalizing w with
  | zero => unfold fractionLoop; simp only; split <;> simp
  | succ n ih =>
    unfold fractionLoop
    simp only
    split
    · simp only [Nat.add_eq_zero_iff, one_ne_zero, and_false, if_false]; exact ih _
    · exact ⟨_, rfl⟩

/-- Two cells, one of them short of sediment; the linear system just returns half the equilibrium. -/
def exFrac : FracIn ℚ (Fin 2) := ⟨1, 1, 0, fun _ => 1, ![1/4, 10]⟩

example : ∃ r, fractionLoop exFrac (fun _ _ => 0) 2 (fun _ => 1) = .ok r ∧ r.conv = true ∧
    r.pickup = ![1/4, 1] := by
  have hcon : ∀ w : Fin 2 → ℚ, concentrations exFrac (fun _ _ => 0) w = fun _ => 0 := by
    intro w; funext c
    simp [concentrations, removeNegatives, preventTinyNegatives]
  have h0 : ∃ c, inDeficit exFrac (fun _ => 0) (fun _ => 1) c :=
    ⟨0, by norm_num [inDeficit, pickupOf, exFrac]⟩
  have hw : correctWeights exFrac (fun _ => 0) (fun _ => 1) = ![1/4, 1] := by
    funext c; fin_cases c <;> norm_num [correctWeights, inDeficit, pickupOf, exFrac]
  have h1 : ¬ ∃ c, inDeficit exFrac (fun _ => 0) ![1/4, 1] c := by
    rintro ⟨c, h, _⟩
    fin_cases c <;> norm_num [pickupOf, exFrac] at h
  refine ⟨⟨fun _ => 0, ![1/4, 1], ![1/4, 1], true⟩, ?_, rfl, rfl⟩
  unfold fractionLoop
  simp only [hcon, if_pos h0]
  rw [hw]
  unfold fractionLoop
  simp only [hcon, if_neg h1]
  simp
  funext c; fin_cases c <;> norm_num [pickupOf, exFrac]

/-! ### C47 -/

/-- C47: if the total is not negative, removing negative concentrations gives non-negative
concentrations with the same total. -/
theorem C47_conserves (Ct : ι → K) (h : 0 ≤ ∑ c, Ct c) :
    (∀ c, 0 ≤ removeNegatives Ct c) ∧ ∑ c, removeNegatives Ct c = ∑ c, Ct c :=
  ⟨removeNegatives_nonneg Ct h, sum_removeNegatives Ct h⟩

/-- C47: negative concentrations become zero, zeros stay zero, and the ratios of the others are kept
(for any total). -/
theorem C47_ratios (Ct : ι → K) :
    (∀ c, Ct c < 0 → removeNegatives Ct c = 0) ∧
    ∃ s, ∀ c, 0 ≤ Ct c → removeNegatives Ct c = Ct c * s := by
  unfold removeNegatives
  split
  · refine ⟨fun c hc => if_pos hc, ?_⟩
    by_cases hp : (∑ c, if Ct c < 0 then 0 else Ct c) ≠ 0
    · refine ⟨1 + (∑ c, if Ct c < 0 then Ct c else 0) / ∑ c, if Ct c < 0 then 0 else Ct c, ?_⟩
      intro c hc
      simp only
      rw [if_neg (not_lt.mpr hc), if_pos hp]
    · refine ⟨0, ?_⟩
      intro c hc
      simp only
      rw [if_neg (not_lt.mpr hc), if_neg hp, mul_zero]
  · rename_i h
    push Not at h
    exact ⟨fun c hc => absurd hc (not_lt.mpr (h c)), 1, fun c _ => (mul_one _).symm⟩

/-- C47 (limit of the property): with a negative total the positive concentrations turn negative. -/
theorem C47_negative_total (Ct : ι → K) (h : ∑ c, Ct c < 0) (c : ι) (hc : 0 < Ct c) :
    removeNegatives Ct c < 0 := by
  obtain ⟨h1, h2, h3⟩ := removeNegatives_facts Ct
  have hex : ∃ c, Ct c < 0 := by
    by_contra hex
    push Not at hex
    exact absurd (sum_nonneg fun c _ => hex c) (not_le.mpr h)
  have hpos : 0 < ∑ c, if Ct c < 0 then 0 else Ct c := by
    refine sum_pos' (fun l _ => ?_) ⟨c, mem_univ _, ?_⟩
    · split
      · exact le_rfl
      · rename_i hl; exact not_lt.mp hl
    · rw [if_neg (not_lt.mpr hc.le)]; exact hc
  unfold removeNegatives
  rw [if_pos hex]
  beta_reduce
  rw [if_neg (not_lt.mpr hc.le), if_pos hpos.ne']
  refine mul_neg_of_pos_of_neg hc ?_
  have : (1 : K) + (∑ c, if Ct c < 0 then Ct c else 0) / (∑ c, if Ct c < 0 then 0 else Ct c)
      = (∑ c, Ct c) / (∑ c, if Ct c < 0 then 0 else Ct c) := by
    rw [← h1]; field_simp; ring
  rw [this]
  exact div_neg_of_neg_of_pos h hpos

example : (∀ c, 0 ≤ removeNegatives (![-1, 2, 0, 3] : Fin 4 → ℚ) c) ∧
    ∑ c, removeNegatives (![-1, 2, 0, 3] : Fin 4 → ℚ) c = 4 := by
  have := C47_conserves (![-1, 2, 0, 3] : Fin 4 → ℚ) (by norm_num [Fin.sum_univ_succ])
  refine ⟨this.1, this.2.trans (by norm_num [Fin.sum_univ_succ])⟩

/-! ### C81 -/

/-- Induction over a loop that may raise. -/
theorem foldlM_inv {α β E : Type*} (f : β → α → Except E β) (P : ℕ → β → Prop) (l : List α)
    (k : ℕ) (b b' : β) (h0 : P k b)
    (hs : ∀ m (hm : m < l.length) b b', P (k + m) b → f b l[m] = .ok b' → P (k + m + 1) b')
    (hr : l.foldlM f b = .ok b') : P (k + l.length) b' := by
  induction l generalizing k b with
  | nil =>
    simp only [List.foldlM_nil] at hr
    cases hr; simpa using h0
  | cons a l ih =>
    rw [List.foldlM_cons] at hr
    cases hfa : f b a with
    | error e => rw [hfa] at hr; cases hr
    | ok b1 =>
      rw [hfa] at hr
      have h1 : P (k + 1) b1 := by
        have := hs 0 (by simp) b b1 (by simpa using h0) (by simpa using hfa)
        simpa using this
      have := ih (k + 1) b1 h1 (fun m hm b b' hb hf => by
        have := hs (m + 1) (by simpa using hm) b b' (by rw [show k + (m + 1) = k + 1 + m by omega]; exact hb)
          (by simpa using hf)
        rw [show k + 1 + m + 1 = k + (m + 1) + 1 by omega]; exact this) hr
      rw [List.length_cons, show k + (l.length + 1) = k + 1 + l.length by omega]
      exact this

/-- Assumptions on one call of the solver: positive time scales, non-negative error tolerance,
equilibrium concentrations and masses, and a linear solver whose solutions for non-negative weights
(after removal of tiny negative values) have a non-negative total. -/
structure SolveOk (s : SolveIn K ι nf) : Prop where
  T : 0 < s.T
  dt : 0 < s.dt
  err : 0 ≤ s.maxError
  Cu : ∀ c k, 0 ≤ s.Cu c k
  mass : ∀ c k, 0 ≤ s.mass c k
  lin : ∀ i w, (∀ c, 0 ≤ w c) → 0 ≤ ∑ c, preventTinyNegatives s.maxError 0 (s.lin i w c)

theorem concentrations_nonneg (s : SolveIn K ι nf) (h : SolveOk s) (i : Fin nf) (w : ι → K)
    (hw : ∀ c, 0 ≤ w c) (c : ι) : 0 ≤ concentrations (s.frac i) (s.lin i) w c :=
  removeNegatives_nonneg _ (h.lin i w hw) c

/-- One fraction of the loop. -/
theorem fractionStep_facts (s : SolveIn K ι nf) (h : SolveOk s) (o o' : SolveOut K ι nf) (i : Fin nf)
    (h0 : ∀ c k, 0 ≤ o.w c k) (h1 : ∀ c, (∑ l : Fin nf, if (l : ℕ) < i then o.w c l else 0) ≤ 1)
    (hr : fractionStep s o i = .ok o') :
    (∀ c k, 0 ≤ o'.w c k) ∧ (∀ c, ∑ l, o'.w c l ≤ 1) ∧ (∀ c, 0 ≤ o'.Ct c i) ∧
    (o'.conv i = true → ∀ c, o'.pickup c i ≤ s.mass c i) ∧
    (∀ k, k ≠ i → (∀ c, o'.Ct c k = o.Ct c k ∧ o'.pickup c k = o.pickup c k) ∧ o'.conv k = o.conv k) := by
  have hn : 0 < nf := Fin.pos i
  unfold fractionStep at hr
  simp only at hr
  cases hL : fractionLoop (s.frac i) (s.lin i) s.maxIter (fun c => renormalizeWeights i (o.w c) i) with
  | error e => rw [hL] at hr; cases hr
  | ok r =>
    rw [hL] at hr
    cases hr
    have hw0 : ∀ c k, 0 ≤ renormalizeWeights i (o.w c) k := fun c k =>
      C45_nonneg i (o.w c) (h0 c) (h1 c) k
    have hw := fractionLoop_weights (s.frac i) (s.lin i) s.maxIter _ r hL h.T h.dt h.err
      (fun c => h.Cu c i) (fun c => h.mass c i) (fun w hw c => concentrations_nonneg s h i w hw c)
      (fun c => hw0 c i)
    obtain ⟨hp, _, _, _⟩ := fractionLoop_spec _ _ _ _ _ hL
    refine ⟨fun c k => ?_, fun c => ?_, fun c => ?_, fun hcv c => ?_, fun k hk => ⟨fun c => ?_, ?_⟩⟩
    · by_cases hk : k = i
      · subst hk; simpa using (hw c).1
      · simpa [Function.update_of_ne hk] using hw0 c k
    · rw [← C45_sum_one i (o.w c) hn]
      refine sum_le_sum fun l _ => ?_
      by_cases hk : l = i
      · subst hk; simpa using (hw c).2.1
      · simp [Function.update_of_ne hk]
    · simp only [Function.update_self]
      exact (hw c).2.2
    · simp only [Function.update_self] at hcv ⊢
      exact hp hcv c
    · simp [Function.update_of_ne hk]
    · simp [Function.update_of_ne hk]

/-- C81: one call of the solver for any number of fractions, cells and iterations, starting from
non-negative weights: the final weights of every cell are non-negative and sum to at most one, all
concentrations are non-negative, and no fraction whose iteration converged is picked up beyond what the
top layer holds. -/
theorem C81_solve (s : SolveIn K ι nf) (h : SolveOk s) (Ct0 p0 w0 : ι → Fin nf → K)
    (hw0 : ∀ c k, 0 ≤ w0 c k) (hn : 0 < nf) (o : SolveOut K ι nf)
    (hr : solve s Ct0 p0 w0 = .ok o) :
    (∀ c k, 0 ≤ o.w c k) ∧ (∀ c, ∑ k, o.w c k ≤ 1) ∧ (∀ c k, 0 ≤ o.Ct c k) ∧
    (∀ k, o.conv k = true → ∀ c, o.pickup c k ≤ s.mass c k) := by
  have key := foldlM_inv (fractionStep s)
    (fun m o => (∀ c k, 0 ≤ o.w c k) ∧ (0 < m → ∀ c, ∑ k, o.w c k ≤ 1) ∧
      (∀ k : Fin nf, (k : ℕ) < m → (∀ c, 0 ≤ o.Ct c k) ∧
        (o.conv k = true → ∀ c, o.pickup c k ≤ s.mass c k)))
    (List.finRange nf) 0 ⟨Ct0, p0, w0, fun _ => false⟩ o
    ⟨hw0, by omega, fun k hk => by omega⟩ ?_ hr
  · simp only [List.length_finRange, Nat.zero_add] at key
    exact ⟨key.1, key.2.1 hn, fun c k => (key.2.2 k k.2).1 c, fun k => (key.2.2 k k.2).2⟩
  · intro m hm b b' hb hf
    simp only [List.length_finRange] at hm
    rw [List.getElem_finRange, Nat.zero_add] at *
    obtain ⟨b1, b2, b3⟩ := hb
    have hpre : ∀ c, (∑ l : Fin nf, if (l : ℕ) < m then b.w c l else 0) ≤ 1 := by
      intro c
      rcases Nat.eq_zero_or_pos m with h0 | h0
      · subst h0; simp
      · refine le_trans (sum_le_sum fun l _ => ?_) (b2 h0 c)
        split
        · exact le_rfl
        · exact b1 c l
    obtain ⟨c1, c2, c3, c4, c5⟩ := fractionStep_facts s h b b' ⟨m, hm⟩ b1 hpre (by simpa using hf)
    refine ⟨c1, fun _ => c2, fun k hk => ?_⟩
    by_cases hkm : k = ⟨m, hm⟩
    · subst hkm; exact ⟨c3, c4⟩
    · have hlt : (k : ℕ) < m := by
        rcases Nat.lt_or_ge (k : ℕ) m with h | h
        · exact h
        · exact absurd (Fin.ext (show (k : ℕ) = m by omega)) hkm
      obtain ⟨d1, d2⟩ := c5 k hkm
      obtain ⟨e1, e2⟩ := b3 k hlt
      refine ⟨fun c => ?_, fun hcv c => ?_⟩
      · rw [(d1 c).1]; exact e1 c
      · rw [(d1 c).2]; exact e2 (by rw [← d2]; exact hcv) c

/-- C81: with at least one iteration the solver always returns. -/
theorem C81_total (s : SolveIn K ι nf) (hi : 1 ≤ s.maxIter) (Ct0 p0 w0 : ι → Fin nf → K) :
    ∃ o, solve s Ct0 p0 w0 = .ok o := by
  unfold solve
  obtain ⟨n, hn⟩ : ∃ n, s.maxIter = n + 1 := ⟨s.maxIter - 1, by omega⟩
  have step : ∀ o i, ∃ o', fractionStep s o i = .ok o' := by
    intro o i
    unfold fractionStep
    simp only
    obtain ⟨r, hr⟩ := C46_total (s.frac i) (s.lin i) n (fun c => renormalizeWeights i (o.w c) i)
    rw [hn, hr]
    exact ⟨_, rfl⟩
  generalize (⟨Ct0, p0, w0, fun _ => false⟩ : SolveOut K ι nf) = o
  generalize List.finRange nf = l
  induction l generalizing o with
  | nil => exact ⟨o, rfl⟩
  | cons a l ih =>
    obtain ⟨o1, h1⟩ := step o a
    obtain ⟨o2, h2⟩ := ih o1
    refine ⟨o2, ?_⟩
    rw [List.foldlM_cons, h1]
    exact h2

/-- A case with two fractions and two cells. -/
def exSolve : SolveIn ℚ (Fin 2) 2 :=
  ⟨1, 1, 0, 10, fun _ _ => 1, fun c k => if c = 0 ∧ k = 0 then 1/4 else 10, fun _ w c => w c / 2⟩

example : ∃ o, solve exSolve (fun _ _ => 0) (fun _ _ => 0) (fun _ _ => 1/2) = .ok o ∧
    ∀ c, ∑ k, o.w c k ≤ 1 := by
  obtain ⟨o, ho⟩ := C81_total exSolve (by norm_num [exSolve]) (fun _ _ => 0) (fun _ _ => 0)
    (fun _ _ => 1/2)
  have hs : SolveOk exSolve := by
    refine ⟨by norm_num [exSolve], by norm_num [exSolve], by norm_num [exSolve], ?_, ?_, ?_⟩
    · intro c k; norm_num [exSolve]
    · intro c k; simp only [exSolve]; split <;> norm_num
    · intro i w hw
      refine sum_nonneg fun c _ => ?_
      have h := div_nonneg (hw c) (by norm_num : (0 : ℚ) ≤ 2)
      have e : ∀ x : ℚ, 0 ≤ x → 0 ≤ preventTinyNegatives exSolve.maxError 0 x := by
        intro x hx; unfold preventTinyNegatives; split
        · exact le_rfl
        · exact hx
      exact e _ h
  exact ⟨o, ho, (C81_solve exSolve hs _ _ _ (fun _ _ => by norm_num) (by norm_num) o ho).2.1⟩

end Aeolis.Props
