import Verif.Props.SolverBound

/-!
What the loop over the fractions returns: the weights with which the last linear system of each fraction was solved.
-/

set_option linter.unusedSectionVars false

namespace Aeolis.Props

open Finset Aeolis.Solver

variable {K : Type*} [Field K] [LinearOrder K] [IsStrictOrderedRing K] {ι : Type*} [Fintype ι] {nf : ℕ}

theorem loop_trace (f : FracIn K ι) (lin : (ι → K) → ι → K) (n : ℕ) (w : ι → K) (r : FracOut K ι) (h : fractionLoop f lin n w = .ok r) :
    ∃ W : ι → K, ∀ c, r.Ct c = concentrations f lin W c ∧
      (r.pickup c = pickupOf f r.Ct W c ∨ r.pickup c = min (pickupOf f r.Ct W c) (f.mass c)) ∧
      (r.w c = W c ∨ f.mass c + f.maxError < r.pickup c) := by
  induction n generalizing w with
  | zero => cases h
  | succ n ih =>
    unfold fractionLoop at h
    simp only at h
    split_ifs at h with h1 h2
    · rw [← Except.ok.inj h]
      refine ⟨w, fun c => ⟨rfl, Or.inl rfl, ?_⟩⟩
      by_cases hd : inDeficit f (concentrations f lin w) w c
      · right
        have := hd.1
        simp only
        linarith
      · left
        simp only
        unfold correctWeights
        rw [if_neg hd]
    · exact ih _ h
    · rw [← Except.ok.inj h]
      exact ⟨w, fun c => ⟨rfl, Or.inr rfl, Or.inl rfl⟩⟩

theorem solve_trace (s : SolveIn K ι nf) (Ct0 p0 w0 : ι → Fin nf → K) (o : SolveOut K ι nf) (hr : solve s Ct0 p0 w0 = .ok o) (k : Fin nf) :
    ∃ W : ι → K, ∀ c, o.Ct c k = concentrations (s.frac k) (s.lin k) W c ∧
      (o.pickup c k = (W c * s.Cu c k - o.Ct c k) / s.T * s.dt ∨
        o.pickup c k = min ((W c * s.Cu c k - o.Ct c k) / s.T * s.dt) (s.mass c k)) ∧
      ((k : ℕ) + 1 = nf → o.w c k = W c ∨ s.mass c k + s.maxError < o.pickup c k) := by
  have key := foldlM_inv (fractionStep s)
    (fun m o => ∀ k : Fin nf, (k : ℕ) < m → ∃ W : ι → K, ∀ c, o.Ct c k = concentrations (s.frac k) (s.lin k) W c ∧
      (o.pickup c k = (W c * s.Cu c k - o.Ct c k) / s.T * s.dt ∨
        o.pickup c k = min ((W c * s.Cu c k - o.Ct c k) / s.T * s.dt) (s.mass c k)) ∧
      ((k : ℕ) + 1 = m → o.w c k = W c ∨ s.mass c k + s.maxError < o.pickup c k))
    (List.finRange nf) 0 ⟨Ct0, p0, w0, fun _ => false⟩ o (fun k hk => by omega) ?_ hr
  · simp only [List.length_finRange, Nat.zero_add] at key
    exact key k k.2
  · intro m hm b b' hb hf
    simp only [List.length_finRange] at hm
    rw [List.getElem_finRange, Nat.zero_add] at *
    have hf' : fractionStep s b ⟨m, hm⟩ = .ok b' := by simpa using hf
    intro k hk
    unfold fractionStep at hf'
    simp only at hf'
    cases hL : fractionLoop (s.frac ⟨m, hm⟩) (s.lin ⟨m, hm⟩) s.maxIter (fun c => renormalizeWeights m (b.w c) ⟨m, hm⟩) with
    | error e => rw [hL] at hf'; cases hf'
    | ok r =>
      rw [hL] at hf'
      cases hf'
      by_cases hkm : k = ⟨m, hm⟩
      · subst hkm
        obtain ⟨W, hW⟩ := loop_trace _ _ _ _ _ hL
        refine ⟨W, fun c => ?_⟩
        obtain ⟨a1, a2, a3⟩ := hW c
        simp only [Function.update_self]
        exact ⟨a1, a2, fun _ => a3⟩
      · have hlt : (k : ℕ) < m := by
          rcases Nat.lt_or_ge (k : ℕ) m with h | h
          · exact h
          · exact absurd (Fin.ext (show (k : ℕ) = m by omega)) hkm
        obtain ⟨W, hW⟩ := hb k hlt
        refine ⟨W, fun c => ?_⟩
        obtain ⟨a1, a2, a3⟩ := hW c
        simp only [Function.update_of_ne hkm]
        exact ⟨a1, a2, fun h => by omega⟩

/-- Weights that add up to one are not changed. -/
theorem renormalize_id (ix : ℕ) (w : Fin nf → K) (h0 : ∀ k, 0 ≤ w k) (h1 : ∑ k, w k = 1) : renormalizeWeights ix w = w := by
  have hs := sum_split ix w
  by_cases ht : (∑ l : Fin nf, if ix ≤ (l : ℕ) then w l else 0) = 0
  · have hz : ∀ l : Fin nf, ix ≤ (l : ℕ) → w l = 0 := by
      intro l hl
      have := (sum_eq_zero_iff_of_nonneg (fun l _ => by split; exact h0 l; exact le_rfl)).mp ht l (mem_univ l)
      rwa [if_pos hl] at this
    have hraw : renormRaw ix w = w := by
      funext k
      unfold renormRaw
      split_ifs with hk
      · have : 1 - ∑ l : Fin nf, (if (l : ℕ) < ix then w l else 0) = 0 := by rw [← h1, ← hs, ht]; ring
        rw [this, mul_zero, hz k hk]
      · rfl
    rw [renormalizeWeights_eq, hraw]
    exact normalize_of_sum_one _ _ h1
  · rw [renormalize_eq_raw ix w ht]
    funext k
    unfold renormRaw normalizeTail
    simp only
    split_ifs with hk
    · have : 1 - ∑ l : Fin nf, (if (l : ℕ) < ix then w l else 0) = ∑ l : Fin nf, if ix ≤ (l : ℕ) then w l else 0 := by rw [← h1, ← hs]; ring
      rw [this]
      field_simp
    · rfl

/-- With plenty of sand of every fraction the weights are not changed, and the pickup is what the weights demand. -/
theorem solve_plenty (s : SolveIn K ι nf) (h : SolveOk s) (hsup : ∀ c k, s.Cu c k / s.T * s.dt ≤ s.mass c k)
    (Ct0 p0 w0 : ι → Fin nf → K) (hw0 : ∀ c k, 0 ≤ w0 c k) (hw1 : ∀ c, ∑ k, w0 c k = 1) (o : SolveOut K ι nf)
    (hr : solve s Ct0 p0 w0 = .ok o) :
    o.w = w0 ∧ ∀ k c, o.Ct c k = concentrations (s.frac k) (s.lin k) (fun c => w0 c k) c ∧
      o.pickup c k = (w0 c k * s.Cu c k - o.Ct c k) / s.T * s.dt := by
  have key := foldlM_inv (fractionStep s)
    (fun m o => o.w = w0 ∧ ∀ k : Fin nf, (k : ℕ) < m → ∀ c, o.Ct c k = concentrations (s.frac k) (s.lin k) (fun c => w0 c k) c ∧
      o.pickup c k = (w0 c k * s.Cu c k - o.Ct c k) / s.T * s.dt)
    (List.finRange nf) 0 ⟨Ct0, p0, w0, fun _ => false⟩ o ⟨rfl, fun k hk => by omega⟩ ?_ hr
  · simp only [List.length_finRange, Nat.zero_add] at key
    exact ⟨key.1, fun k => key.2 k k.2⟩
  · intro m hm b b' hb hf
    simp only [List.length_finRange] at hm
    rw [List.getElem_finRange, Nat.zero_add] at *
    have hf' : fractionStep s b ⟨m, hm⟩ = .ok b' := by simpa using hf
    obtain ⟨hw, hb⟩ := hb
    unfold fractionStep at hf'
    simp only at hf'
    have hren : ∀ c, renormalizeWeights m (b.w c) = w0 c := fun c => by rw [hw]; exact renormalize_id m (w0 c) (hw0 c) (hw1 c)
    simp only [hren] at hf'
    have hle : ∀ c k, w0 c k ≤ 1 := fun c k => by
      rw [← hw1 c]
      exact single_le_sum (fun l _ => hw0 c l) (mem_univ k)
    have hc := concentrations_nonneg s h ⟨m, hm⟩ (fun c => w0 c ⟨m, hm⟩) fun c => hw0 c _
    have hp : ∀ c, (w0 c ⟨m, hm⟩ * s.Cu c ⟨m, hm⟩ - concentrations (s.frac ⟨m, hm⟩) (s.lin ⟨m, hm⟩) (fun c => w0 c ⟨m, hm⟩) c) / s.T * s.dt ≤
        s.mass c ⟨m, hm⟩ := by
      intro c
      refine le_trans ?_ (hsup c ⟨m, hm⟩)
      refine mul_le_mul_of_nonneg_right (div_le_div_of_nonneg_right ?_ h.T.le) h.dt.le
      have := hc c
      have := mul_le_mul_of_nonneg_right (hle c ⟨m, hm⟩) (h.Cu c ⟨m, hm⟩)
      linarith
    have hL : ∀ n, fractionLoop (s.frac ⟨m, hm⟩) (s.lin ⟨m, hm⟩) (n + 1) (fun c => w0 c ⟨m, hm⟩) =
        .ok ⟨concentrations (s.frac ⟨m, hm⟩) (s.lin ⟨m, hm⟩) (fun c => w0 c ⟨m, hm⟩), fun c => (w0 c ⟨m, hm⟩ * s.Cu c ⟨m, hm⟩ -
          concentrations (s.frac ⟨m, hm⟩) (s.lin ⟨m, hm⟩) (fun c => w0 c ⟨m, hm⟩) c) / s.T * s.dt, fun c => w0 c ⟨m, hm⟩, true⟩ := by
      intro n
      unfold fractionLoop
      simp only
      rw [if_neg]
      · congr 2
        funext c
        exact min_eq_left (hp c)
      · rintro ⟨c, hd⟩
        have h1 : s.maxError < _ - s.mass c ⟨m, hm⟩ := hd.1
        have h2 := h.err
        have h3 := hp c
        unfold pickupOf at h1
        simp only [SolveIn.frac] at h1 h3
        linarith
    match hn : s.maxIter with
    | 0 => rw [hn] at hf'; cases hf'
    | n + 1 =>
      rw [hn, hL n] at hf'
      cases hf'
      refine ⟨?_, fun k hk c => ?_⟩
      · funext c
        simp only [Function.update_eq_self]
      · by_cases hkm : k = ⟨m, hm⟩
        · subst hkm
          simp only [Function.update_self, and_self]
        · have hlt : (k : ℕ) < m := by
            rcases Nat.lt_or_ge (k : ℕ) m with h | h
            · exact h
            · exact absurd (Fin.ext (show (k : ℕ) = m by omega)) hkm
          simp only [Function.update_of_ne hkm]
          exact hb k hlt c

end Aeolis.Props
