import Verif.Spec.Sand
import Verif.Props.Weights
import Verif.Props.Bed
import Verif.Proofs.SolverBudgetAny

/-! Lemmas about the exchange of sand between bed and air. -/

set_option linter.unusedSectionVars false

namespace Aeolis.Sand

open Aeolis.Solver Finset Aeolis.Props

variable {K : Type*} [Field K] [LinearOrder K] [IsStrictOrderedRing K]

section
variable {ι : Type*} [Fintype ι] {nf : ℕ}

theorem concentrations_eq (f : FracIn K ι) (lin : (ι → K) → ι → K) (w : ι → K) (h : ∀ c, 0 ≤ lin w c) :
    concentrations f lin w = lin w := by
  have : (fun c => preventTinyNegatives f.maxError 0 (lin w c)) = lin w := by
    funext c
    unfold preventTinyNegatives
    rw [if_neg]
    rintro ⟨h1, _⟩
    exact absurd h1 (not_lt.mpr (h c))
  unfold concentrations
  rw [this]
  unfold removeNegatives
  rw [if_neg]
  rintro ⟨c, hc⟩
  exact absurd hc (not_lt.mpr (h c))

/-- Whether or not the iteration of a fraction converges, its concentrations solve the system with some weights and the pickup is
the exchange with the bed for those weights, to within the tolerance. -/
theorem fractionLoop_balance (f : FracIn K ι) (lin : (ι → K) → ι → K) (n : ℕ) (w : ι → K) (r : FracOut K ι)
    (hr : fractionLoop f lin n w = .ok r) (hT : 0 < f.T) (hdt : 0 < f.dt) (he : 0 ≤ f.maxError) (hCu : ∀ c, 0 ≤ f.Cu c)
    (hm : ∀ c, 0 ≤ f.mass c) (hl : ∀ w, (∀ c, 0 ≤ w c) → ∀ c, 0 ≤ lin w c) (hw : ∀ c, 0 ≤ w c) :
    ∃ W : ι → K, (∀ c, 0 ≤ W c) ∧ r.Ct = lin W ∧
      ∀ c, 0 ≤ pickupOf f r.Ct W c - r.pickup c ∧ pickupOf f r.Ct W c - r.pickup c ≤ f.maxError := by
  induction n generalizing w with
  | zero => simp [fractionLoop] at hr
  | succ n ih =>
    have hc := concentrations_eq f lin w (hl w hw)
    unfold fractionLoop at hr
    simp only at hr
    split at hr
    · split at hr
      · cases hr
        exact ⟨w, hw, hc, fun c => by simp only [sub_self]; exact ⟨le_rfl, he⟩⟩
      · refine ih _ hr fun c => correct_nonneg f _ w c hT hdt (hm c) ?_ (hCu c) (hw c)
        rw [hc]; exact hl w hw c
    · rename_i hex
      cases hr
      refine ⟨w, hw, hc, fun c => ⟨by simp only; linarith [min_le_left (pickupOf f (concentrations f lin w) w c) (f.mass c)], ?_⟩⟩
      simp only
      rcases min_cases (pickupOf f (concentrations f lin w) w c) (f.mass c) with h | h
      · rw [h.1]; linarith
      · rw [h.1]
        by_contra hlt
        push Not at hlt
        refine hex ⟨c, hlt, ?_⟩
        by_contra hp
        push Not at hp
        have : pickupOf f (concentrations f lin w) w c ≤ 0 := by
          unfold pickupOf
          have h0 : 0 ≤ concentrations f lin w c := by rw [hc]; exact hl w hw c
          exact mul_nonpos_of_nonpos_of_nonneg (div_nonpos_of_nonpos_of_nonneg (by linarith) hT.le) hdt.le
        linarith [hm c, h.2]

/-- The same for the loop over the fractions. -/
theorem solve_balance (s : SolveIn K ι nf) (hT : 0 < s.T) (hdt : 0 < s.dt) (he : 0 ≤ s.maxError) (hCu : ∀ c f, 0 ≤ s.Cu c f)
    (hm : ∀ c f, 0 ≤ s.mass c f) (hl : ∀ f w, (∀ c, 0 ≤ w c) → ∀ c, 0 ≤ s.lin f w c) (Ct0 p0 w0 : ι → Fin nf → K)
    (hw0 : ∀ c k, 0 ≤ w0 c k) (o : SolveOut K ι nf) (hr : solve s Ct0 p0 w0 = .ok o) (k : Fin nf) :
    ∃ W : ι → K, (∀ c, 0 ≤ W c) ∧ (fun c => o.Ct c k) = s.lin k W ∧
      ∀ c, 0 ≤ pickupOf (s.frac k) (fun c => o.Ct c k) W c - o.pickup c k ∧
        pickupOf (s.frac k) (fun c => o.Ct c k) W c - o.pickup c k ≤ s.maxError := by
  have hok : SolveOk s := ⟨hT, hdt, he, hCu, hm, fun i w hw => sum_nonneg fun c _ => by
    have h0 := hl i w hw c
    unfold preventTinyNegatives
    split
    · exact le_rfl
    · exact h0⟩
  have key := foldlM_inv (fractionStep s)
    (fun m o => (∀ c k, 0 ≤ o.w c k) ∧ (0 < m → ∀ c, ∑ k, o.w c k ≤ 1) ∧
      (∀ k : Fin nf, (k : ℕ) < m → ∃ W : ι → K, (∀ c, 0 ≤ W c) ∧ (fun c => o.Ct c k) = s.lin k W ∧
        ∀ c, 0 ≤ pickupOf (s.frac k) (fun c => o.Ct c k) W c - o.pickup c k ∧
          pickupOf (s.frac k) (fun c => o.Ct c k) W c - o.pickup c k ≤ s.maxError))
    (List.finRange nf) 0 ⟨Ct0, p0, w0, fun _ => false⟩ o
    ⟨hw0, by omega, fun k hk => by omega⟩ ?_ hr
  · simp only [List.length_finRange, Nat.zero_add] at key
    exact key.2.2 k k.2
  · intro m hm' b b' hb hf
    simp only [List.length_finRange] at hm'
    rw [List.getElem_finRange, Nat.zero_add] at *
    obtain ⟨b1, b2, b3⟩ := hb
    have hpre : ∀ c, (∑ l : Fin nf, if (l : ℕ) < m then b.w c l else 0) ≤ 1 := by
      intro c
      rcases Nat.eq_zero_or_pos m with h0 | h0
      · subst h0; simp
      · refine le_trans (sum_le_sum fun l _ => ?_) (b2 h0 c)
        split
        · exact le_rfl
        · exact b1 c l
    have hf' : fractionStep s b ⟨m, hm'⟩ = .ok b' := by simpa using hf
    obtain ⟨c1, c2, _, _, c5⟩ := fractionStep_facts s hok b b' ⟨m, hm'⟩ b1 hpre hf'
    refine ⟨c1, fun _ => c2, fun k hk => ?_⟩
    by_cases hkm : k = ⟨m, hm'⟩
    · subst hkm
      unfold fractionStep at hf'
      simp only at hf'
      cases hL : fractionLoop (s.frac ⟨m, hm'⟩) (s.lin ⟨m, hm'⟩) s.maxIter
          (fun c => renormalizeWeights m (b.w c) ⟨m, hm'⟩) with
      | error e => rw [hL] at hf'; cases hf'
      | ok r =>
        rw [hL] at hf'
        cases hf'
        obtain ⟨W, h1, h2, h3⟩ := fractionLoop_balance (s.frac ⟨m, hm'⟩) (s.lin ⟨m, hm'⟩) s.maxIter _ r hL hT hdt he
          (fun c => hCu c _) (fun c => hm c _) (hl _) (fun c => C45_nonneg m (b.w c) (b1 c) (hpre c) _)
        refine ⟨W, h1, ?_, fun c => ?_⟩
        · simp only [Function.update_self]; exact h2
        · simp only [Function.update_self]; exact h3 c
    · have hne : (k : ℕ) ≠ m := fun h => hkm (Fin.ext h)
      obtain ⟨W, h1, h2, h3⟩ := b3 k (by omega)
      have hCt : (fun c => b'.Ct c k) = fun c => b.Ct c k := funext fun c => ((c5 k hkm).1 c).1
      refine ⟨W, h1, by rw [hCt]; exact h2, fun c => ?_⟩
      rw [hCt, ((c5 k hkm).1 c).2]
      exact h3 c

end

/-! ### Vectors on the grid -/

variable {nx ny nf : ℕ}

theorem onGrid_sub (X Y : Fin (cells nx ny) → K) (i j : ℕ) : onGrid (fun c => X c - Y c) i j = onGrid X i j - onGrid Y i j := by
  unfold onGrid; split
  · rfl
  · rw [sub_zero]

theorem onGrid_sum (X : Fin (cells nx ny) → Fin nf → K) (i j : ℕ) :
    onGrid (fun c => ∑ f, X c f) i j = ∑ f, onGrid (fun c => X c f) i j := by
  unfold onGrid; split
  · rfl
  · rw [sum_const_zero]

theorem onGrid_div (X : Fin (cells nx ny) → K) (k : K) (i j : ℕ) : onGrid (fun c => X c / k) i j = onGrid X i j / k := by
  unfold onGrid; split
  · rfl
  · rw [zero_div]

theorem onGrid_between (X : Fin (cells nx ny) → K) (m : K) (h0 : ∀ c, 0 ≤ X c) (h1 : ∀ c, X c ≤ m) (hm : 0 ≤ m) (i j : ℕ) :
    0 ≤ onGrid X i j ∧ onGrid X i j ≤ m := by
  unfold onGrid; split
  · exact ⟨h0 _, h1 _⟩
  · exact ⟨le_rfl, hm⟩

theorem onGrid_pickup (f : FracIn K (Fin (cells nx ny))) (Ct W : Fin (cells nx ny) → K) (i j : ℕ) :
    onGrid (pickupOf f Ct W) i j = (onGrid W i j * onGrid f.Cu i j - onGrid Ct i j) / f.T * f.dt := by
  unfold onGrid; split
  · rfl
  · simp

/-! ### Budget of one fraction -/

theorem fraction_budget (D : Domain K) (σ : State K D.nx D.ny nf) (t : Step K D.nx D.ny nf) (h : t.Fits D σ) (f : Fin nf)
    (W : Fin (cells D.nx D.ny) → K) (hW : ∀ c, 0 ≤ W c) :
    ∑ i ∈ range (D.ny + 1), ∑ j ∈ Ico 1 D.nx, D.ds i j * D.dn i j * onGrid (t.solver.lin f W) i j =
      ∑ i ∈ range (D.ny + 1), ∑ j ∈ Ico 1 D.nx, D.ds i j * D.dn i j * onGrid (fun c => σ.Ct c f) i j
      + ∑ i ∈ range (D.ny + 1), ∑ j ∈ Ico 1 D.nx, D.ds i j * D.dn i j *
          onGrid (pickupOf (t.solver.frac f) (t.solver.lin f W) W) i j
      + supply (t.sys f) (onGrid (t.solver.lin f W)) := by
  obtain ⟨hs, _⟩ := h.lin f W hW
  set v : Rhs K := { t.rhs f with w := onGrid W } with hv
  set x := onGrid (t.solver.lin f W) with hx
  have hb := budget_any (t.sys f) t.bounds t.bc v x (h.flow f) hs
  have hmid : midway (t.sys f) v x = x := by
    funext i j; unfold midway; rw [h.alpha f]; ring
  have hacross : ∑ j ∈ Ico 1 (t.sys f).nx, ∑ i ∈ range ((t.sys f).ny + 1), area (t.sys f) i j * acrossAny (t.sys f) t.bc v x i j =
      (t.sys f).dt * aside (t.sys f) x := by
    rcases h.side f with hy | ⟨hy, h1, h2, h3⟩
    · unfold aside
      rw [if_pos hy, mul_sum]
      refine sum_congr rfl fun j hj => ?_
      rw [mem_Ico] at hj
      rw [hy, zero_add, sum_range_one, across_transect _ _ _ _ (h.flow f) hy hj.2, h.alpha f]
      ring
    · unfold aside
      rw [if_neg (by omega), mul_zero]
      refine sum_eq_zero fun j hj => ?_
      rw [mem_Ico] at hj
      exact across_uniform _ _ _ _ (h.flow f) hy h1 h2 h3 hj.1 hj.2
  rw [hacross, hmid] at hb
  have hup : ∀ i j, uptakeOf (t.sys f) v x i j = onGrid (pickupOf (t.solver.frac f) (t.solver.lin f W) W) i j := by
    intro i j
    have e1 : v.Cuf i j = v.Cu i j := by rw [hv]; exact congrFun (congrFun (h.Cuf f) i) j
    have e2 : v.Cu i j = onGrid (fun c => t.solver.Cu c f) i j := h.Cu f i j
    rw [onGrid_pickup]
    unfold uptakeOf equilibrium
    rw [hmid, e1, e2, h.alpha f, h.T f, h.dt f]
    show _ = (onGrid W i j * onGrid (fun c => t.solver.Cu c f) i j - x i j) / t.solver.T * t.solver.dt
    ring
  unfold inner area at hb
  rw [h.nx f, h.ny f, h.ds f, h.dn f] at hb
  have hl : ∀ i j, v.lCt i j = onGrid (fun c => σ.Ct c f) i j := h.lCt f
  simp only [hup, hl] at hb
  rw [hb]
  unfold supply
  rw [h.nx f, h.ny f, h.dn f]
  ring

end Aeolis.Sand
