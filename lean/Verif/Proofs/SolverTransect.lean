import Verif.Proofs.SolverSolution
import Mathlib.Tactic.LinearCombination

/-!
Solutions of the assembled system on transects with transport in any direction.
-/

set_option linter.unusedSectionVars false

namespace Aeolis.Solver

open Finset

variable {K : Type*} [Field K] [LinearOrder K] [IsStrictOrderedRing K]

/-- If every cell depends on its upwind neighbour only and the ends are zero where they are upwind, all cells are zero. -/
theorem upwind_zero (n : ℕ) (u c D x : ℕ → K) (hc : ∀ j, 1 ≤ j → j < n → 0 ≤ c j) (hD : ∀ j, 1 ≤ j → j < n → 1 + c j * |u j| ≤ D j)
    (he : ∀ j, 1 ≤ j → j < n → D j * x j = if 0 ≤ u j then c j * u (j - 1) * x (j - 1) else -(c j * u (j + 1) * x (j + 1)))
    (h0 : x 0 = 0) (hn : x n = 0 ∨ 0 ≤ u (n - 1)) : ∀ j < n, x j = 0 := by
  have hpos : ∀ j, 1 ≤ j → j < n → 0 < D j := fun j h1 h2 => by
    have := mul_nonneg (hc j h1 h2) (abs_nonneg (u j))
    linarith [hD j h1 h2]
  have left : ∀ j < n, (j = 0 ∨ 0 ≤ u j) → x j = 0 := by
    intro j
    induction j with
    | zero => exact fun _ _ => h0
    | succ k ih =>
      intro hk hu
      have hu : 0 ≤ u (k + 1) := by
        rcases hu with h | h
        · omega
        · exact h
      have e := he (k + 1) (by omega) hk
      rw [if_pos hu, Nat.add_sub_cancel] at e
      have hp := hpos (k + 1) (by omega) hk
      by_cases hk0 : k = 0 ∨ 0 ≤ u k
      · rw [ih (by omega) hk0, mul_zero] at e
        exact (mul_eq_zero.mp e).resolve_left hp.ne'
      · push Not at hk0
        obtain ⟨hk1, hk2⟩ := hk0
        have e' := he k (by omega) (by omega)
        rw [if_neg (not_le.mpr hk2)] at e'
        have hd1 := hD k (by omega) (by omega)
        have hd2 := hD (k + 1) (by omega) hk
        have hc1 := hc k (by omega) (by omega)
        have hc2 := hc (k + 1) (by omega) hk
        rw [abs_of_neg hk2] at hd1
        rw [abs_of_nonneg hu] at hd2
        have hdet : (D k * D (k + 1) - c k * -u k * (c (k + 1) * u (k + 1))) * x (k + 1) = 0 := by
          linear_combination D k * e + c (k + 1) * u k * e'
        refine (mul_eq_zero.mp hdet).resolve_left (ne_of_gt ?_)
        have a1 : 0 ≤ c k * -u k := mul_nonneg hc1 (by linarith)
        have a2 : 0 ≤ c (k + 1) * u (k + 1) := mul_nonneg hc2 hu
        have : c k * -u k * (c (k + 1) * u (k + 1)) < D k * D (k + 1) :=
          mul_lt_mul'' (by linarith) (by linarith) a1 a2
        linarith
  have right : ∀ m, ∀ j, 1 ≤ j → j + m + 1 = n → u j < 0 → x j = 0 := by
    intro m
    induction m with
    | zero =>
      intro j h1 h2 hu
      have e := he j h1 (by omega)
      rw [if_neg (not_le.mpr hu)] at e
      have hxn : x (j + 1) = 0 := by
        rw [show j + 1 = n by omega]
        refine hn.resolve_right fun h => ?_
        rw [show n - 1 = j by omega] at h
        linarith
      rw [hxn, mul_zero, neg_zero] at e
      exact (mul_eq_zero.mp e).resolve_left (hpos j h1 (by omega)).ne'
    | succ m ih =>
      intro j h1 h2 hu
      have e := he j h1 (by omega)
      rw [if_neg (not_le.mpr hu)] at e
      have hx : x (j + 1) = 0 := by
        rcases le_or_gt 0 (u (j + 1)) with h | h
        · exact left (j + 1) (by omega) (Or.inr h)
        · exact ih (j + 1) (by omega) (by omega) h
      rw [hx, mul_zero, neg_zero] at e
      exact (mul_eq_zero.mp e).resolve_left (hpos j h1 (by omega)).ne'
  intro j hj
  rcases Nat.eq_zero_or_pos j with h | h
  · exact left j hj (Or.inl h)
  · rcases le_or_gt 0 (u j) with hu | hu
    · exact left j hj (Or.inr hu)
    · exact right (n - 1 - j) j h (by omega) hu

/-- The same for values that are not negative, if the direction nowhere diverges. -/
theorem upwind_nonneg (n : ℕ) (u c D x y : ℕ → K) (hc : ∀ j, 1 ≤ j → j < n → 0 ≤ c j) (hD : ∀ j, 1 ≤ j → j < n → 0 < D j)
    (hy : ∀ j, 1 ≤ j → j < n → 0 ≤ y j)
    (he : ∀ j, 1 ≤ j → j < n → D j * x j = y j + if 0 ≤ u j then c j * u (j - 1) * x (j - 1) else -(c j * u (j + 1) * x (j + 1)))
    (hu : ∀ j < n, u j < 0 → u (j + 1) < 0) (h0 : 0 ≤ x 0) (hn : 0 ≤ x n ∨ 0 ≤ u (n - 1)) : ∀ j < n, 0 ≤ x j := by
  have left : ∀ j < n, 0 ≤ u j → 0 ≤ x j := by
    intro j
    induction j with
    | zero => exact fun _ _ => h0
    | succ k ih =>
      intro hk hk2
      have hu' : 0 ≤ u k := by
        by_contra h
        linarith [hu k (by omega) (not_le.mp h)]
      have e := he (k + 1) (by omega) hk
      rw [if_pos hk2, Nat.add_sub_cancel] at e
      have := mul_nonneg (mul_nonneg (hc (k + 1) (by omega) hk) hu') (ih (by omega) hu')
      exact nonneg_of_mul_nonneg_right (by rw [e]; linarith [hy (k + 1) (by omega) hk]) (hD (k + 1) (by omega) hk)
  have right : ∀ m, ∀ j, 1 ≤ j → j + m + 1 = n → u j < 0 → 0 ≤ x j := by
    intro m
    induction m with
    | zero =>
      intro j h1 h2 hj
      have e := he j h1 (by omega)
      rw [if_neg (not_le.mpr hj)] at e
      have hxn : 0 ≤ x (j + 1) := by
        rw [show j + 1 = n by omega]
        refine hn.resolve_right fun h => ?_
        rw [show n - 1 = j by omega] at h
        linarith
      have := mul_nonneg (mul_nonneg (hc j h1 (by omega)) (neg_nonneg.mpr (hu j (by omega) hj).le)) hxn
      exact nonneg_of_mul_nonneg_right (by rw [e]; linarith [hy j h1 (by omega)]) (hD j h1 (by omega))
    | succ m ih =>
      intro j h1 h2 hj
      have e := he j h1 (by omega)
      rw [if_neg (not_le.mpr hj)] at e
      have hx := ih (j + 1) (by omega) (by omega) (hu j (by omega) hj)
      have := mul_nonneg (mul_nonneg (hc j h1 (by omega)) (neg_nonneg.mpr (hu j (by omega) hj).le)) hx
      exact nonneg_of_mul_nonneg_right (by rw [e]; linarith [hy j h1 (by omega)]) (hD j h1 (by omega))
  intro j hj
  rcases le_or_gt 0 (u j) with h | h
  · exact left j hj h
  · rcases Nat.eq_zero_or_pos j with h' | h'
    · rw [h']
      exact h0
    · exact right (n - 1 - j) j h' (by omega) h

/-- Coefficient of the neighbours. -/
def Adv.side (a : Adv K) (j : ℕ) : K := a.facS 0 j * a.alpha

/-- Coefficient of the cell itself. -/
def Adv.diag (a : Adv K) (j : ℕ) : K := 1 + (a.facS 0 j * |a.us 0 j| + a.facN 0 j * |a.un 0 j| + a.Ti) * a.alpha

theorem transect_row (a : Adv K) (bc : BcRows K) (h : Transect a) (hl : bc.latUnit = false) (x : ℕ → ℕ → K) {j : ℕ} (h1 : 1 ≤ j)
    (h2 : j < a.nx) : a.diag j * x 0 j = (rowPart a bc x 0 j + acrossPart a bc x 0 j) +
      if 0 ≤ a.us 0 j then a.side j * a.us 0 (j - 1) * x 0 (j - 1) else -(a.side j * a.us 0 (j + 1) * x 0 (j + 1)) := by
  have hlr : ¬ a.latRow bc 0 := by
    unfold Adv.latRow
    rw [hl]
    simp
  have hy : ¬ 0 < a.ny := by rw [h.ny]; exact lt_irrefl 0
  have e0 : ¬ j = 0 := by omega
  have e1 : ¬ j = a.nx := by omega
  have habs : ∀ v : K, (2 * (if 0 ≤ v then (1 : K) else 0) - 1) * v = |v| := by
    intro v
    split
    · rw [abs_of_nonneg (by assumption)]; ring
    · rw [abs_of_neg (by linarith)]; ring
  have hs := habs (a.us 0 j)
  have hn := habs (a.un 0 j)
  unfold rowPart acrossPart Adv.A0 Adv.Am1 Adv.Ap1 Adv.Am2 Adv.Ap2 Adv.sgs Adv.sgn Adv.ixs Adv.ixn Adv.usPlus Adv.usMin Adv.diag Adv.side
  simp only [hlr, hy, e0, e1, or_self, if_false, h.beta, if_true]
  rw [← hs, ← hn]
  by_cases hu : 0 ≤ a.us 0 j
  · simp only [if_pos hu]
    ring
  · simp only [if_neg hu]
    ring

theorem transect_facS (a : Adv K) (h : Transect a) {j : ℕ} (hj : j ≤ a.nx) : 0 ≤ a.facS 0 j :=
  mul_nonneg (mul_nonneg h.dt (h.dn j hj)) (h.dsdni j hj)

theorem transect_diag (a : Adv K) (h : Transect a) {j : ℕ} (hj : j ≤ a.nx) : 1 + a.side j * |a.us 0 j| ≤ a.diag j := by
  have h1 : 0 ≤ a.facN 0 j * |a.un 0 j| := mul_nonneg (mul_nonneg (mul_nonneg h.dt (h.ds j hj)) (h.dsdni j hj)) (abs_nonneg _)
  have h2 : 0 ≤ a.Ti := div_nonneg h.dt h.T
  have := mul_nonneg (add_nonneg h1 h2) h.alpha
  unfold Adv.diag Adv.side
  linarith

theorem first_column (a : Adv K) (bc : BcRows K) (hn : 2 ≤ a.nx) (h1 : bc.offP1 0 = 0) (h2 : bc.offP2 0 = 0) (x : ℕ → ℕ → K) :
    rowPart a bc x 0 0 + acrossPart a bc x 0 0 = x 0 0 := by
  have h0 : ¬ 0 = a.nx := by omega
  unfold rowPart acrossPart Adv.A0 Adv.Am1 Adv.Ap1 Adv.Am2 Adv.Ap2 Adv.Amx Adv.Apx
  simp only [h0, h1, h2, true_or, if_true, if_false]
  split <;> split <;> simp

theorem unit_row (a : Adv K) (bc : BcRows K) (hl : bc.latUnit = true) (hy : a.ny = 0) (x : ℕ → ℕ → K) {j : ℕ} (h1 : 1 ≤ j)
    (h2 : j < a.nx) : rowPart a bc x 0 j + acrossPart a bc x 0 j = x 0 j := by
  have hlr : a.latRow bc 0 := ⟨hl, Or.inl rfl⟩
  have hy : ¬ 0 < a.ny := by rw [hy]; exact lt_irrefl 0
  have e0 : ¬ j = 0 := by omega
  have e1 : ¬ j = a.nx := by omega
  unfold rowPart acrossPart Adv.A0 Adv.Am1 Adv.Ap1 Adv.Am2 Adv.Ap2
  simp [hlr, hy, e0, e1]

/-- The cells of a transect, values prescribed where the wind comes from. -/
theorem transect_injective (a : Adv K) (bc : BcRows K) (h : Transect a)
    (A : Matrix (Fin ((a.ny + 1) * (a.nx + 1))) (Fin ((a.ny + 1) * (a.nx + 1))) K)
    (hA : a.matrix bc = .ok A) (h1 : bc.offP1 0 = 0) (h2 : bc.offP2 0 = 0)
    (hend : (bc.onM1 0 = 0 ∧ bc.onM2 0 = 0) ∨ 0 ≤ a.us 0 (a.nx - 1))
    (X : Fin ((a.ny + 1) * (a.nx + 1)) → K) (hX : A.mulVec X = 0) : X = 0 := by
  have hn := h.nx
  have row : ∀ j ≤ a.nx, rowPart a bc (gridOf a X) 0 j + acrossPart a bc (gridOf a X) 0 j = 0 := fun j hj => by
    rw [← mulVec_gridOf a bc hn A hA X (Nat.zero_le _) hj, hX]
    rfl
  have hfirst : gridOf a X 0 0 = 0 := by rw [← first_column a bc hn h1 h2 (gridOf a X)]; exact row 0 (Nat.zero_le _)
  have hz : ∀ j < a.nx, gridOf a X 0 j = 0 := by
    cases hl : bc.latUnit with
    | true =>
      intro j hj
      rcases Nat.eq_zero_or_pos j with e | e
      · rw [e]; exact hfirst
      · rw [← unit_row a bc hl h.ny (gridOf a X) e hj]; exact row j hj.le
    | false =>
      refine upwind_zero a.nx (a.us 0) a.side a.diag (gridOf a X 0) (fun j _ hj => mul_nonneg (transect_facS a h hj.le) h.alpha)
        (fun j _ hj => transect_diag a h hj.le) (fun j hj hj' => ?_) hfirst ?_
      · rw [transect_row a bc h hl (gridOf a X) hj hj', row j hj'.le, zero_add]
      · refine hend.imp_left fun e => ?_
        have := row a.nx le_rfl
        rw [last_column a bc hn, e.1, e.2] at this
        simpa using this
  funext c
  obtain ⟨i, j, hi, hj, rfl⟩ := index_cases a c
  rw [← gridOf_at a X hi hj]
  have hi0 : i = 0 := by have := h.ny; omega
  subst hi0
  rcases Nat.lt_or_ge j a.nx with hlt | hge
  · exact hz j hlt
  · obtain rfl : j = a.nx := by omega
    have := row a.nx le_rfl
    rw [last_column a bc hn, hz (a.nx - 1) (by omega), hz (a.nx - 2) (by omega)] at this
    simpa using this

theorem transect_nonneg (a : Adv K) (bc : BcRows K) (h : Transect a) (hdiv : NonDiverging a)
    (A : Matrix (Fin ((a.ny + 1) * (a.nx + 1))) (Fin ((a.ny + 1) * (a.nx + 1))) K)
    (hA : a.matrix bc = .ok A) (h1 : bc.offP1 0 = 0) (h2 : bc.offP2 0 = 0)
    (hend : bc.onM1 0 = 0 ∧ bc.onM2 0 = 0 ∨ 0 ≤ a.us 0 (a.nx - 1) ∧ bc.onM1 0 ≤ 0 ∧ bc.onM2 0 = 0)
    (X : Fin ((a.ny + 1) * (a.nx + 1)) → K) (hX : ∀ c, 0 ≤ A.mulVec X c) : ∀ c, 0 ≤ X c := by
  have hn := h.nx
  have row : ∀ j ≤ a.nx, 0 ≤ rowPart a bc (gridOf a X) 0 j + acrossPart a bc (gridOf a X) 0 j := fun j hj => by
    rw [← mulVec_gridOf a bc hn A hA X (Nat.zero_le _) hj]
    exact hX _
  have hfirst : 0 ≤ gridOf a X 0 0 := by rw [← first_column a bc hn h1 h2 (gridOf a X)]; exact row 0 (Nat.zero_le _)
  have hz : ∀ j < a.nx, 0 ≤ gridOf a X 0 j := by
    cases hl : bc.latUnit with
    | true =>
      intro j hj
      rcases Nat.eq_zero_or_pos j with e | e
      · rw [e]; exact hfirst
      · rw [← unit_row a bc hl h.ny (gridOf a X) e hj]; exact row j hj.le
    | false =>
      have hside : ∀ j ≤ a.nx, 0 ≤ a.side j := fun j hj => mul_nonneg (transect_facS a h hj) h.alpha
      refine upwind_nonneg a.nx (a.us 0) a.side a.diag (gridOf a X 0) _ (fun j _ hj => hside j hj.le)
        (fun j _ hj => ?_) (fun j _ hj => row j hj.le) (fun j hj hj' => transect_row a bc h hl (gridOf a X) hj hj') hdiv hfirst ?_
      · have := mul_nonneg (hside j hj.le) (abs_nonneg (a.us 0 j))
        linarith [transect_diag a h hj.le]
      · refine hend.imp (fun e => ?_) fun e => e.1
        have := row a.nx le_rfl
        rw [last_column a bc hn, e.1, e.2] at this
        simpa using this
  intro c
  obtain ⟨i, j, hi, hj, rfl⟩ := index_cases a c
  rw [← gridOf_at a X hi hj]
  have hi0 : i = 0 := by have := h.ny; omega
  subst hi0
  rcases Nat.lt_or_ge j a.nx with hlt | hge
  · exact hz j hlt
  · obtain rfl : j = a.nx := by omega
    have hrow := row a.nx le_rfl
    rw [last_column a bc hn] at hrow
    have hp := hz (a.nx - 1) (by omega)
    have hm : bc.onM1 0 ≤ 0 ∧ bc.onM2 0 = 0 := by
      rcases hend with e | e
      · exact ⟨e.1.le, e.2⟩
      · exact e.2
    rw [hm.2, zero_mul, add_zero] at hrow
    split at hrow
    · linarith
    · have := mul_nonneg (neg_nonneg.mpr hm.1) hp
      linarith

end Aeolis.Solver
