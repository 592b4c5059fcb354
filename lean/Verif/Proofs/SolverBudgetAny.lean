import Verif.Proofs.SolverBudget

/-! Sediment budget of the assembled system for any velocities and any implicitness. -/

set_option linter.unusedSectionVars false

namespace Aeolis.Solver

open Finset

variable {K : Type*} [Field K] [LinearOrder K] [IsStrictOrderedRing K]

/-- Flux difference over a cell, upwind by the velocity of the cell itself. -/
def anyDiff (a : Adv K) (c : ℕ → ℕ → K) (i j : ℕ) : K :=
  if 0 ≤ a.us i j then a.us i j * c i j - a.us i (j - 1) * c i (j - 1)
  else a.us i (j + 1) * c i (j + 1) - a.us i j * c i j

theorem sum_anyDiff (a : Adv K) (c : ℕ → ℕ → K) (i : ℕ) (hn : 2 ≤ a.nx) :
    ∑ j ∈ Ico 1 a.nx, anyDiff a c i j = leaving a c i - entering a c i + ∑ j ∈ Ico 1 (a.nx - 1), lostBetween a c i j := by
  have key : ∀ m, 1 ≤ m → ∑ j ∈ Ico 1 (m + 1), anyDiff a c i j =
      (if 0 ≤ a.us i m then a.us i m * c i m else a.us i (m + 1) * c i (m + 1)) - entering a c i +
        ∑ j ∈ Ico 1 m, lostBetween a c i j := by
    intro m hm
    induction m, hm using Nat.le_induction with
    | base =>
      rw [Nat.Ico_succ_singleton, sum_singleton, Ico_self, sum_empty]
      unfold anyDiff entering
      split_ifs <;> simp
    | succ m hm ih =>
      rw [sum_Ico_succ_top (by omega), ih, sum_Ico_succ_top (by omega)]
      have : anyDiff a c i (m + 1) + (if 0 ≤ a.us i m then a.us i m * c i m else a.us i (m + 1) * c i (m + 1)) =
          (if 0 ≤ a.us i (m + 1) then a.us i (m + 1) * c i (m + 1) else a.us i (m + 1 + 1) * c i (m + 1 + 1)) +
            lostBetween a c i m := by
        unfold anyDiff lostBetween
        rw [Nat.add_sub_cancel]
        by_cases h0 : 0 ≤ a.us i m <;> by_cases h1 : 0 ≤ a.us i (m + 1)
        · simp only [h0, h1, if_true, iff_self]; ring
        · simp only [h0, h1, if_true, if_false, iff_false, not_true, abs_of_nonneg h0, abs_of_neg (not_le.mp h1)]; ring
        · simp only [h0, h1, if_true, if_false, iff_true, abs_of_neg (not_le.mp h0), abs_of_nonneg h1]; ring
        · simp only [h0, h1, if_false, iff_self, if_true]; ring
      linear_combination this
  have := key (a.nx - 1) (by omega)
  rw [Nat.sub_add_cancel (by omega)] at this
  rw [this]
  rfl

/-- The part across the rows of a cell equation, explicit and implicit. -/
def acrossAny (a : Adv K) (bc : BcRows K) (v : Rhs K) (x : ℕ → ℕ → K) (i j : ℕ) : K :=
  a.alpha * (a.sgn i j * (a.facN i j * a.un i j)) * x i j + acrossPart a bc x i j +
    (1 - a.alpha) * (a.sgn i j * (a.facN i j * a.un i j) * v.lCt i j
      - a.ixn i j * (a.facN i j * a.unPlus i j) * v.lCt (prevRow a.ny i) j
      + (1 - a.ixn i j) * (a.facN i j * a.unMin i j) * v.lCt (nextRow a.ny i) j)

theorem area_facS (a : Adv K) (bc : BcRows K) (h : AnyFlow a bc) {i j : ℕ} (hi : i ≤ a.ny) (hj : j ≤ a.nx) :
    area a i j * a.facS i j = a.dt * a.dn i 0 := by
  unfold Adv.facS area
  have : a.ds i j * a.dn i j * (a.dt * a.dn i j * a.dsdni i j) = a.dt * a.dn i j * (a.ds i j * a.dn i j * a.dsdni i j) := by ring
  rw [this, h.cell i hi j hj, mul_one, h.dn i hi j hj]

theorem area_facN (a : Adv K) (bc : BcRows K) (h : AnyFlow a bc) {i j : ℕ} (hi : i ≤ a.ny) (hj : j ≤ a.nx) :
    area a i j * a.facN i j = a.dt * a.ds i j := by
  unfold Adv.facN area
  have : a.ds i j * a.dn i j * (a.dt * a.ds i j * a.dsdni i j) = a.dt * a.ds i j * (a.ds i j * a.dn i j * a.dsdni i j) := by ring
  rw [this, h.cell i hi j hj, mul_one]

theorem cell_budget_any (a : Adv K) (b : Bounds) (bc : BcRows K) (v : Rhs K) (x : ℕ → ℕ → K) (h : AnyFlow a bc)
    (hs : Solves a b bc v x) {i j : ℕ} (hi : i ≤ a.ny) (hj1 : 1 ≤ j) (hj : j < a.nx) :
    area a i j * (x i j - v.lCt i j) = area a i j * uptakeOf a v x i j - a.dt * a.dn i 0 * anyDiff a (midway a v x) i j
      - area a i j * acrossAny a bc v x i j := by
  have hc := solves_cell a b bc v x h.nx hs hi hj.le
  have hl : ¬ a.latRow bc i := fun hh => by have := hh.1; rw [h.lat] at this; cases this
  have hrhs : a.rhs b v i j = v.lCt i j + a.alpha * a.yIm v i j + (1 - a.alpha) * a.yEx v i j := by
    unfold Adv.rhs
    simp only
    rw [if_neg (by omega), if_neg (by omega), if_neg (by omega), if_neg (by omega), if_pos ⟨hj1, hj⟩]
  have hA0 : a.A0 bc i j = 1 + (a.sgs i j * (a.facS i j * a.us i j) + a.sgn i j * (a.facN i j * a.un i j) + a.Ti) * a.alpha := by
    unfold Adv.A0; rw [if_neg hl, if_neg (by omega)]
  have e2 : a.Am2 bc i j = 0 := by unfold Adv.Am2; rw [if_neg (by omega)]
  have e3 : a.Ap2 bc i j = 0 := by unfold Adv.Ap2; rw [if_neg (by omega)]
  have up : a.usPlus i j = a.us i (j - 1) := by unfold Adv.usPlus; rw [if_neg (by omega)]
  have um : a.usMin i j = a.us i (j + 1) := by unfold Adv.usMin; rw [if_neg (by omega)]
  have x3 : a.Ap1 bc i j = a.facS i j * a.us i (j + 1) * a.alpha * (1 - a.ixs i j) := by
    unfold Adv.Ap1; rw [if_neg hl, if_neg (by omega), if_neg (by omega), um]
  have x4 : a.Am1 bc i j = -(a.facS i j * a.us i (j - 1)) * a.alpha * a.ixs i j := by
    unfold Adv.Am1; rw [if_neg hl, if_neg (by omega), if_neg (by omega), up]
  rw [hrhs] at hc
  unfold rowPart at hc
  rw [e2, e3, hA0, x3, x4] at hc
  have hex : uptakeOf a v x i j = (equilibrium a v i j - midway a v x i j) * a.Ti := by
    unfold uptakeOf Adv.Ti; ring
  rw [hex, ← area_facS a bc h hi hj.le]
  unfold anyDiff acrossAny
  unfold Adv.yIm Adv.yEx at hc
  rw [up, um] at hc
  unfold equilibrium midway
  by_cases h0 : 0 ≤ a.us i j
  · have x1 : a.ixs i j = 1 := by unfold Adv.ixs; rw [if_pos h.beta, if_pos h0]
    have x2 : a.sgs i j = 1 := by unfold Adv.sgs; rw [if_pos h.beta, x1]; ring
    rw [x1, x2] at hc
    rw [if_pos h0]
    linear_combination (area a i j) * hc
  · have x1 : a.ixs i j = 0 := by unfold Adv.ixs; rw [if_pos h.beta, if_neg h0]
    have x2 : a.sgs i j = -1 := by unfold Adv.sgs; rw [if_pos h.beta, x1]; ring
    rw [x1, x2] at hc
    rw [if_neg h0]
    linear_combination (area a i j) * hc

/-- Budget of all cells, with the cross-row part left as it is. -/
theorem budget_any (a : Adv K) (b : Bounds) (bc : BcRows K) (v : Rhs K) (x : ℕ → ℕ → K) (h : AnyFlow a bc) (hs : Solves a b bc v x) :
    inner a (fun i j => area a i j * x i j) = inner a (fun i j => area a i j * v.lCt i j)
      + inner a (fun i j => area a i j * uptakeOf a v x i j)
      + a.dt * ∑ i ∈ range (a.ny + 1), a.dn i 0 * (entering a (midway a v x) i - leaving a (midway a v x) i
          - ∑ j ∈ Ico 1 (a.nx - 1), lostBetween a (midway a v x) i j)
      - ∑ j ∈ Ico 1 a.nx, ∑ i ∈ range (a.ny + 1), area a i j * acrossAny a bc v x i j := by
  rw [sum_comm]
  unfold inner
  rw [mul_sum, ← sum_add_distrib, ← sum_add_distrib, ← sum_sub_distrib]
  refine sum_congr rfl fun i hi => ?_
  rw [mem_range] at hi
  have e : a.dt * (a.dn i 0 * (entering a (midway a v x) i - leaving a (midway a v x) i
      - ∑ j ∈ Ico 1 (a.nx - 1), lostBetween a (midway a v x) i j))
      = - ∑ j ∈ Ico 1 a.nx, a.dt * a.dn i 0 * anyDiff a (midway a v x) i j := by
    rw [← mul_sum, sum_anyDiff a _ i h.nx]; ring
  rw [e, ← sub_eq_add_neg, ← sum_add_distrib, ← sum_sub_distrib, ← sum_sub_distrib]
  refine sum_congr rfl fun j hj => ?_
  rw [mem_Ico] at hj
  beta_reduce
  linear_combination cell_budget_any a b bc v x h hs (by omega : i ≤ a.ny) hj.1 hj.2

theorem sgn_un (a : Adv K) (hb : 1 ≤ |a.beta|) (i j : ℕ) : a.sgn i j * a.un i j = |a.un i j| := by
  unfold Adv.sgn Adv.ixn
  rw [if_pos hb, if_pos hb]
  split
  · rename_i h0; rw [abs_of_nonneg h0]; ring
  · rename_i h0; rw [abs_of_neg (not_le.mp h0)]; ring

/-- On a transect the explicit part across the row cancels. -/
theorem across_transect (a : Adv K) (bc : BcRows K) (v : Rhs K) (x : ℕ → ℕ → K) (h : AnyFlow a bc) (hy : a.ny = 0) {j : ℕ}
    (hj : j < a.nx) : area a 0 j * acrossAny a bc v x 0 j = a.dt * (a.alpha * (a.ds 0 j * |a.un 0 j| * x 0 j)) := by
  have hN := area_facN a bc h (Nat.zero_le a.ny) hj.le
  have hac : acrossPart a bc x 0 j = 0 := by unfold acrossPart; rw [if_neg (by omega)]
  have up : a.unPlus 0 j = a.un 0 j := by unfold Adv.unPlus; rw [if_pos rfl]
  have um : a.unMin 0 j = a.un 0 j := by unfold Adv.unMin; rw [hy, if_pos rfl]
  have p : prevRow a.ny 0 = 0 := by unfold prevRow; rw [if_pos rfl, hy]
  have n : nextRow a.ny 0 = 0 := by unfold nextRow; rw [if_pos hy.symm]
  have hix : a.sgn 0 j = 2 * a.ixn 0 j - 1 := by unfold Adv.sgn; rw [if_pos h.beta]
  rw [← sgn_un a h.beta]
  unfold acrossAny
  rw [hac, up, um, p, n, hix]
  linear_combination (a.alpha * (2 * a.ixn 0 j - 1) * a.un 0 j * x 0 j) * hN

theorem sum_prevRow (n : ℕ) (f : ℕ → K) : ∑ i ∈ range (n + 1), f (prevRow n i) = ∑ i ∈ range (n + 1), f i := by
  rw [sum_range_succ', sum_range_succ]
  congr 1

theorem sum_nextRow (n : ℕ) (f : ℕ → K) : ∑ i ∈ range (n + 1), f (nextRow n i) = ∑ i ∈ range (n + 1), f i := by
  rw [sum_range_succ, sum_range_succ']
  have : nextRow n n = 0 := by unfold nextRow; rw [if_pos rfl]
  rw [this]
  congr 1
  refine sum_congr rfl fun i hi => ?_
  rw [mem_range] at hi
  unfold nextRow
  rw [if_neg (by omega)]

/-- On a planar grid with alongshore velocities that do not vary alongshore the part across the rows sums to zero. -/
theorem across_uniform (a : Adv K) (bc : BcRows K) (v : Rhs K) (x : ℕ → ℕ → K) (h : AnyFlow a bc) (hy : 0 < a.ny)
    (hds : ∀ i ≤ a.ny, ∀ j ≤ a.nx, a.ds i j = a.ds 0 j) (hdn : ∀ i ≤ a.ny, a.dn i 0 = a.dn 0 0)
    (hun : ∀ i ≤ a.ny, ∀ j ≤ a.nx, a.un i j = a.un 0 j) {j : ℕ} (hj1 : 1 ≤ j) (hj : j < a.nx) :
    ∑ i ∈ range (a.ny + 1), area a i j * acrossAny a bc v x i j = 0 := by
  have hl : ∀ i, ¬ a.latRow bc i := fun i hh => by have := hh.1; rw [h.lat] at this; cases this
  have hixn : ∀ i ≤ a.ny, a.ixn i j = a.ixn 0 j := fun i hi => by unfold Adv.ixn; rw [hun i hi j hj.le]
  have hterm : ∀ i ∈ range (a.ny + 1), area a i j * acrossAny a bc v x i j =
      a.dt * a.ds 0 j * a.un 0 j * ((2 * a.ixn 0 j - 1) * midway a v x i j - a.ixn 0 j * midway a v x (prevRow a.ny i) j
        + (1 - a.ixn 0 j) * midway a v x (nextRow a.ny i) j) := by
    intro i hi
    rw [mem_range] at hi
    have hi' : i ≤ a.ny := by omega
    have hnx : nextRow a.ny i ≤ a.ny := by unfold nextRow; split <;> omega
    have hsg : a.sgn i j = 2 * a.ixn 0 j - 1 := by unfold Adv.sgn; rw [if_pos h.beta, hixn i hi']
    have up : a.unPlus i j = a.un 0 j := by
      unfold Adv.unPlus; split
      · rfl
      · exact hun _ (by omega) j hj.le
    have um : ∀ i ≤ a.ny, a.unMin i j = a.un 0 j := by
      intro i hi; unfold Adv.unMin; split
      · exact hun _ le_rfl j hj.le
      · exact hun _ (by omega) j hj.le
    have hM : a.Amx bc i j = -(a.facN i j * a.un 0 j) * a.alpha * a.ixn 0 j := by
      unfold Adv.Amx; rw [if_neg (hl _), if_neg (by omega), hixn i hi', up]
    have hA : a.Apx bc (nextRow a.ny i) j = a.facN (nextRow a.ny i) j * a.un 0 j * a.alpha * (1 - a.ixn 0 j) := by
      unfold Adv.Apx; rw [if_neg (hl _), if_neg (by omega), hixn _ hnx, um _ hnx]
    have hN := area_facN a bc h hi' hj.le
    have hN' : area a i j * a.facN (nextRow a.ny i) j = a.dt * a.ds 0 j := by
      have hc := h.cell (nextRow a.ny i) hnx j hj.le
      rw [h.dn _ hnx j hj.le, hdn _ hnx, hds _ hnx j hj.le] at hc
      unfold Adv.facN area
      rw [h.dn _ hi' j hj.le, hdn _ hi', hds _ hi' j hj.le, hds _ hnx j hj.le]
      linear_combination (a.dt * a.ds 0 j) * hc
    rw [hds i hi' j hj.le] at hN
    unfold acrossAny acrossPart
    rw [if_pos hy, hA, hM, hsg, up, um i hi', hun i hi' j hj.le, hixn i hi']
    unfold midway
    linear_combination (a.un 0 j * (a.alpha * (2 * a.ixn 0 j - 1) * x i j - a.alpha * a.ixn 0 j * x (prevRow a.ny i) j +
      (1 - a.alpha) * ((2 * a.ixn 0 j - 1) * v.lCt i j - a.ixn 0 j * v.lCt (prevRow a.ny i) j +
        (1 - a.ixn 0 j) * v.lCt (nextRow a.ny i) j))) * hN +
      (a.un 0 j * a.alpha * (1 - a.ixn 0 j) * x (nextRow a.ny i) j) * hN'
  rw [sum_congr rfl hterm, ← mul_sum, sum_add_distrib, sum_sub_distrib, ← mul_sum, ← mul_sum, ← mul_sum,
    sum_prevRow a.ny (fun i => midway a v x i j), sum_nextRow a.ny (fun i => midway a v x i j)]
  ring

end Aeolis.Solver
