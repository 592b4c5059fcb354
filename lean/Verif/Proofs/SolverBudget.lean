import Verif.Proofs.SolverSolution
import Mathlib.Tactic.LinearCombination

/-! Sediment budget of the assembled system. -/

set_option linter.unusedSectionVars false

namespace Aeolis.Solver

open Finset

variable {K : Type*} [Field K] [LinearOrder K] [IsStrictOrderedRing K]

theorem solves_cell (a : Adv K) (b : Bounds) (bc : BcRows K) (v : Rhs K) (x : ℕ → ℕ → K)
    (hn : 2 ≤ a.nx) (h : Solves a b bc v x) {i j : ℕ} (hi : i ≤ a.ny) (hj : j ≤ a.nx) :
    rowPart a bc x i j + acrossPart a bc x i j = a.rhs b v i j := by
  obtain ⟨A, hA, hs⟩ := h
  rw [← mulVec_cell a bc hn A hA x hi hj]
  have := congrFun hs ⟨i * (a.nx + 1) + j, index_lt a hi hj⟩
  rw [show (fun c : Fin ((a.ny + 1) * (a.nx + 1)) => vec a.nx x c)
    = fun c : Fin ((a.ny + 1) * (a.nx + 1)) => x ((c : ℕ) / (a.nx + 1)) ((c : ℕ) % (a.nx + 1)) from rfl,
    this]
  have := vec_at a.nx (a.rhs b v) i j hj
  unfold vec at this
  exact this

/-- Flux difference of a cell in a row of one sign. -/
def sDiff (a : Adv K) (x : ℕ → ℕ → K) (i j : ℕ) : K :=
  if 0 ≤ a.us i 0 then a.us i j * x i j - a.us i (j - 1) * x i (j - 1)
  else a.us i (j + 1) * x i (j + 1) - a.us i j * x i j

theorem cell_budget (a : Adv K) (b : Bounds) (bc : BcRows K) (v : Rhs K) (x : ℕ → ℕ → K)
    (h : BudgetSetting a bc v) (hs : Solves a b bc v x) {i j : ℕ} (hi : i ≤ a.ny) (hj1 : 1 ≤ j)
    (hj : j < a.nx) :
    area a i j * (x i j - v.lCt i j) = area a i j * exchange a v x i j
      - a.dt * a.dn i 0 * sDiff a x i j
      - (a.dt * a.ds i j * (a.sgn i j * a.un i j * x i j) + area a i j * acrossPart a bc x i j) := by
  have hc := solves_cell a b bc v x h.nx hs hi hj.le
  have hcell := h.cell i hi j hj.le
  have hdn := h.dn i hi j hj.le
  have hl : ¬ a.latRow bc i := fun hh => by have := hh.1; rw [h.lat] at this; cases this
  have hrhs : a.rhs b v i j = v.lCt i j + v.w i j * v.Cu i j * a.Ti := by
    unfold Adv.rhs Adv.yIm
    simp only
    rw [if_neg (by omega), if_neg (by omega), if_neg (by omega), if_neg (by omega),
      if_pos ⟨hj1, hj⟩, h.alpha, h.Cuf]
    ring
  have hA0 : a.A0 bc i j = 1 + (a.sgs i j * (a.facS i j * a.us i j)
      + a.sgn i j * (a.facN i j * a.un i j) + a.Ti) := by
    unfold Adv.A0; rw [if_neg hl, if_neg (by omega), h.alpha, mul_one]
  have e2 : a.Am2 bc i j = 0 := by unfold Adv.Am2; rw [if_neg (by omega)]
  have e3 : a.Ap2 bc i j = 0 := by unfold Adv.Ap2; rw [if_neg (by omega)]
  have hex : area a i j * exchange a v x i j
      = area a i j * ((v.w i j * v.Cu i j - x i j) * a.Ti) := by
    unfold exchange Adv.Ti; ring
  have hfS : area a i j * a.facS i j = a.dt * a.dn i 0 := by
    unfold Adv.facS area
    have : a.ds i j * a.dn i j * (a.dt * a.dn i j * a.dsdni i j)
      = a.dt * a.dn i j * (a.ds i j * a.dn i j * a.dsdni i j) := by ring
    rw [this, hcell, mul_one, hdn]
  have hfN : area a i j * a.facN i j = a.dt * a.ds i j := by
    unfold Adv.facN area
    have : a.ds i j * a.dn i j * (a.dt * a.ds i j * a.dsdni i j)
      = a.dt * a.ds i j * (a.ds i j * a.dn i j * a.dsdni i j) := by ring
    rw [this, hcell, mul_one]
  rw [hrhs] at hc
  unfold rowPart at hc
  rw [e2, e3, hA0] at hc
  rw [hex]
  unfold sDiff
  rcases h.us i hi with hp | hm
  · have x1 : a.ixs i j = 1 := by
      unfold Adv.ixs; rw [if_pos h.beta, if_pos (hp j hj.le)]
    have x2 : a.sgs i j = 1 := by unfold Adv.sgs; rw [if_pos h.beta, x1]; ring
    have x3 : a.Ap1 bc i j = 0 := by
      unfold Adv.Ap1; rw [if_neg hl, if_neg (by omega), if_neg (by omega), x1]; ring
    have x4 : a.Am1 bc i j = -(a.facS i j * a.us i (j - 1)) := by
      unfold Adv.Am1 Adv.usPlus
      rw [if_neg hl, if_neg (by omega), if_neg (by omega), x1, if_neg (by omega), h.alpha]; ring
    rw [x2, x3, x4] at hc
    rw [if_pos (hp 0 (by omega)), ← hfS, ← hfN]
    linear_combination (area a i j) * hc
  · have x1 : a.ixs i j = 0 := by
      unfold Adv.ixs; rw [if_pos h.beta, if_neg (not_le.mpr (hm j hj.le))]
    have x2 : a.sgs i j = -1 := by unfold Adv.sgs; rw [if_pos h.beta, x1]; ring
    have x3 : a.Ap1 bc i j = a.facS i j * a.us i (j + 1) := by
      unfold Adv.Ap1 Adv.usMin
      rw [if_neg hl, if_neg (by omega), if_neg (by omega), x1, if_neg (by omega), h.alpha]; ring
    have x4 : a.Am1 bc i j = 0 := by
      unfold Adv.Am1; rw [if_neg hl, if_neg (by omega), if_neg (by omega), x1]; ring
    rw [x2, x3, x4] at hc
    rw [if_neg (not_le.mpr (hm 0 (by omega))), ← hfS, ← hfN]
    linear_combination (area a i j) * hc

theorem sum_sDiff (a : Adv K) (x : ℕ → ℕ → K) (i : ℕ) (hn : 2 ≤ a.nx) :
    ∑ j ∈ Ico 1 a.nx, sDiff a x i j = -throughflow a x i := by
  obtain ⟨m, hm⟩ : ∃ m, a.nx = m + 1 := ⟨a.nx - 1, by omega⟩
  unfold sDiff throughflow
  rw [sum_Ico_eq_sum_range, hm, Nat.add_sub_cancel]
  split
  · have := sum_range_sub (fun k => a.us i k * x i k) m
    rw [show ∑ k ∈ range m, (a.us i (1 + k) * x i (1 + k) - a.us i (1 + k - 1) * x i (1 + k - 1))
      = ∑ k ∈ range m, (a.us i (k + 1) * x i (k + 1) - a.us i k * x i k) from
      sum_congr rfl fun k _ => by rw [Nat.add_comm 1 k, Nat.add_sub_cancel], this]
    ring
  · have := sum_range_sub (fun k => a.us i (k + 1) * x i (k + 1)) m
    rw [show ∑ k ∈ range m, (a.us i (1 + k + 1) * x i (1 + k + 1) - a.us i (1 + k) * x i (1 + k))
      = ∑ k ∈ range m, (a.us i (k + 1 + 1) * x i (k + 1 + 1) - a.us i (k + 1) * x i (k + 1)) from
      sum_congr rfl fun k _ => by rw [Nat.add_comm 1 k], this]
    ring

/-- Budget of all cells, with the cross-row part left as it is. -/
theorem budget (a : Adv K) (b : Bounds) (bc : BcRows K) (v : Rhs K) (x : ℕ → ℕ → K)
    (h : BudgetSetting a bc v) (hs : Solves a b bc v x) :
    inner a (fun i j => area a i j * x i j) = inner a (fun i j => area a i j * v.lCt i j)
      + inner a (fun i j => area a i j * exchange a v x i j)
      + a.dt * ∑ i ∈ range (a.ny + 1), a.dn i 0 * throughflow a x i
      - ∑ j ∈ Ico 1 a.nx, ∑ i ∈ range (a.ny + 1),
          (a.dt * a.ds i j * (a.sgn i j * a.un i j * x i j) + area a i j * acrossPart a bc x i j) := by
  rw [sum_comm]
  unfold inner
  rw [mul_sum, ← sum_add_distrib, ← sum_add_distrib, ← sum_sub_distrib]
  refine sum_congr rfl fun i hi => ?_
  rw [mem_range] at hi
  have e : a.dt * (a.dn i 0 * throughflow a x i)
      = - ∑ j ∈ Ico 1 a.nx, a.dt * a.dn i 0 * sDiff a x i j := by
    rw [← mul_sum, sum_sDiff a x i h.nx]; ring
  rw [e, ← sub_eq_add_neg, ← sum_add_distrib, ← sum_sub_distrib, ← sum_sub_distrib]
  refine sum_congr rfl fun j hj => ?_
  rw [mem_Ico] at hj
  beta_reduce
  linear_combination cell_budget a b bc v x h hs (by omega : i ≤ a.ny) hj.1 hj.2

theorem across_pos (a : Adv K) (bc : BcRows K) (v : Rhs K) (x : ℕ → ℕ → K) (h : BudgetSetting a bc v)
    (hy : 0 < a.ny) (hds : ∀ i ≤ a.ny, ∀ j ≤ a.nx, a.ds i j = a.ds 0 j)
    (hun : ∀ i ≤ a.ny, ∀ j ≤ a.nx, 0 ≤ a.un i j) {j : ℕ} (hj1 : 1 ≤ j) (hj : j < a.nx) :
    ∑ i ∈ range (a.ny + 1),
      (a.dt * a.ds i j * (a.sgn i j * a.un i j * x i j) + area a i j * acrossPart a bc x i j)
      = a.dt * (a.ds 0 j * (a.un a.ny j - a.un 0 j) * x a.ny j) := by
  have hl : ∀ i, ¬ a.latRow bc i := fun i hh => by have := hh.1; rw [h.lat] at this; cases this
  have hixn : ∀ i ≤ a.ny, a.ixn i j = 1 := fun i hi => by
    unfold Adv.ixn; rw [if_pos h.beta, if_pos (hun i hi j hj.le)]
  have hterm : ∀ i ∈ range (a.ny + 1),
      (a.dt * a.ds i j * (a.sgn i j * a.un i j * x i j) + area a i j * acrossPart a bc x i j)
      = a.dt * a.ds 0 j * (a.un i j * x i j - a.unPlus i j * x (prevRow a.ny i) j) := by
    intro i hi
    rw [mem_range] at hi
    have hi' : i ≤ a.ny := by omega
    have hnx : nextRow a.ny i ≤ a.ny := by unfold nextRow; split <;> omega
    have hsg : a.sgn i j = 1 := by unfold Adv.sgn; rw [if_pos h.beta, hixn i hi']; ring
    have hA : a.Apx bc (nextRow a.ny i) j = 0 := by
      unfold Adv.Apx; rw [if_neg (hl _), if_neg (by omega), hixn _ hnx]; ring
    have hM : a.Amx bc i j = -(a.facN i j * a.unPlus i j) := by
      unfold Adv.Amx; rw [if_neg (hl _), if_neg (by omega), hixn i hi', h.alpha]; ring
    have hfN : area a i j * a.facN i j = a.dt * a.ds i j := by
      unfold Adv.facN area
      have : a.ds i j * a.dn i j * (a.dt * a.ds i j * a.dsdni i j)
        = a.dt * a.ds i j * (a.ds i j * a.dn i j * a.dsdni i j) := by ring
      rw [this, h.cell i hi' j hj.le, mul_one]
    rw [hsg]
    unfold acrossPart
    rw [if_pos hy, hA, hM, ← hds i hi' j hj.le]
    linear_combination (-(a.unPlus i j) * x (prevRow a.ny i) j) * hfN
  rw [sum_congr rfl hterm, ← mul_sum, sum_sub_distrib]
  have s1 : ∑ i ∈ range (a.ny + 1), a.un i j * x i j
      = ∑ i ∈ range a.ny, a.un i j * x i j + a.un a.ny j * x a.ny j := sum_range_succ _ _
  have s2 : ∑ i ∈ range (a.ny + 1), a.unPlus i j * x (prevRow a.ny i) j
      = ∑ i ∈ range a.ny, a.un i j * x i j + a.un 0 j * x a.ny j := by
    rw [sum_range_succ']
    have e0 : a.unPlus 0 j * x (prevRow a.ny 0) j = a.un 0 j * x a.ny j := by
      simp [Adv.unPlus, prevRow]
    rw [e0]
    refine congrArg (· + _) (sum_congr rfl fun i _ => ?_)
    simp [Adv.unPlus, prevRow]
  rw [s1, s2]; ring

theorem across_neg (a : Adv K) (bc : BcRows K) (v : Rhs K) (x : ℕ → ℕ → K) (h : BudgetSetting a bc v)
    (hy : 0 < a.ny) (hds : ∀ i ≤ a.ny, ∀ j ≤ a.nx, a.ds i j = a.ds 0 j)
    (hdn : ∀ i ≤ a.ny, a.dn i 0 = a.dn 0 0)
    (hun : ∀ i ≤ a.ny, ∀ j ≤ a.nx, a.un i j < 0) {j : ℕ} (hj1 : 1 ≤ j) (hj : j < a.nx) :
    ∑ i ∈ range (a.ny + 1),
      (a.dt * a.ds i j * (a.sgn i j * a.un i j * x i j) + area a i j * acrossPart a bc x i j)
      = - (a.dt * (a.ds 0 j * ∑ i ∈ range a.ny, (a.un i j - a.un (i + 1) j) * x i j)) := by
  have hl : ∀ i, ¬ a.latRow bc i := fun i hh => by have := hh.1; rw [h.lat] at this; cases this
  have hixn : ∀ i ≤ a.ny, a.ixn i j = 0 := fun i hi => by
    unfold Adv.ixn; rw [if_pos h.beta, if_neg (not_le.mpr (hun i hi j hj.le))]
  have hterm : ∀ i ∈ range (a.ny + 1),
      (a.dt * a.ds i j * (a.sgn i j * a.un i j * x i j) + area a i j * acrossPart a bc x i j)
      = a.dt * a.ds 0 j * (a.unMin (nextRow a.ny i) j * x (nextRow a.ny i) j - a.un i j * x i j) := by
    intro i hi
    rw [mem_range] at hi
    have hi' : i ≤ a.ny := by omega
    have hnx : nextRow a.ny i ≤ a.ny := by unfold nextRow; split <;> omega
    have hsg : a.sgn i j = -1 := by unfold Adv.sgn; rw [if_pos h.beta, hixn i hi']; ring
    have hM : a.Amx bc i j = 0 := by
      unfold Adv.Amx; rw [if_neg (hl _), if_neg (by omega), hixn i hi']; ring
    have hA : a.Apx bc (nextRow a.ny i) j
        = a.facN (nextRow a.ny i) j * a.unMin (nextRow a.ny i) j := by
      unfold Adv.Apx; rw [if_neg (hl _), if_neg (by omega), hixn _ hnx, h.alpha]; ring
    have hfN : area a i j * a.facN (nextRow a.ny i) j = a.dt * a.ds i j := by
      have hc := h.cell (nextRow a.ny i) hnx j hj.le
      rw [h.dn _ hnx j hj.le, hdn _ hnx, hds _ hnx j hj.le] at hc
      unfold Adv.facN area
      rw [h.dn _ hi' j hj.le, hdn _ hi', hds _ hi' j hj.le, hds _ hnx j hj.le]
      linear_combination (a.dt * a.ds 0 j) * hc
    rw [hsg]
    unfold acrossPart
    rw [if_pos hy, hA, hM, ← hds i hi' j hj.le]
    linear_combination (a.unMin (nextRow a.ny i) j * x (nextRow a.ny i) j) * hfN
  rw [sum_congr rfl hterm, ← mul_sum, sum_sub_distrib]
  have s1 : ∑ i ∈ range (a.ny + 1), a.un i j * x i j
      = ∑ i ∈ range a.ny, a.un i j * x i j + a.un a.ny j * x a.ny j := sum_range_succ _ _
  have s2 : ∑ i ∈ range (a.ny + 1), a.unMin (nextRow a.ny i) j * x (nextRow a.ny i) j
      = ∑ i ∈ range a.ny, a.un (i + 1) j * x i j + a.un a.ny j * x a.ny j := by
    have e : ∀ i ∈ range a.ny, a.unMin (nextRow a.ny i) j * x (nextRow a.ny i) j
        = a.unMin (i + 1) j * x (i + 1) j := by
      intro i hi; rw [mem_range] at hi
      unfold nextRow; rw [if_neg (by omega)]
    have e0 : nextRow a.ny a.ny = 0 := by unfold nextRow; rw [if_pos rfl]
    rw [sum_range_succ, sum_congr rfl e, e0, ← sum_range_succ' (fun i => a.unMin i j * x i j),
      sum_range_succ]
    have e1 : a.unMin a.ny j = a.un a.ny j := by unfold Adv.unMin; rw [if_pos rfl]
    rw [e1]
    refine congrArg (· + _) (sum_congr rfl fun i hi => ?_)
    rw [mem_range] at hi
    unfold Adv.unMin; rw [if_neg (by omega)]
  rw [s1, s2]
  have s3 : ∑ i ∈ range a.ny, (a.un i j - a.un (i + 1) j) * x i j
      = ∑ i ∈ range a.ny, a.un i j * x i j - ∑ i ∈ range a.ny, a.un (i + 1) j * x i j := by
    rw [← sum_sub_distrib]; exact sum_congr rfl fun i _ => by ring
  rw [s3]; ring

end Aeolis.Solver
