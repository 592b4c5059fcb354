import Verif.Proofs.SolverBudgetAny
import Mathlib.Tactic.IntervalCases

/-!
C49: sediment budget of a transport step for any velocities and any implicitness.
-/

set_option linter.unusedSectionVars false

namespace Aeolis.Props

open Aeolis.Solver Finset

variable {K : Type*} [Field K] [LinearOrder K] [IsStrictOrderedRing K]

/-- C49, transects: velocities may change sign and the implicitness may have any value.  The sediment in the air between the
first and last cell changes by the uptake plus inflow minus outflow, minus all that is carried by cells next to a change of
direction, minus what leaves sideways. -/
theorem C49_transect_budget_exact (a : Adv K) (b : Bounds) (bc : BcRows K) (v : Rhs K) (x : ℕ → ℕ → K) (h : AnyFlow a bc)
    (hy : a.ny = 0) (hs : Solves a b bc v x) :
    ∑ j ∈ Ico 1 a.nx, area a 0 j * x 0 j = ∑ j ∈ Ico 1 a.nx, area a 0 j * v.lCt 0 j
      + ∑ j ∈ Ico 1 a.nx, area a 0 j * uptakeOf a v x 0 j
      + a.dt * (a.dn 0 0 * (entering a (midway a v x) 0 - leaving a (midway a v x) 0
          - ∑ j ∈ Ico 1 (a.nx - 1), lostBetween a (midway a v x) 0 j))
      - a.dt * (a.alpha * ∑ j ∈ Ico 1 a.nx, a.ds 0 j * |a.un 0 j| * x 0 j) := by
  have := budget_any a b bc v x h hs
  unfold inner at this
  rw [hy] at this
  simp only [zero_add, sum_range_one] at this
  rw [this]
  congr 1
  rw [mul_sum, mul_sum]
  refine sum_congr rfl fun j hj => ?_
  rw [mem_Ico] at hj
  rw [across_transect a bc v x h hy hj.2]

/-- C49, planar grids of cells that do not vary alongshore, with alongshore velocities that do not vary alongshore (in either
direction); cross-shore velocities and implicitness are arbitrary. -/
theorem C49_planar_budget_exact (a : Adv K) (b : Bounds) (bc : BcRows K) (v : Rhs K) (x : ℕ → ℕ → K) (h : AnyFlow a bc)
    (hy : 0 < a.ny) (hds : ∀ i ≤ a.ny, ∀ j ≤ a.nx, a.ds i j = a.ds 0 j) (hdn : ∀ i ≤ a.ny, a.dn i 0 = a.dn 0 0)
    (hun : ∀ i ≤ a.ny, ∀ j ≤ a.nx, a.un i j = a.un 0 j) (hs : Solves a b bc v x) :
    inner a (fun i j => area a i j * x i j) = inner a (fun i j => area a i j * v.lCt i j)
      + inner a (fun i j => area a i j * uptakeOf a v x i j)
      + a.dt * ∑ i ∈ range (a.ny + 1), a.dn i 0 * (entering a (midway a v x) i - leaving a (midway a v x) i
          - ∑ j ∈ Ico 1 (a.nx - 1), lostBetween a (midway a v x) i j) := by
  rw [budget_any a b bc v x h hs, sum_eq_zero (s := Ico 1 a.nx), sub_zero]
  intro j hj
  rw [mem_Ico] at hj
  exact across_uniform a bc v x h hy hds hdn hun hj.1 hj.2

/-- C49: what is lost at a change of direction is not negative for non-negative concentrations, and nothing is lost elsewhere. -/
theorem C49_loss (a : Adv K) (c : ℕ → ℕ → K) (i j : ℕ) (h0 : 0 ≤ c i j) (h1 : 0 ≤ c i (j + 1)) :
    0 ≤ lostBetween a c i j ∧ ((0 ≤ a.us i j ↔ 0 ≤ a.us i (j + 1)) → lostBetween a c i j = 0) := by
  constructor
  · unfold lostBetween
    split
    · exact le_rfl
    · positivity
  · intro h
    unfold lostBetween
    rw [if_pos h]

/-- C49: with Euler backward and one equilibrium concentration the uptake is the pickup `(w Cu - Ct) dt / T` by which the bed is
lowered; with another implicitness (and one equilibrium concentration) it differs from it by the change over the step, which the
bed never sees. -/
theorem C49_uptake_against_pickup (a : Adv K) (v : Rhs K) (x : ℕ → ℕ → K) (hC : v.Cuf = v.Cu) (hl : v.lCuf = v.lCu) (i j : ℕ) :
    uptakeOf a v x i j - exchange a v x i j = (1 - a.alpha) *
      ((v.lw i j * v.lCu i j - v.lCt i j) / a.T * a.dt - exchange a v x i j) := by
  unfold uptakeOf exchange equilibrium midway
  rw [hC, hl]
  ring

/-- A transect of four cells in which the wind converges in the middle. -/
def exConverge : Adv ℚ :=
  { nx := 3, ny := 0, dt := 1, T := 1, alpha := 1, beta := 1, ds := fun _ _ => 1, dn := fun _ _ => 1,
    dsdni := fun _ _ => 1, un := fun _ _ => 0, us := fun _ j => if j ≤ 1 then 1 else -1 }

/-- Equilibrium everywhere. -/
def exConvergeRhs : Rhs ℚ :=
  { w := fun _ _ => 1, Cu := fun _ _ => 1, Cuf := fun _ _ => 1, S := fun _ _ => 1, lw := fun _ _ => 1, lCu := fun _ _ => 1,
    lCuf := fun _ _ => 1, lCt := fun _ _ => 1, offFlux := fun _ => 0, onFlux := fun _ => 0, offConst := fun _ => 1,
    onConst := fun _ => 1 }

theorem exConverge_solves : Solves exConverge ⟨"constant", "constant", "circular"⟩
    ⟨fun _ => 0, fun _ => 0, fun _ => 0, fun _ => 0, false⟩ exConvergeRhs fun _ _ => 1 := by
  have hA := matrix_ok exConverge ⟨fun _ => 0, fun _ => 0, fun _ => 0, fun _ => 0, false⟩
    (by simp [exConverge]) (by simp [exConverge])
  refine ⟨_, hA, ?_⟩
  funext c
  obtain ⟨i, j, hi, hj, rfl⟩ := index_cases exConverge c
  rw [mulVec_gridOf exConverge _ (by simp [exConverge]) _ hA _ hi hj]
  have hi0 : i = 0 := by simp [exConverge] at hi; omega
  subst hi0
  simp only [exConverge] at hj
  interval_cases j <;>
    norm_num [rowPart, acrossPart, Adv.A0, Adv.Am1, Adv.Ap1, Adv.Am2, Adv.Ap2, Adv.latRow, gridOf,
      exConverge, exConvergeRhs, Adv.sgs, Adv.sgn, Adv.ixs, Adv.ixn, Adv.facS, Adv.facN, Adv.Ti, Adv.usPlus, Adv.usMin,
      Adv.rhs, Adv.yIm]

/-- C49 (limit of the property): sediment disappears where the wind converges.  Here the concentration stays one everywhere and
nothing is exchanged with the bed, although two units flow in from the sides and none flow out. -/
theorem C49_converging_loses :
    Solves exConverge ⟨"constant", "constant", "circular"⟩ ⟨fun _ => 0, fun _ => 0, fun _ => 0, fun _ => 0, false⟩ exConvergeRhs
      (fun _ _ => 1) ∧
    (∀ j, exchange exConverge exConvergeRhs (fun _ _ => 1) 0 j = 0) ∧
    entering exConverge (fun _ _ => 1) 0 - leaving exConverge (fun _ _ => 1) 0 = 2 ∧
    ∑ j ∈ Ico 1 (exConverge.nx - 1), lostBetween exConverge (fun _ _ => 1) 0 j = 2 := by
  refine ⟨exConverge_solves, fun j => ?_, ?_, ?_⟩
  · norm_num [exchange, exConverge, exConvergeRhs]
  · norm_num [entering, leaving, exConverge]
  · show ∑ j ∈ Ico 1 2, _ = _
    rw [Nat.Ico_succ_singleton, sum_singleton]
    norm_num [lostBetween, exConverge]

example : AnyFlow exConverge ⟨fun _ => 0, fun _ => 0, fun _ => 0, fun _ => 0, false⟩ :=
  ⟨by simp [exConverge], by simp [exConverge], by simp [exConverge], rfl, fun _ _ _ _ => by simp [exConverge],
    fun _ _ _ _ => rfl⟩

/-- Three rows with winds in both directions, Crank-Nicolson. -/
example : AnyFlow (K := ℚ)
    { nx := 3, ny := 2, dt := 1, T := 1, alpha := 1 / 2, beta := 1, ds := fun _ j => j + 1, dn := fun _ _ => 1,
      dsdni := fun _ j => 1 / (j + 1), un := fun _ _ => -1, us := fun i j => i - j }
    ⟨fun _ => 0, fun _ => 0, fun _ => -2, fun _ => 1, false⟩ := by
  refine ⟨by simp, by simp, by simp, rfl, fun _ _ j _ => ?_, fun _ _ _ _ => rfl⟩
  have : (j : ℚ) + 1 ≠ 0 := by positivity
  show ((j : ℚ) + 1) * 1 * (1 / (j + 1)) = 1
  field_simp

end Aeolis.Props
