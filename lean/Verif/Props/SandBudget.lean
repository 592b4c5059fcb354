import Verif.Proofs.Sand
import Mathlib.Tactic.IntervalCases

/-!
C116: the balance of the sand in bed and air together, over one time step and over a run.
-/

set_option linter.unusedSectionVars false

namespace Aeolis.Props

open Aeolis.Sand Aeolis.Solver Finset

variable {K : Type*} [Field K] [LinearOrder K] [IsStrictOrderedRing K] [FloorRing K] {nf : ℕ}

/-- C116, one time step, any deposition: the mass of the sand in bed and air together changes by what enters through the ends of the rows
less what leaves there, what is lost where the wind changes direction and what leaves a transect sideways, to within the tolerance of the solver (an error that is
never negative), less all that is deposited in cells where the deposition exceeds the mass of the top layer.  Convergence of the iteration
is not needed. -/
theorem C116_step_any (p : Bed.Params K nf) (D : Domain K) (σ σ' : State K D.nx D.ny nf) (t : Step K D.nx D.ny nf)
    (h : t.Fits D σ) (hb : p.processBedupdate = true) (hρ : p.rhog * (1 - p.porosity) ≠ 0) (o : SolveOut K (Fin (cells D.nx D.ny)) nf)
    (ho : solve t.solver σ.Ct t.pk t.w = .ok o) (hr : Sand.step p t.solver t.pk t.w σ = .ok σ') :
    let lost := ∑ i ∈ range (D.ny + 1), ∑ j ∈ Ico 1 D.nx, D.ds i j * D.dn i j *
      onGrid (fun c => if Spec.layerTotal (σ.bed c).mass 0 < -∑ f, o.pickup c f then -∑ f, o.pickup c f else 0) i j
    let error := total p D σ' + lost - total p D σ - ∑ f, supply (t.sys f) (onGrid fun c => σ'.Ct c f)
    0 ≤ error ∧ error ≤ t.solver.maxError * nf * surface D := by
  unfold Sand.step at hr
  rw [ho] at hr
  cases hr
  simp only
  obtain ⟨hT, hdt, he⟩ := h.timePos
  have hm : ∀ c f, 0 ≤ t.solver.mass c f := fun c f => by rw [h.mass]; exact h.massPos c f
  have hbal := solve_balance t.solver hT hdt he h.CuPos hm (fun f w hw => (h.lin f w hw).2) σ.Ct t.pk t.w h.weights o ho
  choose W hW hCt hpk using hbal
  -- the bed
  have hzb : ∀ c, (Bed.update p { σ.bed c with pickup := o.pickup c }).zb =
      (σ.bed c).zb - (∑ f, o.pickup c f) / (p.rhog * (1 - p.porosity))
        - (if Spec.layerTotal (σ.bed c).mass 0 < -∑ f, o.pickup c f then -∑ f, o.pickup c f else 0) / (p.rhog * (1 - p.porosity)) := by
    intro c
    have := C36_bed_level_any p { σ.bed c with pickup := o.pickup c } (sum_nonneg fun f _ => h.massPos c f) hb
    rw [this]
    dsimp only
    split_ifs <;> ring
  -- the difference between exchange and pickup
  set E : Fin nf → Fin (cells D.nx D.ny) → K := fun f c =>
    pickupOf (t.solver.frac f) (t.solver.lin f (W f)) (W f) c - o.pickup c f with hE
  have hEb : ∀ f i j, 0 ≤ onGrid (E f) i j ∧ onGrid (E f) i j ≤ t.solver.maxError := fun f i j =>
    onGrid_between _ _ (fun c => by have := (hpk f c).1; rw [hCt f] at this; exact this)
      (fun c => by have := (hpk f c).2; rw [hCt f] at this; exact this) he i j
  have hkey : total p D (nf := nf) ⟨fun c => Bed.update p { σ.bed c with pickup := o.pickup c }, o.Ct⟩
      + ∑ i ∈ range (D.ny + 1), ∑ j ∈ Ico 1 D.nx, D.ds i j * D.dn i j *
        onGrid (fun c => if Spec.layerTotal (σ.bed c).mass 0 < -∑ f, o.pickup c f then -∑ f, o.pickup c f else 0) i j
      - total p D σ - ∑ f, supply (t.sys f) (onGrid fun c => o.Ct c f) =
      ∑ i ∈ range (D.ny + 1), ∑ j ∈ Ico 1 D.nx, D.ds i j * D.dn i j * ∑ f, onGrid (E f) i j := by
    have hf : ∀ f, supply (t.sys f) (onGrid fun c => o.Ct c f) =
        ∑ i ∈ range (D.ny + 1), ∑ j ∈ Ico 1 D.nx, D.ds i j * D.dn i j * (onGrid (fun c => o.Ct c f) i j
          - onGrid (fun c => σ.Ct c f) i j - onGrid (pickupOf (t.solver.frac f) (t.solver.lin f (W f)) (W f)) i j) := by
      intro f
      have := fraction_budget D σ t h f (W f) (hW f)
      rw [hCt f]
      simp only [mul_sub, sum_sub_distrib]
      rw [this]
      ring
    have hsup : ∑ f, supply (t.sys f) (onGrid fun c => o.Ct c f) =
        ∑ i ∈ range (D.ny + 1), ∑ j ∈ Ico 1 D.nx, ∑ f, D.ds i j * D.dn i j * (onGrid (fun c => o.Ct c f) i j
          - onGrid (fun c => σ.Ct c f) i j - onGrid (pickupOf (t.solver.frac f) (t.solver.lin f (W f)) (W f)) i j) := by
      simp only [hf]
      rw [sum_comm]
      refine sum_congr rfl fun i _ => ?_
      rw [sum_comm]
    rw [hsup]
    unfold total
    rw [← sum_add_distrib, ← sum_sub_distrib, ← sum_sub_distrib]
    refine sum_congr rfl fun i _ => ?_
    rw [← sum_add_distrib, ← sum_sub_distrib, ← sum_sub_distrib]
    refine sum_congr rfl fun j _ => ?_
    generalize hL : (fun c => if Spec.layerTotal (σ.bed c).mass 0 < -∑ f, o.pickup c f then -∑ f, o.pickup c f else 0) = L at hzb ⊢
    have hzb : ∀ c, (Bed.update p { σ.bed c with pickup := o.pickup c }).zb =
        (σ.bed c).zb - (∑ f, o.pickup c f) / (p.rhog * (1 - p.porosity)) - L c / (p.rhog * (1 - p.porosity)) := by
      intro c
      rw [← hL]
      exact hzb c
    simp only [hzb, hE, onGrid_sub, onGrid_div, onGrid_sum]
    rw [← mul_sum]
    simp only [sum_sub_distrib]
    have : p.rhog * (1 - p.porosity) * (onGrid (fun c => (σ.bed c).zb) i j
        - (∑ f, onGrid (fun c => o.pickup c f) i j) / (p.rhog * (1 - p.porosity)) - onGrid (fun c => L c) i j / (p.rhog * (1 - p.porosity))) =
        p.rhog * (1 - p.porosity) * onGrid (fun c => (σ.bed c).zb) i j - ∑ f, onGrid (fun c => o.pickup c f) i j
          - onGrid (fun c => L c) i j := by
      rw [mul_sub, mul_sub, mul_div_cancel₀ _ hρ, mul_div_cancel₀ _ hρ]
    rw [this]
    ring
  rw [hkey]
  constructor
  · refine sum_nonneg fun i hi => sum_nonneg fun j hj => ?_
    rw [mem_range] at hi
    rw [mem_Ico] at hj
    exact mul_nonneg (mul_nonneg (h.dsPos i (by omega) j (by omega)) (h.dnPos i (by omega) j (by omega)))
      (sum_nonneg fun f _ => (hEb f i j).1)
  · unfold surface
    rw [mul_sum]
    refine sum_le_sum fun i hi => ?_
    rw [mul_sum]
    refine sum_le_sum fun j hj => ?_
    rw [mem_range] at hi
    rw [mem_Ico] at hj
    rw [mul_comm]
    refine mul_le_mul_of_nonneg_right ?_ (mul_nonneg (h.dsPos i (by omega) j (by omega)) (h.dnPos i (by omega) j (by omega)))
    calc ∑ f, onGrid (E f) i j ≤ ∑ _f : Fin nf, t.solver.maxError := sum_le_sum fun f _ => (hEb f i j).2
      _ = t.solver.maxError * nf := by rw [sum_const, card_univ, Fintype.card_fin, nsmul_eq_mul, mul_comm]

/-- C116, one time step in which no cell receives more than its top layer holds: the mass of the sand in bed and air together changes by
what enters through the ends of the rows less what leaves there, what is lost where the wind changes direction and what leaves a
transect sideways, to within the tolerance of the solver times the number of fractions per unit area; the error is never negative. -/
theorem C116_step (p : Bed.Params K nf) (D : Domain K) (σ σ' : State K D.nx D.ny nf) (t : Step K D.nx D.ny nf)
    (h : t.Fits D σ) (hmod : t.Modest σ) (hb : p.processBedupdate = true) (hρ : p.rhog * (1 - p.porosity) ≠ 0)
    (hr : Sand.step p t.solver t.pk t.w σ = .ok σ') :
    0 ≤ total p D σ' - total p D σ - ∑ f, supply (t.sys f) (onGrid fun c => σ'.Ct c f) ∧
    total p D σ' - total p D σ - ∑ f, supply (t.sys f) (onGrid fun c => σ'.Ct c f) ≤ t.solver.maxError * nf * surface D := by
  cases ho : solve t.solver σ.Ct t.pk t.w with
  | error e => unfold Sand.step at hr; rw [ho] at hr; cases hr
  | ok o =>
    have := C116_step_any p D σ σ' t h hb hρ o ho hr
    have hz : ∀ c, (if Spec.layerTotal (σ.bed c).mass 0 < -∑ f, o.pickup c f then -∑ f, o.pickup c f else 0) = 0 := by
      intro c
      refine if_neg fun hlt => ?_
      have h0 : 0 ≤ Spec.layerTotal (σ.bed c).mass 0 := sum_nonneg fun f _ => h.massPos c f
      exact absurd (hmod o ho c (by linarith)) (not_lt.mpr hlt.le)
    simp only [hz] at this
    have hg : ∀ i j, onGrid (nx := D.nx) (ny := D.ny) (fun _ => (0 : K)) i j = 0 := by
      intro i j
      unfold onGrid
      split <;> rfl
    simp only [hg, mul_zero, sum_const_zero, add_zero] at this
    exact this

/-- C116, whatever is deposited: sand is not created, up to the tolerance of the solver. -/
theorem C116_step_no_more (p : Bed.Params K nf) (D : Domain K) (σ σ' : State K D.nx D.ny nf) (t : Step K D.nx D.ny nf)
    (h : t.Fits D σ) (hb : p.processBedupdate = true) (hρ : p.rhog * (1 - p.porosity) ≠ 0)
    (hr : Sand.step p t.solver t.pk t.w σ = .ok σ') :
    total p D σ' ≤ total p D σ + ∑ f, supply (t.sys f) (onGrid fun c => σ'.Ct c f) + t.solver.maxError * nf * surface D := by
  cases ho : solve t.solver σ.Ct t.pk t.w with
  | error e => unfold Sand.step at hr; rw [ho] at hr; cases hr
  | ok o =>
    have := (C116_step_any p D σ σ' t h hb hρ o ho hr).2
    have hl : 0 ≤ ∑ i ∈ range (D.ny + 1), ∑ j ∈ Ico 1 D.nx, D.ds i j * D.dn i j *
        onGrid (fun c => if Spec.layerTotal (σ.bed c).mass 0 < -∑ f, o.pickup c f then -∑ f, o.pickup c f else 0) i j := by
      refine sum_nonneg fun i hi => sum_nonneg fun j hj => ?_
      rw [mem_range] at hi
      rw [mem_Ico] at hj
      refine mul_nonneg (mul_nonneg (h.dsPos i (by omega) j (by omega)) (h.dnPos i (by omega) j (by omega))) ?_
      have hn : ∀ c, 0 ≤ if Spec.layerTotal (σ.bed c).mass 0 < -∑ f, o.pickup c f then -∑ f, o.pickup c f else 0 := by
        intro c
        split_ifs with hlt
        · have h0 : 0 ≤ Spec.layerTotal (σ.bed c).mass 0 := sum_nonneg fun f _ => h.massPos c f
          exact h0.trans hlt.le
        · exact le_rfl
      unfold onGrid
      split
      · exact hn _
      · exact le_rfl
    linarith

/-- C116, a run of any length: the errors of the time steps add up, and that is all. -/
theorem C116_run (p : Bed.Params K nf) (D : Domain K) (σ : ℕ → State K D.nx D.ny nf) (t : ℕ → Step K D.nx D.ny nf) (n : ℕ)
    (hb : p.processBedupdate = true) (hρ : p.rhog * (1 - p.porosity) ≠ 0)
    (h : ∀ k < n, (t k).Fits D (σ k) ∧ (t k).Modest (σ k) ∧
      Sand.step p (t k).solver (t k).pk (t k).w (σ k) = .ok (σ (k + 1))) :
    let error := total p D (σ n) - total p D (σ 0)
      - ∑ k ∈ range n, ∑ f, supply ((t k).sys f) (onGrid fun c => (σ (k + 1)).Ct c f)
    0 ≤ error ∧ error ≤ (∑ k ∈ range n, (t k).solver.maxError) * nf * surface D := by
  induction n with
  | zero => simp
  | succ n ih =>
    obtain ⟨l, u⟩ := ih fun k hk => h k (by omega)
    obtain ⟨h1, h2, h3⟩ := h n (by omega)
    obtain ⟨l', u'⟩ := C116_step p D (σ n) (σ (n + 1)) (t n) h1 h2 hb hρ h3
    simp only [sum_range_succ] at l u ⊢
    constructor
    · linarith
    · rw [add_mul, add_mul]; linarith

/-- C116: onshore wind and no sand at the seaward end: sand is not created, up to the tolerance of the solver. -/
theorem C116_not_created (p : Bed.Params K nf) (D : Domain K) (σ σ' : State K D.nx D.ny nf) (t : Step K D.nx D.ny nf)
    (h : t.Fits D σ) (hb : p.processBedupdate = true) (hρ : p.rhog * (1 - p.porosity) ≠ 0)
    (hr : Sand.step p t.solver t.pk t.w σ = .ok σ')
    (hus : ∀ f, ∀ i ≤ D.ny, ∀ j ≤ D.nx, 0 ≤ (t.sys f).us i j)
    (hsea : ∀ f, ∀ i ≤ D.ny, onGrid (fun c => σ'.Ct c f) i 0 = 0) :
    total p D σ' ≤ total p D σ + t.solver.maxError * nf * surface D := by
  have hu := C116_step_no_more p D σ σ' t h hb hρ hr
  have hC : ∀ f i j, 0 ≤ onGrid (fun c => σ'.Ct c f) i j := by
    unfold Sand.step at hr
    cases ho : solve t.solver σ.Ct t.pk t.w with
    | error e => rw [ho] at hr; cases hr
    | ok o =>
      rw [ho] at hr
      cases hr
      intro f i j
      obtain ⟨hT, hdt, he⟩ := h.timePos
      obtain ⟨W, hW, hCt, _⟩ := solve_balance t.solver hT hdt he h.CuPos (fun c f => by rw [h.mass]; exact h.massPos c f)
        (fun f w hw => (h.lin f w hw).2) σ.Ct t.pk t.w h.weights o ho f
      show 0 ≤ onGrid (fun c => o.Ct c f) i j
      rw [hCt]
      unfold onGrid
      split
      · exact (h.lin f W hW).2 _
      · exact le_rfl
  have hs : ∑ f, supply (t.sys f) (onGrid fun c => σ'.Ct c f) ≤ 0 := by
    refine sum_nonpos fun f _ => ?_
    have hnx := (h.flow f).nx
    rw [h.nx f] at hnx
    unfold supply
    have ha : 0 ≤ aside (t.sys f) (onGrid fun c => σ'.Ct c f) := by
      unfold aside
      split_ifs with hy
      · refine sum_nonneg fun j hj => mul_nonneg (mul_nonneg ?_ (abs_nonneg _)) (hC f 0 j)
        rw [mem_Ico, h.nx f] at hj
        rw [h.ds f]
        exact h.dsPos 0 (Nat.zero_le _) j hj.2.le
      · exact le_rfl
    refine mul_nonpos_of_nonneg_of_nonpos (by rw [h.dt f]; exact h.timePos.2.1.le) (sub_nonpos.mpr (le_trans (sum_nonpos fun i hi => ?_) ha))
    rw [mem_range, h.ny f] at hi
    refine mul_nonpos_of_nonneg_of_nonpos (by rw [h.dn f]; exact h.dnPos i (by omega) 0 (Nat.zero_le _)) ?_
    have e : entering (t.sys f) (onGrid fun c => σ'.Ct c f) i = 0 := by
      unfold entering
      rw [if_pos (hus f i (by omega) 1 (by omega)), hsea f i (by omega), mul_zero]
    have l : 0 ≤ leaving (t.sys f) (onGrid fun c => σ'.Ct c f) i := by
      unfold leaving
      have := hus f i (by omega) (D.nx - 1) (by omega)
      rw [h.nx f, if_pos this]
      exact mul_nonneg this (hC f i _)
    have b : 0 ≤ ∑ j ∈ Ico 1 ((t.sys f).nx - 1), lostBetween (t.sys f) (onGrid fun c => σ'.Ct c f) i j := by
      refine sum_nonneg fun j _ => ?_
      unfold lostBetween
      split
      · exact le_rfl
      · exact add_nonneg (mul_nonneg (abs_nonneg _) (hC f i j)) (mul_nonneg (abs_nonneg _) (hC f i (j + 1)))
    linarith
  linarith

/-! ### A transect of three cells -/

/-- Grid of the transect. -/
def shortBeach : Domain ℚ := { nx := 2, ny := 0, ds := fun _ _ => 1, dn := fun _ _ => 1 }

/-- One layer of one fraction. -/
def exParams1 : Bed.Params ℚ 1 :=
  { nl := 1, rhog := 2650, porosity := 2 / 5, maxError := 1 / 1000000, source := .uniform ![1], processBedupdate := true,
    processTide := false }

/-- Flat bed of one fraction, no sand in the air. -/
def shortBeachState : State ℚ 2 0 1 :=
  { bed := fun _ => { mass := fun _ _ => 10, pickup := fun _ => 0, zb := 1, zs := 0, dzb := 0 }, Ct := fun _ _ => 0 }

/-- Onshore wind, no sand from the sea, equilibrium concentration one. -/
def shortBeachStep : Step ℚ 2 0 1 where
  sys _ :=
    { nx := 2, ny := 0, dt := 1, T := 1, alpha := 1, beta := 1, ds := fun _ _ => 1, dn := fun _ _ => 1, dsdni := fun _ _ => 1,
      us := fun _ _ => 1, un := fun _ _ => 0 }
  bounds := ⟨"flux", "uniform", "circular"⟩
  bc := ⟨fun _ => 0, fun _ => 0, fun _ => -1, fun _ => 0, false⟩
  rhs _ :=
    { w := fun _ _ => 1, Cu := onGrid (nx := 2) (ny := 0) (fun _ => 1), Cuf := onGrid (nx := 2) (ny := 0) (fun _ => 1),
      S := fun _ _ => 1, lw := fun _ _ => 1, lCu := fun _ _ => 1, lCuf := fun _ _ => 1, lCt := fun _ _ => 0, offFlux := fun _ => 0,
      onFlux := fun _ => 0, offConst := fun _ => 0, onConst := fun _ => 0 }
  solver :=
    { T := 1, dt := 1, maxError := 1 / 1000000, maxIter := 100, Cu := fun _ _ => 1, mass := fun _ _ => 10,
      lin := fun _ w c => if (c : ℕ) = 0 then 0 else w 1 / 3 }
  pk _ _ := 0
  w _ _ := 1

theorem shortBeach_lin (w : Fin (cells 2 0) → ℚ) : Solves (shortBeachStep.sys 0) shortBeachStep.bounds shortBeachStep.bc
    { shortBeachStep.rhs 0 with w := onGrid w } (onGrid (shortBeachStep.solver.lin 0 w)) := by
  have hA := matrix_ok (shortBeachStep.sys 0) shortBeachStep.bc (by simp [shortBeachStep]) (by simp [shortBeachStep])
  refine ⟨_, hA, ?_⟩
  funext c
  obtain ⟨i, j, hi, hj, rfl⟩ := index_cases (shortBeachStep.sys 0) c
  rw [mulVec_gridOf (shortBeachStep.sys 0) _ (by simp [shortBeachStep]) _ hA _ hi hj]
  have hi0 : i = 0 := by simp [shortBeachStep] at hi; omega
  subst hi0
  simp only [shortBeachStep] at hj
  interval_cases j <;>
    norm_num [rowPart, acrossPart, Adv.A0, Adv.Am1, Adv.Ap1, Adv.Am2, Adv.Ap2, Adv.latRow, gridOf, onGrid, cells,
      shortBeachStep, Adv.sgs, Adv.sgn, Adv.ixs, Adv.ixn, Adv.facS, Adv.facN, Adv.Ti, Adv.usPlus, Adv.usMin,
      Adv.rhs, Adv.yIm]
  rw [mul_div_cancel₀]
  norm_num

theorem shortBeach_fits : shortBeachStep.Fits shortBeach shortBeachState where
  nx _ := rfl
  ny _ := rfl
  ds _ := rfl
  dn _ := rfl
  dsPos _ _ _ _ := by norm_num [shortBeach]
  dnPos _ _ _ _ := by norm_num [shortBeach]
  dt _ := rfl
  T _ := rfl
  alpha _ := rfl
  flow _ := ⟨by simp [shortBeachStep], by simp [shortBeachStep], by simp [shortBeachStep], rfl,
    fun _ _ _ _ => by simp [shortBeachStep], fun _ _ _ _ => rfl⟩
  side _ := Or.inl rfl
  Cuf _ := rfl
  Cu _ _ _ := rfl
  lCt _ i j := by simp [shortBeachStep, shortBeachState, onGrid]
  mass _ _ := rfl
  massPos _ _ := by norm_num [shortBeachState]
  CuPos _ _ := by norm_num [shortBeachStep]
  timePos := by norm_num [shortBeachStep]
  weights _ _ := by norm_num [shortBeachStep]
  lin f w hw := by
    obtain rfl : f = 0 := Subsingleton.elim _ _
    refine ⟨shortBeach_lin w, fun c => ?_⟩
    show (0 : ℚ) ≤ if (c : ℕ) = 0 then 0 else w 1 / 3
    split
    · exact le_rfl
    · exact div_nonneg (hw 1) (by norm_num)

theorem shortBeach_solve : (solve shortBeachStep.solver shortBeachState.Ct shortBeachStep.pk shortBeachStep.w).toOption.map
    (fun o => (o.pickup 0 0, o.pickup 1 0, o.pickup 2 0, onGrid (fun c => o.Ct c 0) 0 0, onGrid (fun c => o.Ct c 0) 0 1)) =
      some (1, 2 / 3, 2 / 3, 0, 1 / 3) := by decide +kernel

theorem shortBeach_modest : shortBeachStep.Modest shortBeachState := by
  intro o ho c hneg
  have := shortBeach_solve
  rw [ho] at this
  simp only [Except.toOption, Option.map_some, Option.some.injEq, Prod.mk.injEq] at this
  rw [Fin.sum_univ_one] at hneg
  have hc : c = 0 ∨ c = 1 ∨ c = 2 := by
    rcases c with ⟨v, hv⟩
    have : v < 3 := hv
    interval_cases v
    · exact Or.inl rfl
    · exact Or.inr (Or.inl rfl)
    · exact Or.inr (Or.inr rfl)
  rcases hc with rfl | rfl | rfl <;> linarith

theorem shortBeach_ok : ∃ σ', Sand.step exParams1 shortBeachStep.solver shortBeachStep.pk shortBeachStep.w shortBeachState = .ok σ' ∧
    onGrid (fun c => σ'.Ct c 0) 0 0 = 0 ∧ onGrid (fun c => σ'.Ct c 0) 0 1 = 1 / 3 := by
  have h := shortBeach_solve
  unfold Sand.step
  cases ho : solve shortBeachStep.solver shortBeachState.Ct shortBeachStep.pk shortBeachStep.w with
  | error e => rw [ho] at h; simp [Except.toOption] at h
  | ok o =>
    rw [ho] at h
    simp only [Except.toOption, Option.map_some, Option.some.injEq, Prod.mk.injEq] at h
    exact ⟨_, rfl, h.2.2.2.1, h.2.2.2.2⟩

/-- The step succeeds; the sum of the sand decreases by what leaves at the landward end. -/
example : ∃ σ', Sand.step exParams1 shortBeachStep.solver shortBeachStep.pk shortBeachStep.w shortBeachState = .ok σ' ∧
    total exParams1 shortBeach σ' ≤ total exParams1 shortBeach shortBeachState + 1 / 1000000 ∧
    |total exParams1 shortBeach σ' - total exParams1 shortBeach shortBeachState + 1 / 3| ≤ 1 / 1000000 := by
  obtain ⟨σ', h, h0, h1⟩ := shortBeach_ok
  have hs : surface shortBeach = 1 := by decide +kernel
  refine ⟨σ', h, ?_, ?_⟩
  · have := C116_not_created exParams1 shortBeach shortBeachState σ' shortBeachStep shortBeach_fits rfl
      (by norm_num [exParams1]) h (fun _ _ _ _ _ => by norm_num [shortBeachStep]) ?_
    · rw [hs] at this
      norm_num [shortBeachStep] at this ⊢
      linarith
    · intro f i hi
      obtain rfl : f = 0 := Subsingleton.elim _ _
      obtain rfl : i = 0 := by simp only [shortBeach] at hi; omega
      exact h0
  · have := C116_step exParams1 shortBeach shortBeachState σ' shortBeachStep shortBeach_fits shortBeach_modest rfl
      (by norm_num [exParams1]) h
    have hsup : supply (shortBeachStep.sys 0) (onGrid (nx := shortBeach.nx) (ny := shortBeach.ny) fun c => σ'.Ct c 0) =
        -1 / 3 := by
      unfold supply aside entering leaving
      simp only [shortBeachStep]
      norm_num
      linarith [show onGrid (nx := shortBeach.nx) (ny := shortBeach.ny) (fun c => σ'.Ct c 0) 0 0 = 0 from h0,
        show onGrid (nx := shortBeach.nx) (ny := shortBeach.ny) (fun c => σ'.Ct c 0) 0 1 = 1 / 3 from h1]
    rw [hs, Fin.sum_univ_one, hsup] at this
    norm_num [shortBeachStep] at this
    rw [abs_le]
    constructor <;> linarith [this.1, this.2]

end Aeolis.Props
