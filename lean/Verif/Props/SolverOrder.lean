import Verif.Props.SolverBound
import Verif.Props.SolverSteady
import Verif.Spec.SolverOrder
import Mathlib.Topology.Algebra.Order.Field
import Mathlib.Analysis.SpecificLimits.Basic

/-!
C150, C151, C152, C153: more supply or capacity gives nowhere less sand in the air; nothing travels upwind; from any initial state the
concentrations approach the steady ones; concentrations for combined inputs are combined concentrations.
-/

set_option linter.unusedSectionVars false

namespace Aeolis.Props

open Finset Aeolis.Solver

variable {K : Type*} [Field K] [LinearOrder K] [IsStrictOrderedRing K]

theorem rows_combine (a : Adv K) (bc : BcRows K) (p q : K) (x y : ℕ → ℕ → K) (i j : ℕ) :
    rowPart a bc (fun i j => p * x i j + q * y i j) i j + acrossPart a bc (fun i j => p * x i j + q * y i j) i j =
      p * (rowPart a bc x i j + acrossPart a bc x i j) + q * (rowPart a bc y i j + acrossPart a bc y i j) := by
  unfold rowPart acrossPart
  split <;> ring

theorem rhs_implicit (a : Adv K) (b : Bounds) (v : Rhs K) (hα : a.alpha = 1) {i j : ℕ} (h0 : 1 ≤ j) (hj : j < a.nx) :
    a.rhs b v i j = v.lCt i j + a.Ti * weightedCapacity v i j := by
  unfold Adv.rhs Adv.yIm weightedCapacity
  simp only [show ¬ j = 0 by omega, show ¬ j = a.nx by omega, and_false, if_false]
  rw [if_pos ⟨h0, hj⟩, hα]
  ring

theorem rhs_le (a : Adv K) (b : Bounds) (v v' : Rhs K) (hα : a.alpha = 1) (hT : 0 ≤ a.Ti) (h : NoLess a v v') {i j : ℕ} (hi : i ≤ a.ny)
    (hj : j ≤ a.nx) : a.rhs b v i j ≤ a.rhs b v' i j := by
  by_cases hin : 1 ≤ j ∧ j < a.nx
  · rw [rhs_implicit a b v hα hin.1 hin.2, rhs_implicit a b v' hα hin.1 hin.2]
    have := mul_le_mul_of_nonneg_left (h.capacity i hi j hj) hT
    have := h.air i hi j hj
    linarith
  · unfold Adv.rhs
    simp only [if_neg hin]
    have := h.offFlux i hi
    have := h.onFlux i hi
    have := h.offConst i hi
    have := h.onConst i hi
    split_ifs <;> first | assumption | exact le_rfl

/-- **C150** With the implicit scheme and onshore transport, a solution for nowhere less capacity, no less sand in the air before the step and
no less sand coming in at the ends is nowhere smaller; the last column is exempt only where it is extrapolated. -/
theorem C150_no_less (a : Adv K) (b : Bounds) (qoff qon : ℕ → K) (bc : BcRows K) (h : Onshore a) (hα : a.alpha = 1)
    (hb : boundaries b qoff qon = .ok bc) (hoff : b.off = "flux" ∨ b.off = "noflux" ∨ b.off = "constant") (v v' : Rhs K) (hv : NoLess a v v')
    (x x' : ℕ → ℕ → K) (hx : Solves a b bc v x) (hx' : Solves a b bc v' x') {i j : ℕ} (hi : i ≤ a.ny) (hj : j ≤ a.nx)
    (hlast : j < a.nx ∨ b.on ≠ "gradient" ∨ b.off = "noflux") : x i j ≤ x' i j := by
  have hn := h.nx
  obtain ⟨h1, h2⟩ := offshore_zero b qoff qon bc hb hoff
  rw [solves_iff a b bc v x h.nx h.ny] at hx
  rw [solves_iff a b bc v' x' h.nx h.ny] at hx'
  have hrow : ∀ i ≤ a.ny, ∀ j ≤ a.nx, 0 ≤ rowPart a bc (fun i j => 1 * x' i j + -1 * x i j) i j +
      acrossPart a bc (fun i j => 1 * x' i j + -1 * x i j) i j := fun i hi j hj => by
    rw [rows_combine, hx i hi j hj, hx' i hi j hj]
    have := rhs_le a b v v' hα (div_nonneg h.dt h.T) hv hi hj
    linarith
  have hcol := onshore_columns a bc h _ (fun i _ => h1 i) (fun i _ => h2 i) fun i hi j hj => hrow i hi j hj.le
  rcases Nat.lt_or_ge j a.nx with hlt | hge
  · have := hcol j hlt i hi
    linarith
  · obtain rfl : j = a.nx := by omega
    obtain ⟨g1, g2⟩ := onshore_simple b qoff qon bc hb (hlast.resolve_left (lt_irrefl _))
    have := hrow i hi a.nx le_rfl
    rw [last_column a bc hn, g2 i] at this
    have hc := hcol (a.nx - 1) (by omega) i hi
    have hcoef : (if a.latRow bc i then 0 else bc.onM1 i) ≤ 0 := by
      split
      · exact le_rfl
      · exact g1 i
    have := mul_nonneg_of_nonpos_of_nonpos hcoef (neg_nonpos.mpr hc)
    linarith

/-- **C150** On a transect with transport in any direction that nowhere diverges, and prescribed values at both ends, likewise. -/
theorem C150_no_less_transect (a : Adv K) (b : Bounds) (qoff qon : ℕ → K) (bc : BcRows K) (h : Transect a) (hdiv : NonDiverging a) (hα : a.alpha = 1)
    (hb : boundaries b qoff qon = .ok bc) (hoff : b.off = "flux" ∨ b.off = "noflux" ∨ b.off = "constant")
    (hon : b.on = "flux" ∨ b.on = "constant" ∨ b.off = "noflux") (v v' : Rhs K) (hv : NoLess a v v')
    (x x' : ℕ → ℕ → K) (hx : Solves a b bc v x) (hx' : Solves a b bc v' x') {j : ℕ} (hj : j ≤ a.nx) : x 0 j ≤ x' 0 j := by
  have hy : a.ny ≠ 1 := by rw [h.ny]; exact zero_ne_one
  obtain ⟨A, hA, e⟩ := hx
  obtain ⟨A', hA', e'⟩ := hx'
  obtain rfl : A = A' := Except.ok.inj (hA.symm.trans hA')
  have hi : 0 ≤ a.ny := Nat.zero_le _
  have key := C48_any_direction_nonneg a b qoff qon bc h hdiv hb hoff (Or.inl hon) A hA
    ((fun c : Fin ((a.ny + 1) * (a.nx + 1)) => x' ((c : ℕ) / (a.nx + 1)) ((c : ℕ) % (a.nx + 1))) -
      fun c : Fin ((a.ny + 1) * (a.nx + 1)) => x ((c : ℕ) / (a.nx + 1)) ((c : ℕ) % (a.nx + 1))) (fun c => ?_)
      ⟨0 * (a.nx + 1) + j, index_lt a hi hj⟩
  · have q : j % (a.nx + 1) = j := Nat.mod_eq_of_lt (by omega)
    have q' : j / (a.nx + 1) = 0 := Nat.div_eq_of_lt (by omega)
    simpa [q, q'] using key
  · rw [Matrix.mulVec_sub, e, e']
    obtain ⟨i, j, hi, hj, rfl⟩ := index_cases a c
    have e1 : (i * (a.nx + 1) + j) / (a.nx + 1) = i := by
      rw [mul_comm, Nat.mul_add_div (by omega), Nat.div_eq_of_lt (by omega), add_zero]
    have e2 : (i * (a.nx + 1) + j) % (a.nx + 1) = j := by
      rw [mul_comm, Nat.mul_add_mod, Nat.mod_eq_of_lt (by omega)]
    simp only [Pi.sub_apply, e1, e2]
    exact sub_nonneg.mpr (rhs_le a b v v' hα (div_nonneg h.dt h.T) hv hi hj)

/-! ### Nothing travels upwind -/

/-- The equations of the columns before `J` contain the speeds of these columns only. -/
theorem same_rows (a : Adv K) (us' un' : ℕ → ℕ → K) (bc : BcRows K) (h : Onshore a) (J : ℕ) (hJ : J ≤ a.nx)
    (hus : ∀ i ≤ a.ny, ∀ j < J, us' i j = a.us i j) (hun : ∀ i ≤ a.ny, ∀ j < J, un' i j = a.un i j) (x : ℕ → ℕ → K) {i j : ℕ}
    (hi : i ≤ a.ny) (hj : j < J) :
    rowPart { a with us := us', un := un' } bc x i j + acrossPart { a with us := us', un := un' } bc x i j =
      rowPart a bc x i j + acrossPart a bc x i j := by
  have e1 := hus i hi j hj
  have e2 := hun i hi j hj
  have e3 := hus i hi (j - 1) (by omega)
  have e4 := hus i hi 0 (by omega)
  have p := h.us i hi j (by omega)
  have hb := h.beta
  have hpr : prevRow a.ny i ≤ a.ny := by unfold prevRow; split <;> omega
  have hnr : nextRow a.ny i ≤ a.ny := by unfold nextRow; split <;> omega
  have e5 := hun _ hnr j hj
  have e6 : ∀ i ≤ a.ny, un' i j = a.un i j := fun i hi => hun i hi j hj
  have e7 : un' 0 j = a.un 0 j := e6 0 (Nat.zero_le _)
  have e8 : un' (i - 1) j = a.un (i - 1) j := e6 _ (by omega)
  have e9 : un' a.ny j = a.un a.ny j := e6 _ le_rfl
  congr 1
  · unfold rowPart Adv.A0 Adv.Am1 Adv.Ap1 Adv.Am2 Adv.Ap2 Adv.latRow Adv.sgs Adv.sgn Adv.ixs Adv.ixn Adv.facS Adv.facN Adv.usPlus Adv.Ti
    simp only [e1, e2, e3, e4, if_pos p, hb, if_true, sub_self, mul_zero]
  · unfold acrossPart
    split
    · rename_i hy
      have q : 0 ≤ a.un (nextRow a.ny i) j := h.un hy _ hnr j (by omega)
      unfold Adv.Amx Adv.Apx Adv.latRow Adv.ixn Adv.facN Adv.unPlus
      simp only [e2, e5, e7, e8, if_pos q, hb, if_true, sub_self, mul_zero]
    · rfl

theorem same_rhs (a : Adv K) (us' un' : ℕ → ℕ → K) (b : Bounds) (h : Onshore a) (J : ℕ) (hJ : J ≤ a.nx)
    (hus : ∀ i ≤ a.ny, ∀ j < J, us' i j = a.us i j) (hun : ∀ i ≤ a.ny, ∀ j < J, un' i j = a.un i j) (v v' : Rhs K)
    (hv : SameUpTo a J v v') {i j : ℕ} (hi : i ≤ a.ny) (hj : j < J) :
    ({ a with us := us', un := un' } : Adv K).rhs b v' i j = a.rhs b v i j := by
  have hne : ¬ j = a.nx := by omega
  unfold Adv.rhs
  simp only [hne, and_false, if_false, hv.offFlux i hi, hv.offConst i hi]
  by_cases hin : 1 ≤ j ∧ j < a.nx
  · rw [if_pos hin, if_pos hin]
    have e1 := hus i hi j hj
    have e2 := hun i hi j hj
    have e3 := hus i hi (j - 1) (by omega)
    have p := h.us i hi j (by omega)
    have hb := h.beta
    have hpr : prevRow a.ny i ≤ a.ny := by unfold prevRow; split <;> omega
    have hnr : nextRow a.ny i ≤ a.ny := by unfold nextRow; split <;> omega
    have a1 := hv.air i hi j hj
    have a2 := hv.air i hi (j - 1) (by omega)
    have a3 := hv.air _ hpr j hj
    have a4 := hv.air _ hnr j hj
    have c1 := hv.capacity i hi j hj
    have c2 := hv.previous i hi j hj
    have m1 : ∀ a : Adv K, ∀ v : Rhs K, a.yIm v i j = a.Ti * weightedCapacity v i j := fun a v => by
      unfold Adv.yIm weightedCapacity; ring
    have m2 : ∀ a : Adv K, ∀ v : Rhs K, (v.lw i j * v.lCuf i j * a.Ti) * (1 - v.S i j) + (v.lw i j * v.lCu i j * a.Ti) * v.S i j =
        a.Ti * previousCapacity v i j := fun a v => by
      unfold previousCapacity; ring
    have e6 : ∀ i ≤ a.ny, un' i j = a.un i j := fun i hi => hun i hi j hj
    have u1 : ({ a with us := us', un := un' } : Adv K).unPlus i j = a.unPlus i j := by
      unfold Adv.unPlus
      simp only [e6 0 (Nat.zero_le _), e6 (i - 1) (by omega)]
    have u2 : ({ a with us := us', un := un' } : Adv K).unMin i j = a.unMin i j := by
      unfold Adv.unMin
      simp only
      split
      · exact e6 _ le_rfl
      · exact e6 _ (by omega)
    have u3 : ({ a with us := us', un := un' } : Adv K).usPlus i j = a.usPlus i j := by
      unfold Adv.usPlus
      simp only [show ¬ j = 0 by omega, if_false, e3]
    have i1 : ({ a with us := us', un := un' } : Adv K).ixs i j = 1 := by unfold Adv.ixs; simp only [e1, if_pos p, hb, if_true]
    have i2 : a.ixs i j = 1 := by unfold Adv.ixs; simp only [if_pos p, hb, if_true]
    have i3 : ({ a with us := us', un := un' } : Adv K).ixn i j = a.ixn i j := by unfold Adv.ixn; simp only [e2]
    unfold Adv.yEx
    rw [m1, m1, m2, m2, u1, u2, u3, i1, i2, i3, c1, c2, a1, a2, a3, a4]
    unfold Adv.sgs Adv.sgn
    rw [i1, i2, i3]
    simp only [e1, e2, hb, if_true, sub_self, zero_mul, Adv.facS, Adv.facN, Adv.Ti]
  · rw [if_neg hin, if_neg hin]

/-- **C151** With onshore transport and a given concentration at the offshore end, the concentrations in the first columns do not depend on
what happens in the others: two solutions for speeds, capacities and previous concentrations that agree in the columns before `J` agree
there, whatever the implicitness. -/
theorem C151_upwind (a : Adv K) (us' un' : ℕ → ℕ → K) (b : Bounds) (qoff qon : ℕ → K) (bc : BcRows K) (h : Onshore a)
    (hb : boundaries b qoff qon = .ok bc) (hoff : b.off = "flux" ∨ b.off = "noflux" ∨ b.off = "constant") (J : ℕ) (hJ : J ≤ a.nx)
    (hus : ∀ i ≤ a.ny, ∀ j < J, us' i j = a.us i j) (hun : ∀ i ≤ a.ny, ∀ j < J, un' i j = a.un i j) (v v' : Rhs K)
    (hv : SameUpTo a J v v') (x x' : ℕ → ℕ → K) (hx : Solves a b bc v x) (hx' : Solves { a with us := us', un := un' } b bc v' x') {i j : ℕ}
    (hi : i ≤ a.ny) (hj : j < J) : x i j = x' i j := by
  obtain ⟨h1, h2⟩ := offshore_zero b qoff qon bc hb hoff
  rw [solves_iff a b bc v x h.nx h.ny] at hx
  rw [solves_iff { a with us := us', un := un' } b bc v' x' h.nx h.ny] at hx'
  have hr : ∀ i ≤ a.ny, ∀ j < J, rowPart a bc x' i j + acrossPart a bc x' i j = rowPart a bc x i j + acrossPart a bc x i j :=
    fun i hi j hj => by
      rw [← same_rows a us' un' bc h J hJ hus hun x' hi hj, hx' i hi j (show j ≤ a.nx by omega), hx i hi j (by omega),
        same_rhs a us' un' b h J hJ hus hun v v' hv hi hj]
  have p1 := onshore_columns_upTo a bc h (fun i j => 1 * x' i j + -1 * x i j) (fun i _ => h1 i) (fun i _ => h2 i) J hJ
    (fun i hi j hj => by rw [rows_combine, hr i hi j hj]; simp) j hj i hi
  have p2 := onshore_columns_upTo a bc h (fun i j => 1 * x i j + -1 * x' i j) (fun i _ => h1 i) (fun i _ => h2 i) J hJ
    (fun i hi j hj => by rw [rows_combine, hr i hi j hj]; simp) j hj i hi
  linarith

/-! ### Superposition -/

/-- **C153** The concentrations are a linear response: for the same weights and speeds, a combination of capacities, previous concentrations
and values at the ends gives the same combination of concentrations.  Any implicitness, direction and boundary condition. -/
theorem C153_superposition (a : Adv K) (b : Bounds) (bc : BcRows K) (hn : 2 ≤ a.nx) (hny : a.ny ≠ 1) (v v' : Rhs K) (hw : v'.w = v.w)
    (hlw : v'.lw = v.lw) (hS : v'.S = v.S) (x x' : ℕ → ℕ → K) (hx : Solves a b bc v x) (hx' : Solves a b bc v' x') (p q : K) :
    Solves a b bc
      { v with
        Cu := fun i j => p * v.Cu i j + q * v'.Cu i j, Cuf := fun i j => p * v.Cuf i j + q * v'.Cuf i j
        lCu := fun i j => p * v.lCu i j + q * v'.lCu i j, lCuf := fun i j => p * v.lCuf i j + q * v'.lCuf i j
        lCt := fun i j => p * v.lCt i j + q * v'.lCt i j
        offFlux := fun i => p * v.offFlux i + q * v'.offFlux i, onFlux := fun i => p * v.onFlux i + q * v'.onFlux i
        offConst := fun i => p * v.offConst i + q * v'.offConst i, onConst := fun i => p * v.onConst i + q * v'.onConst i }
      fun i j => p * x i j + q * x' i j := by
  rw [solves_iff a b bc _ _ hn hny] at hx hx' ⊢
  intro i hi j hj
  rw [rows_combine, hx i hi j hj, hx' i hi j hj]
  unfold Adv.rhs Adv.yIm Adv.yEx
  simp only [hw, hlw, hS]
  split_ifs <;> ring

/-- **C153** Nothing comes of nothing: where the system has one solution, without capacity, sand in the air and supply at the ends there
is no sand in the air after the step either. -/
theorem C153_nothing (a : Adv K) (b : Bounds) (qoff qon : ℕ → K) (bc : BcRows K) (h : Onshore a) (hb : boundaries b qoff qon = .ok bc)
    (hoff : b.off = "flux" ∨ b.off = "noflux" ∨ b.off = "constant") (v : Rhs K)
    (hv : v.Cu = 0 ∧ v.Cuf = 0 ∧ v.lCu = 0 ∧ v.lCuf = 0 ∧ v.lCt = 0 ∧ v.offFlux = 0 ∧ v.onFlux = 0 ∧ v.offConst = 0 ∧ v.onConst = 0)
    (x : ℕ → ℕ → K) (hx : Solves a b bc v x) {i j : ℕ} (hi : i ≤ a.ny) (hj : j ≤ a.nx) : x i j = 0 := by
  obtain ⟨A, hA, e⟩ := hx
  obtain ⟨h1, h2⟩ := offshore_zero b qoff qon bc hb hoff
  obtain ⟨k1, k2, k3, k4, k5, k6, k7, k8, k9⟩ := hv
  have := onshore_injective a bc h A hA h1 h2 _ (e.trans (funext fun c => by
    unfold Adv.rhs Adv.yIm Adv.yEx
    simp [k1, k2, k3, k4, k5, k6, k7, k8, k9]))
  have := congrFun this ⟨i * (a.nx + 1) + j, index_lt a hi hj⟩
  have e1 : (i * (a.nx + 1) + j) / (a.nx + 1) = i := by
    rw [mul_comm, Nat.mul_add_div (by omega), Nat.div_eq_of_lt (by omega), add_zero]
  have e2 : (i * (a.nx + 1) + j) % (a.nx + 1) = j := by
    rw [mul_comm, Nat.mul_add_mod, Nat.mod_eq_of_lt (by omega)]
  simpa [e1, e2] using this

/-! ### Approach of the steady state -/

/-- **C152** Under constant forcing, with the implicit scheme, onshore transport and grains that do not slow down on their way, the difference
between the concentrations and the steady ones decreases in every time step by the factor `1 / (1 + dt / T)` at least, whatever the length
of the time step. -/
theorem C152_contraction (a : Adv K) (b : Bounds) (qoff qon : ℕ → K) (bc : BcRows K) (h : Onshore a) (hs : NotSlowing a) (hα : a.alpha = 1)
    (_hT : 0 < a.T) (hb : boundaries b qoff qon = .ok bc) (hoff : b.off = "flux" ∨ b.off = "noflux" ∨ b.off = "constant")
    (hon : b.on ≠ "gradient" ∨ b.off = "noflux") (hlat : b.lat = "circular") (v : Rhs K) (y : ℕ → ℕ → K)
    (hy : Solves a b bc { v with lCt := y } y) (x : ℕ → ℕ → ℕ → K) (hx : ∀ n, Solves a b bc { v with lCt := x n } (x (n + 1))) (M : K)
    (hM : 0 ≤ M) (h0 : ∀ i ≤ a.ny, ∀ j ≤ a.nx, |x 0 i j - y i j| ≤ M) (n : ℕ) :
    ∀ i ≤ a.ny, ∀ j ≤ a.nx, |x n i j - y i j| ≤ M / (1 + a.dt / a.T) ^ n := by
  have hn := h.nx
  have hTi : 0 ≤ a.Ti := div_nonneg h.dt h.T
  obtain ⟨h1, h2⟩ := offshore_zero b qoff qon bc hb hoff
  have hlast := onshore_last b qoff qon bc hb hon
  have hl := lateral_circular b qoff qon bc hb hlat
  have hnl : ∀ i, ¬ a.latRow bc i := fun i hr => by
    have := hr.1
    rw [hl] at this
    cases this
  obtain ⟨g1, g2⟩ := onshore_simple b qoff qon bc hb hon
  -- one step, one side
  have one : ∀ (x x' y y' : ℕ → ℕ → K) (M : K), 0 ≤ M → Solves a b bc { v with lCt := x } x' → Solves a b bc { v with lCt := y } y' →
      (∀ i ≤ a.ny, ∀ j ≤ a.nx, x i j - y i j ≤ M) → ∀ i ≤ a.ny, ∀ j ≤ a.nx, x' i j - y' i j ≤ M / (1 + a.dt / a.T) := by
    intro x x' y y' M hM hx hy hd
    rw [solves_iff a b bc _ _ h.nx h.ny] at hx hy
    set m := M / (1 + a.dt / a.T) with hm
    have hpos : 0 < 1 + a.dt / a.T := by have : 0 ≤ a.dt / a.T := hTi; linarith
    have hm0 : 0 ≤ m := div_nonneg hM hpos.le
    have hmM : m * (1 + a.Ti) = M := div_mul_cancel₀ _ hpos.ne'
    have hrow : ∀ i ≤ a.ny, ∀ j ≤ a.nx, 0 ≤ rowPart a bc (fun i j => 1 * m + -1 * (1 * x' i j + -1 * y' i j)) i j +
        acrossPart a bc (fun i j => 1 * m + -1 * (1 * x' i j + -1 * y' i j)) i j := by
      intro i hi j hj
      rw [rows_combine a bc 1 (-1) (fun _ _ => m) (fun i j => 1 * x' i j + -1 * y' i j), rows_combine, hx i hi j hj, hy i hi j hj]
      by_cases hin : 1 ≤ j ∧ j < a.nx
      · rw [rhs_implicit a b _ hα hin.1 hin.2, rhs_implicit a b _ hα hin.1 hin.2]
        have c := constant_row a bc h hs hα hl m hm0 (fun _ _ => m) (fun _ _ _ _ => rfl) hi hin.1 hin.2
        rw [hmM] at c
        have := hd i hi j hj
        simp only [weightedCapacity] at *
        linarith
      · have er : a.rhs b { v with lCt := x } i j = a.rhs b { v with lCt := y } i j := by
          unfold Adv.rhs; simp only [if_neg hin]
        rw [er]
        have e0 : 0 ≤ rowPart a bc (fun _ _ => m) i j + acrossPart a bc (fun _ _ => m) i j := by
          by_cases hj0 : j = 0
          · subst hj0
            have hne : ¬ 0 = a.nx := by omega
            have : rowPart a bc (fun _ _ => m) i 0 + acrossPart a bc (fun _ _ => m) i 0 = m := by
              unfold rowPart acrossPart Adv.A0 Adv.Am1 Adv.Ap1 Adv.Am2 Adv.Ap2 Adv.Amx Adv.Apx
              rw [h1 i, h2 i]
              simp [hne]
            rw [this]; exact hm0
          · obtain rfl : j = a.nx := by omega
            rw [last_column a bc hn, if_neg (hnl i), g2 i]
            rcases hlast with e | ⟨-, e⟩ <;> rw [e i] <;> linarith
        linarith
    have hcol := onshore_columns a bc h _ (fun i _ => h1 i) (fun i _ => h2 i) fun i hi j hj => hrow i hi j hj.le
    intro i hi j hj
    rcases Nat.lt_or_ge j a.nx with hlt | hge
    · have := hcol j hlt i hi
      linarith
    · obtain rfl : j = a.nx := by omega
      have := hrow i hi a.nx le_rfl
      rw [last_column a bc hn, g2 i, if_neg (hnl i)] at this
      have hc := hcol (a.nx - 1) (by omega) i hi
      have := mul_nonneg_of_nonpos_of_nonpos (g1 i) (neg_nonpos.mpr hc)
      linarith
  induction n with
  | zero => simpa using h0
  | succ n ih =>
    have hpos : 0 < 1 + a.dt / a.T := by have : 0 ≤ a.dt / a.T := hTi; linarith
    have hMn : 0 ≤ M / (1 + a.dt / a.T) ^ n := div_nonneg hM (pow_nonneg hpos.le _)
    intro i hi j hj
    rw [pow_succ, ← div_div]
    refine abs_le.mpr ⟨?_, one (x n) (x (n + 1)) y y _ hMn (hx n) hy (fun i hi j hj => (abs_le.mp (ih i hi j hj)).2) i hi j hj⟩
    have := one y y (x n) (x (n + 1)) _ hMn hy (hx n) (fun i hi j hj => by have := (abs_le.mp (ih i hi j hj)).1; linarith) i hi j hj
    linarith

/-- **C152** Hence from any initial concentrations they converge to the steady ones. -/
theorem C152_converges (a : Adv ℝ) (b : Bounds) (qoff qon : ℕ → ℝ) (bc : BcRows ℝ) (h : Onshore a) (hs : NotSlowing a) (hα : a.alpha = 1)
    (hT : 0 < a.T) (hdt : 0 < a.dt) (hb : boundaries b qoff qon = .ok bc) (hoff : b.off = "flux" ∨ b.off = "noflux" ∨ b.off = "constant")
    (hon : b.on ≠ "gradient" ∨ b.off = "noflux") (hlat : b.lat = "circular") (v : Rhs ℝ) (y : ℕ → ℕ → ℝ)
    (hy : Solves a b bc { v with lCt := y } y) (x : ℕ → ℕ → ℕ → ℝ) (hx : ∀ n, Solves a b bc { v with lCt := x n } (x (n + 1)))
    {i j : ℕ} (hi : i ≤ a.ny) (hj : j ≤ a.nx) : Filter.Tendsto (fun n => x n i j) Filter.atTop (nhds (y i j)) := by
  set M := ∑ i ∈ range (a.ny + 1), ∑ j ∈ range (a.nx + 1), |x 0 i j - y i j| with hM
  have hM0 : 0 ≤ M := sum_nonneg fun _ _ => sum_nonneg fun _ _ => abs_nonneg _
  have h0 : ∀ i ≤ a.ny, ∀ j ≤ a.nx, |x 0 i j - y i j| ≤ M := fun i hi j hj =>
    le_trans (single_le_sum (f := fun j => |x 0 i j - y i j|) (fun _ _ => abs_nonneg _) (mem_range.mpr (by omega : j < a.nx + 1)))
      (single_le_sum (f := fun i => ∑ j ∈ range (a.nx + 1), |x 0 i j - y i j|) (fun _ _ => sum_nonneg fun _ _ => abs_nonneg _)
        (mem_range.mpr (by omega : i < a.ny + 1)))
  have key := fun n => C152_contraction a b qoff qon bc h hs hα hT hb hoff hon hlat v y hy x hx M hM0 h0 n i hi j hj
  have hr : 0 < a.dt / a.T := div_pos hdt hT
  have ht : Filter.Tendsto (fun n : ℕ => M / (1 + a.dt / a.T) ^ n) Filter.atTop (nhds 0) := by
    have := (tendsto_pow_atTop_nhds_zero_of_lt_one (r := (1 + a.dt / a.T)⁻¹) (by positivity) (inv_lt_one_of_one_lt₀ (by linarith))).const_mul M
    simpa [div_eq_mul_inv, inv_pow] using this
  have hlim : Filter.Tendsto (fun n => x n i j - y i j) Filter.atTop (nhds 0) :=
    tendsto_of_tendsto_of_tendsto_of_le_of_le (by simpa using ht.neg) ht (fun n => (abs_le.mp (key n)).1) fun n => (abs_le.mp (key n)).2
  simpa using hlim.add_const (y i j)

/-- **C152** Such a succession of concentrations exists from every initial state. -/
theorem C152_run (a : Adv K) (b : Bounds) (qoff qon : ℕ → K) (bc : BcRows K) (h : Onshore a) (hb : boundaries b qoff qon = .ok bc)
    (hoff : b.off = "flux" ∨ b.off = "noflux" ∨ b.off = "constant") (v : Rhs K) (x0 : ℕ → ℕ → K) :
    ∃ x : ℕ → ℕ → ℕ → K, x 0 = x0 ∧ ∀ n, Solves a b bc { v with lCt := x n } (x (n + 1)) := by
  obtain ⟨A, hA, hsol⟩ := C48_unique_solution a b qoff qon bc h hb hoff
  have hstep : ∀ y : ℕ → ℕ → K, ∃ z : ℕ → ℕ → K, Solves a b bc { v with lCt := y } z := fun y => by
    obtain ⟨X, hX, -⟩ := hsol fun c => a.rhs b { v with lCt := y } ((c : ℕ) / (a.nx + 1)) ((c : ℕ) % (a.nx + 1))
    refine ⟨gridOf a X, A, hA, ?_⟩
    rw [← hX]
    congr 1
    funext c
    obtain ⟨i, j, hi, hj, rfl⟩ := index_cases a c
    have e1 : (i * (a.nx + 1) + j) / (a.nx + 1) = i := by
      rw [mul_comm, Nat.mul_add_div (by omega), Nat.div_eq_of_lt (by omega), add_zero]
    have e2 : (i * (a.nx + 1) + j) % (a.nx + 1) = j := by
      rw [mul_comm, Nat.mul_add_mod, Nat.mod_eq_of_lt (by omega)]
    simp only [e1, e2]
    exact gridOf_at a X hi hj
  choose f hf using hstep
  exact ⟨fun n => f^[n] x0, rfl, fun n => by
    change Solves a b bc { v with lCt := f^[n] x0 } (f^[n + 1] x0)
    rw [Function.iterate_succ_apply']
    exact hf _⟩

/-- **C152** The solver in time therefore finds the result of the solver for steady states, whatever its time step and initial state. -/
theorem C152_steady (a : Steady ℝ) (b : Bounds) (qoff qon : ℕ → ℝ) (bc : BcRows ℝ) (dt : ℝ) (hdt : 0 < dt) (h : Onshore (a.inTime dt a.T))
    (hs : NotSlowing (a.inTime dt a.T)) (hT : 0 < a.T) (hb : boundaries b qoff qon = .ok bc) (hb' : steadyBoundaries b qoff qon = .ok bc)
    (hoff : b.off = "flux" ∨ b.off = "noflux" ∨ b.off = "constant") (hon : b.on ≠ "gradient" ∨ b.off = "noflux") (hlat : b.lat = "circular")
    (v : Rhs ℝ) (y : ℕ → ℕ → ℝ) (hy : a.Solves b bc v y) (x0 : ℕ → ℕ → ℝ) :
    ∃ x : ℕ → ℕ → ℕ → ℝ, x 0 = x0 ∧ (∀ n, Solver.Solves (a.inTime dt a.T) b bc { v with lCt := x n } (x (n + 1))) ∧
      ∀ i ≤ a.ny, ∀ j ≤ a.nx, Filter.Tendsto (fun n => x n i j) Filter.atTop (nhds (y i j)) := by
  obtain ⟨x, e, hx⟩ := C152_run (a.inTime dt a.T) b qoff qon bc h hb hoff v x0
  exact ⟨x, e, hx, fun i hi j hj => C152_converges (a.inTime dt a.T) b qoff qon bc h hs rfl hT hdt hb hoff hon hlat v y
    ((C107_fixed_point a b qoff qon bc v y dt hdt.ne' h.nx h.ny hb' hlat).mp hy) x hx hi hj⟩

/-! ### A transect -/

theorem steadyLine_inTime : Onshore (steadyLine.inTime 60 1) ∧ NotSlowing (steadyLine.inTime 60 1) := by
  refine ⟨?_, ⟨fun _ _ _ _ => le_rfl, fun _ _ _ _ _ => le_rfl⟩⟩
  constructor <;> simp [steadyLine, Steady.inTime]

/-- Steps of a minute at an adaptation time of a second: after two steps the line has its steady concentrations within
1/3721 of the initial difference. -/
example (x : ℕ → ℕ → ℕ → ℚ) (h0 : x 0 = 0)
    (hx : ∀ n, Solver.Solves (steadyLine.inTime 60 1) ⟨"constant", "uniform", "circular"⟩ ⟨fun _ => 0, fun _ => 0, fun _ => -1, fun _ => 0, false⟩
      { steadyLineValues with lCt := x n } (x (n + 1))) : |x 2 0 2 - 3| ≤ 3 / 3721 := by
  have := C152_contraction (steadyLine.inTime 60 1) ⟨"constant", "uniform", "circular"⟩ (fun _ => 1) (fun _ => 1) _ steadyLine_inTime.1
    steadyLine_inTime.2 rfl (by norm_num [Steady.inTime]) rfl (.inr (.inr rfl)) (.inl (by decide)) rfl steadyLineValues
    (fun _ j => if j = 0 then 0 else if j = 1 then 2 else 3)
    ((C107_fixed_point steadyLine ⟨"constant", "uniform", "circular"⟩ (fun _ => 1) (fun _ => 1) _ steadyLineValues _ 60 (by norm_num)
      (by simp [steadyLine]) (by simp [steadyLine]) rfl rfl).mp steadyLine_solves) x hx 3 (by norm_num)
    (fun i _ j _ => by rw [h0]; simp only [Pi.zero_apply]; split_ifs <;> norm_num) 2 0 (Nat.zero_le _) 2 (by simp [steadyLine, Steady.inTime])
  norm_num [Steady.inTime, steadyLine] at this
  exact this

/-- The run of the example exists. -/
example : ∃ x : ℕ → ℕ → ℕ → ℚ, x 0 = 0 ∧ ∀ n, Solver.Solves (steadyLine.inTime 60 1) ⟨"constant", "uniform", "circular"⟩
    ⟨fun _ => 0, fun _ => 0, fun _ => -1, fun _ => 0, false⟩ { steadyLineValues with lCt := x n } (x (n + 1)) :=
  C152_run _ _ (fun _ => 1) (fun _ => 1) _ steadyLine_inTime.1 rfl (.inr (.inr rfl)) _ _

/-- More sand coming in at the offshore end: nowhere less sand in the air. -/
example (x x' : ℕ → ℕ → ℚ)
    (hx : Solver.Solves (steadyLine.inTime 60 1) ⟨"constant", "uniform", "circular"⟩ ⟨fun _ => 0, fun _ => 0, fun _ => -1, fun _ => 0, false⟩
      steadyLineValues x)
    (hx' : Solver.Solves (steadyLine.inTime 60 1) ⟨"constant", "uniform", "circular"⟩ ⟨fun _ => 0, fun _ => 0, fun _ => -1, fun _ => 0, false⟩
      { steadyLineValues with offConst := fun _ => 1 } x') : x 0 3 ≤ x' 0 3 :=
  C150_no_less _ _ (fun _ => 1) (fun _ => 1) _ steadyLine_inTime.1 rfl rfl (.inr (.inr rfl)) steadyLineValues
    { steadyLineValues with offConst := fun _ => 1 }
    ⟨fun _ _ _ _ => le_rfl, fun _ _ _ _ => le_rfl, fun _ _ => le_rfl, fun _ _ => le_rfl, fun _ _ => by norm_num [steadyLineValues],
      fun _ _ => le_rfl⟩ x x' hx hx' le_rfl (by simp [steadyLine, Steady.inTime]) (.inr (.inl (by decide)))

/-- Twice the capacity in the last inner cell does not change the concentration in the cell before. -/
example (x x' : ℕ → ℕ → ℚ)
    (hx : Solver.Solves (steadyLine.inTime 60 1) ⟨"constant", "uniform", "circular"⟩ ⟨fun _ => 0, fun _ => 0, fun _ => -1, fun _ => 0, false⟩
      steadyLineValues x)
    (hx' : Solver.Solves (steadyLine.inTime 60 1) ⟨"constant", "uniform", "circular"⟩ ⟨fun _ => 0, fun _ => 0, fun _ => -1, fun _ => 0, false⟩
      { steadyLineValues with Cu := fun _ j => if j < 2 then 4 else 8 } x') : x 0 1 = x' 0 1 :=
  C151_upwind (steadyLine.inTime 60 1) _ _ _ (fun _ => 1) (fun _ => 1) _ steadyLine_inTime.1 rfl (.inr (.inr rfl)) 2
    (by simp [steadyLine, Steady.inTime]) (fun _ _ _ _ => rfl) (fun _ _ _ _ => rfl) steadyLineValues
    { steadyLineValues with Cu := fun _ j => if j < 2 then 4 else 8 }
    ⟨fun _ _ _ _ => rfl, fun _ _ j hj => by simp [weightedCapacity, steadyLineValues, hj], fun _ _ _ _ => rfl, fun _ _ => rfl, fun _ _ => rfl⟩
    x x' hx hx' le_rfl (by norm_num)

/-- Twice the capacities, twice the concentrations. -/
example : Solver.Solves (steadyLine.inTime 60 1) ⟨"constant", "uniform", "circular"⟩ ⟨fun _ => 0, fun _ => 0, fun _ => -1, fun _ => 0, false⟩
    { steadyLineValues with
      Cu := fun _ _ => 8, Cuf := fun _ _ => 8, lCt := fun _ j => 2 * (if j = 0 then 0 else if j = 1 then 2 else 3) }
    (fun _ j => 2 * (if j = 0 then 0 else if j = 1 then 2 else 3)) := by
  have h := (C107_fixed_point steadyLine ⟨"constant", "uniform", "circular"⟩ (fun _ => 1) (fun _ => 1) _ steadyLineValues _ 60 (by norm_num)
      (by simp [steadyLine]) (by simp [steadyLine]) rfl rfl).mp steadyLine_solves
  have := C153_superposition (steadyLine.inTime 60 1) _ _ (by simp [steadyLine, Steady.inTime]) (by simp [steadyLine, Steady.inTime]) _ _ rfl rfl rfl _ _
    h h 2 0
  convert this using 2 <;> first | rfl | (funext i j; simp [steadyLineValues]) | (funext i; simp [steadyLineValues])
  all_goals norm_num [steadyLineValues]

/-! ### The solver for steady states -/

/-- **C150** The solver for steady states is monotone likewise. -/
theorem C150_steady (a : Steady K) (b : Bounds) (qoff qon : ℕ → K) (bc : BcRows K) (h : a.Onshore) (hb : steadyBoundaries b qoff qon = .ok bc)
    (hoff : b.off = "flux" ∨ b.off = "constant") (v v' : Rhs K)
    (hcap : ∀ i ≤ a.ny, ∀ j ≤ a.nx, weightedCapacity v i j ≤ weightedCapacity v' i j)
    (hends : ∀ i ≤ a.ny, v.offFlux i ≤ v'.offFlux i ∧ v.onFlux i ≤ v'.onFlux i ∧ v.offConst i ≤ v'.offConst i ∧ v.onConst i ≤ v'.onConst i)
    (x x' : ℕ → ℕ → K) (hx : a.Solves b bc v x) (hx' : a.Solves b bc v' x') {i j : ℕ} (hi : i ≤ a.ny) (hj : j ≤ a.nx)
    (hlast : j < a.nx ∨ b.on ≠ "gradient") : x i j ≤ x' i j := by
  have hT : 0 ≤ a.Ti := by have := h.T; unfold Steady.Ti; positivity
  obtain ⟨A, hA, e⟩ := hx
  obtain ⟨A', hA', e'⟩ := hx'
  obtain rfl : A = A' := Except.ok.inj (hA.symm.trans hA')
  have e1 : ∀ i j, j ≤ a.nx → (i * (a.nx + 1) + j) / (a.nx + 1) = i := fun i j hj => by
    rw [mul_comm, Nat.mul_add_div (by omega), Nat.div_eq_of_lt (by omega), add_zero]
  have e2 : ∀ i j, j ≤ a.nx → (i * (a.nx + 1) + j) % (a.nx + 1) = j := fun i j hj => by
    rw [mul_comm, Nat.mul_add_mod, Nat.mod_eq_of_lt (by omega)]
  have key := C107_nonneg a b qoff qon bc h hb hoff A hA
    ((fun c : Fin ((a.ny + 1) * (a.nx + 1)) => x' ((c : ℕ) / (a.nx + 1)) ((c : ℕ) % (a.nx + 1))) -
      fun c : Fin ((a.ny + 1) * (a.nx + 1)) => x ((c : ℕ) / (a.nx + 1)) ((c : ℕ) % (a.nx + 1))) (fun c => ?_)
      ⟨i * (a.nx + 1) + j, index_lt (a.inTime 1 1) hi hj⟩ (hlast.imp_left fun hl => by
        show (i * (a.nx + 1) + j) % (a.nx + 1) ≠ a.nx
        rw [e2 i j hj]; exact hl.ne)
  · simpa only [Pi.sub_apply, e1 i j hj, e2 i j hj, sub_nonneg] using key
  · rw [Matrix.mulVec_sub, e, e']
    obtain ⟨i, j, hi, hj, rfl⟩ := index_cases (a.inTime 1 1) c
    have hj' : j ≤ a.nx := hj
    have hi' : i ≤ a.ny := hi
    show 0 ≤ a.rhs b v' ((i * (a.nx + 1) + j) / (a.nx + 1)) ((i * (a.nx + 1) + j) % (a.nx + 1)) -
      a.rhs b v ((i * (a.nx + 1) + j) / (a.nx + 1)) ((i * (a.nx + 1) + j) % (a.nx + 1))
    rw [e1 i j hj', e2 i j hj']
    refine sub_nonneg.mpr ?_
    obtain ⟨d1, d2, d3, d4⟩ := hends i hi'
    have hc := mul_le_mul_of_nonneg_left (hcap i hi' j hj') hT
    have hy : v.w i j * v.Cuf i j * a.Ti * (1 - v.S i j) + v.w i j * v.Cu i j * a.Ti * v.S i j ≤
        v'.w i j * v'.Cuf i j * a.Ti * (1 - v'.S i j) + v'.w i j * v'.Cu i j * a.Ti * v'.S i j := by
      unfold weightedCapacity at hc
      linarith
    unfold Steady.rhs
    simp only
    split_ifs <;> first | assumption | exact le_rfl

/-- **C107** Where grains do not slow down on their way, the steady concentrations nowhere exceed a value that the weighted capacities and the
concentrations at the ends do not exceed. -/
theorem C107_le (a : Steady ℝ) (b : Bounds) (qoff qon : ℕ → ℝ) (bc : BcRows ℝ) (h : Onshore (a.inTime 1 a.T))
    (hs : NotSlowing (a.inTime 1 a.T)) (hT : 0 < a.T) (hb : boundaries b qoff qon = .ok bc) (hb' : steadyBoundaries b qoff qon = .ok bc)
    (hoff : b.off = "flux" ∨ b.off = "noflux" ∨ b.off = "constant") (hon : b.on ≠ "gradient" ∨ b.off = "noflux") (hlat : b.lat = "circular")
    (v : Rhs ℝ) (y : ℕ → ℕ → ℝ) (hy : a.Solves b bc v y) (M : ℝ) (hM : 0 ≤ M)
    (hcap : ∀ i ≤ a.ny, ∀ j ≤ a.nx, weightedCapacity v i j ≤ M)
    (hends : ∀ i ≤ a.ny, (b.off = "flux" → v.offFlux i ≤ M) ∧ (b.off = "constant" → v.offConst i ≤ M) ∧
      (b.on = "flux" → v.onFlux i ≤ M) ∧ (b.on = "constant" → v.onConst i ≤ M)) {i j : ℕ} (hi : i ≤ a.ny) (hj : j ≤ a.nx) : y i j ≤ M := by
  obtain ⟨x, h0, hx, hlim⟩ := C152_steady a b qoff qon bc 1 one_pos h hs hT hb hb' hoff hon hlat v y hy fun _ _ => 0
  have hle : ∀ n, ∀ i ≤ a.ny, ∀ j ≤ a.nx, x n i j ≤ M := by
    intro n
    induction n with
    | zero => intro i _ j _; rw [h0]; exact hM
    | succ n ih =>
      intro i hi j hj
      obtain ⟨A, hA, e⟩ := hx n
      have := C128_solution_le (a.inTime 1 a.T) b qoff qon bc h hs rfl hb hoff hon hlat { v with lCt := x n } M hM ih
        (fun i hi j hj => by
          have := hcap i hi j hj
          unfold weightedCapacity at this
          simp only
          linarith) hends A hA _ e
        ⟨i * (a.nx + 1) + j, index_lt (a.inTime 1 a.T) hi hj⟩
      have e1 : (i * (a.nx + 1) + j) / ((a.inTime 1 a.T).nx + 1) = i := by
        rw [show (a.inTime 1 a.T).nx = a.nx from rfl, mul_comm, Nat.mul_add_div (by omega), Nat.div_eq_of_lt (by omega), add_zero]
      have e2 : (i * (a.nx + 1) + j) % ((a.inTime 1 a.T).nx + 1) = j := by
        rw [show (a.inTime 1 a.T).nx = a.nx from rfl, mul_comm, Nat.mul_add_mod, Nat.mod_eq_of_lt (by omega)]
      simpa only [e1, e2] using this
  exact le_of_tendsto' (hlim i hi j hj) fun n => hle n i hi j hj

/-- Twice the capacity along the line: nowhere less sand in the air. -/
example (x' : ℕ → ℕ → ℚ) (hx' : steadyLine.Solves ⟨"constant", "uniform", "circular"⟩ ⟨fun _ => 0, fun _ => 0, fun _ => -1, fun _ => 0, false⟩
      { steadyLineValues with Cu := fun _ _ => 8 } x') : 3 ≤ x' 0 2 := by
  have := C150_steady steadyLine ⟨"constant", "uniform", "circular"⟩ (fun _ => 1) (fun _ => 1) _ steadyLine_onshore rfl (.inr rfl) steadyLineValues
    { steadyLineValues with Cu := fun _ _ => 8 } (fun _ _ _ _ => by norm_num [weightedCapacity, steadyLineValues])
    (fun _ _ => ⟨le_rfl, le_rfl, le_rfl, le_rfl⟩) _ x' steadyLine_solves hx' (le_refl 0) (show 2 ≤ steadyLine.nx by simp [steadyLine])
    (.inr (by decide))
  simpa using this

end Aeolis.Props
