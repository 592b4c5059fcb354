import Verif.Proofs.SolverBudget
import Mathlib.Tactic.IntervalCases

/-!
The linear system of the transport solver: C48 (solutions), C49 (sediment budget), C50 (boundary
conditions), C51 (transport across rows).
-/

set_option linter.unusedSectionVars false

namespace Aeolis.Props

open Aeolis.Solver Finset

variable {K : Type*} [Field K] [LinearOrder K] [IsStrictOrderedRing K]

/-! ### C50: boundary conditions -/

/-- C50: exactly these settings are accepted. -/
theorem C50_accepted_iff (b : Bounds) (qoff qon : ℕ → K) :
    (∃ bc, boundaries b qoff qon = .ok bc) ↔
      b.off ∈ ["flux", "noflux", "constant", "uniform", "gradient"] ∧
      (b.on ∈ ["flux", "constant", "uniform", "gradient"] ∨ b.off = "noflux") ∧
      b.lat ∈ ["constant", "circular"] := by
  obtain ⟨off, on, lat⟩ := b
  simp only [List.mem_cons, List.not_mem_nil, or_false]
  have hoff : (∃ o, offshore off qoff = .ok o) ↔ (off = "flux" ∨ off = "noflux" ∨ off = "constant" ∨
      off = "uniform" ∨ off = "gradient") := by
    unfold offshore
    by_cases h1 : off = "flux" ∨ off = "noflux"
    · rw [if_pos h1]; constructor
      · intro _; rcases h1 with h | h <;> simp [h]
      · intro _; exact ⟨_, rfl⟩
    · rw [if_neg h1]; push Not at h1
      by_cases h2 : off = "constant"
      · simp [h2]
      · by_cases h3 : off = "uniform"
        · simp [h3]
        · by_cases h4 : off = "gradient"
          · simp [h4]
          · rw [if_neg h2, if_neg h3, if_neg h4]; split <;> simp [h1, h2, h3, h4]
  have hon : (∃ o, onshore off on qon = .ok o) ↔ ((on = "flux" ∨ on = "constant" ∨ on = "uniform" ∨
      on = "gradient") ∨ off = "noflux") := by
    unfold onshore
    by_cases h1 : on = "flux" ∨ off = "noflux"
    · rw [if_pos h1]; constructor
      · intro _; rcases h1 with h | h <;> simp [h]
      · intro _; exact ⟨_, rfl⟩
    · rw [if_neg h1]; push Not at h1
      by_cases h2 : on = "constant"
      · simp [h2]
      · by_cases h3 : on = "uniform"
        · simp [h3]
        · by_cases h4 : on = "gradient"
          · simp [h4]
          · rw [if_neg h2, if_neg h3, if_neg h4]; split <;> simp [h1, h2, h3, h4]
  have hlat : (∃ o, lateral lat = .ok o) ↔ (lat = "constant" ∨ lat = "circular") := by
    unfold lateral
    by_cases h1 : lat = "constant"
    · simp [h1]
    · by_cases h2 : lat = "circular"
      · simp [h2]
      · rw [if_neg h1]; split
        · simp [h1, h2]
        · split
          · simp [h1, h2]
          · simp [h1, h2]
  rw [← hoff, ← hon, ← hlat]
  unfold boundaries
  simp only
  constructor
  · rintro ⟨bc, h⟩
    split at h
    · cases h
    · rename_i o ho
      split at h
      · cases h
      · rename_i n hn
        split at h
        · cases h
        · rename_i l hl
          exact ⟨⟨_, ho⟩, ⟨_, hn⟩, ⟨_, hl⟩⟩
  · rintro ⟨⟨o, ho⟩, ⟨n, hn⟩, ⟨l, hl⟩⟩
    rw [ho, hn, hl]; exact ⟨_, rfl⟩

/-- C50: the error raised for a setting that is not accepted: `NotImplementedError` for the named but
missing conditions, `ValueError` for unknown ones; the offshore setting is looked at first, and the
onshore `circular` condition is reported as unknown (or, if the offshore one is `circular`, never
reached). -/
theorem C50_errors (b : Bounds) (qoff qon : ℕ → K) :
    (b.off = "circular" → boundaries b qoff qon = .error .notImplemented) ∧
    (b.off ∉ ["flux", "noflux", "constant", "uniform", "gradient", "circular"] →
      boundaries b qoff qon = .error .valueError) ∧
    (b.off ∈ ["flux", "constant", "uniform", "gradient"] →
      b.on ∉ ["flux", "constant", "uniform", "gradient"] →
      boundaries b qoff qon = .error .valueError) := by
  obtain ⟨off, on, lat⟩ := b
  simp only [List.mem_cons, List.not_mem_nil, or_false, not_or]
  refine ⟨?_, ?_, ?_⟩
  · rintro rfl; rfl
  · rintro ⟨h1, h2, h3, h4, h5, h6⟩
    unfold boundaries offshore
    simp [h1, h2, h3, h4, h5, h6]
  · rintro h ⟨h1, h2, h3, h4⟩
    unfold boundaries onshore
    rcases h with rfl | rfl | rfl | rfl <;> simp [offshore, h1, h2, h3, h4]

/-- C50: with two rows of cells (or two columns) the matrix cannot be assembled (`ValueError`). -/
theorem C50_small_grids (a : Adv K) (bc : BcRows K) (h : a.ny = 1 ∨ (0 < a.ny ∧ a.nx ≤ 1)) :
    a.matrix bc = .error .valueError := by
  unfold Adv.matrix Bands.matrix
  refine if_neg fun hn => ?_
  unfold Adv.bands Bands.diagonals at hn
  have hy : 0 < a.ny := by omega
  simp only [if_pos hy] at hn
  rcases h with h | ⟨_, h⟩
  · simp [h] at hn
  · obtain h | h : a.nx = 0 ∨ a.nx = 1 := by omega
    · simp [h] at hn
    · simp [h] at hn

/-- C50: equation of the first cell of a row (not at a lateral boundary of kind `constant`) for any
values `x`: the concentration itself (`flux`, `noflux`, `constant`), its difference with the next cell
(`uniform`), or the deviation from linear extrapolation (`gradient`). -/
theorem C50_offshore_row (a : Adv K) (b : Bounds) (qoff qon : ℕ → K) (bc : BcRows K)
    (hb : boundaries b qoff qon = .ok bc)
    (A : Matrix (Fin ((a.ny + 1) * (a.nx + 1))) (Fin ((a.ny + 1) * (a.nx + 1))) K)
    (hA : a.matrix bc = .ok A) (hn : 2 ≤ a.nx) (x : ℕ → ℕ → K) (i : ℕ) (hi : i ≤ a.ny)
    (hl : ¬ (b.lat = "constant" ∧ (i = 0 ∨ i = a.ny))) :
    A.mulVec (fun c => vec a.nx x c) ⟨i * (a.nx + 1) + 0, index_lt a hi (Nat.zero_le _)⟩ =
      if b.off = "uniform" then x i 0 - x i 1
      else if b.off = "gradient" then x i 0 - x i 1 - qoff i * (x i 1 - x i 2)
      else x i 0 := by
  rw [mulVec_cell a bc hn A hA x hi (Nat.zero_le _)]
  unfold boundaries at hb
  split at hb
  · cases hb
  · rename_i o ho
    split at hb
    · cases hb
    · rename_i n hn'
      split at hb
      · cases hb
      · rename_i l hll
        cases hb
        have hlr : ¬ a.latRow ⟨o.1, o.2, n.1, n.2, l⟩ i := by
          rintro ⟨h1, h2⟩
          refine hl ⟨?_, h2⟩
          simp only at h1; subst h1
          unfold lateral at hll
          split at hll
          · assumption
          · split at hll
            · cases hll
            · split at hll
              · cases hll
              · split at hll <;> cases hll
        have h0 : ¬ 0 = a.nx := by omega
        unfold rowPart acrossPart Adv.A0 Adv.Am1 Adv.Ap1 Adv.Am2 Adv.Ap2 Adv.Amx Adv.Apx
        simp only [hlr, h0, if_true, if_false, true_or]
        unfold offshore at ho
        split at ho
        · rename_i h
          cases ho
          rcases h with h | h <;> simp [h]
        · split at ho
          · rename_i h; cases ho; simp [h]
          · split at ho
            · rename_i h; cases ho; simp [h]; ring
            · split at ho
              · rename_i h; cases ho; simp [h]; ring
              · split at ho <;> cases ho

/-- C50: equation of the last cell of a row; the offshore setting `noflux` overrides the onshore
one. -/
theorem C50_onshore_row (a : Adv K) (b : Bounds) (qoff qon : ℕ → K) (bc : BcRows K)
    (hb : boundaries b qoff qon = .ok bc)
    (A : Matrix (Fin ((a.ny + 1) * (a.nx + 1))) (Fin ((a.ny + 1) * (a.nx + 1))) K)
    (hA : a.matrix bc = .ok A) (hn : 2 ≤ a.nx) (x : ℕ → ℕ → K) (i : ℕ) (hi : i ≤ a.ny)
    (hl : ¬ (b.lat = "constant" ∧ (i = 0 ∨ i = a.ny))) :
    A.mulVec (fun c => vec a.nx x c) ⟨i * (a.nx + 1) + a.nx, index_lt a hi le_rfl⟩ =
      if b.off = "noflux" then x i a.nx
      else if b.on = "uniform" then x i a.nx - x i (a.nx - 1)
      else if b.on = "gradient" then
        x i a.nx - x i (a.nx - 1) - qon i * (x i (a.nx - 1) - x i (a.nx - 2))
      else x i a.nx := by
  rw [mulVec_cell a bc hn A hA x hi le_rfl, last_column a bc hn x i]
  unfold boundaries at hb
  split at hb
  · cases hb
  · rename_i o ho
    split at hb
    · cases hb
    · rename_i n hn'
      split at hb
      · cases hb
      · rename_i l hll
        cases hb
        have hlr : ¬ a.latRow ⟨o.1, o.2, n.1, n.2, l⟩ i := by
          rintro ⟨h1, h2⟩
          refine hl ⟨?_, h2⟩
          simp only at h1; subst h1
          unfold lateral at hll
          split at hll
          · assumption
          · split at hll
            · cases hll
            · split at hll
              · cases hll
              · split at hll <;> cases hll
        rw [if_neg hlr]
        unfold onshore at hn'
        split at hn'
        · rename_i h
          cases hn'
          rcases h with h | h
          · simp [h]
          · simp [h]
        · rename_i hno
          push Not at hno
          rw [if_neg hno.2]
          split at hn'
          · rename_i h; cases hn'; simp [h]
          · split at hn'
            · rename_i h; cases hn'; simp [h]; ring
            · split at hn'
              · rename_i h; cases hn'; simp [h]; ring
              · split at hn' <;> cases hn'

/-- C50 (finding): the lateral condition `constant` does not keep the concentration of the first and last
row constant and does not transport: each step (Euler backward) adds `w Cu dt / T`. -/
theorem C50_lateral_constant_grows (a : Adv K) (b : Bounds) (qoff qon : ℕ → K) (bc : BcRows K) (hbc : boundaries b qoff qon = .ok bc)
    (hlat : b.lat = "constant") (v : Rhs K) (x : ℕ → ℕ → K) (hn : 2 ≤ a.nx) (ha : a.alpha = 1) (hC : v.Cuf = v.Cu)
    (hx : Solves a b bc v x) (i j : ℕ) (hi : i = 0 ∨ i = a.ny) (hj : 1 ≤ j) (hj' : j < a.nx)
    (hun : 0 < a.ny → ∀ i' ≤ a.ny, 0 ≤ a.un i' j) (hb : 1 ≤ |a.beta|) :
    x i j = v.lCt i j + v.w i j * v.Cu i j * (a.dt / a.T) := by
  have hi' : i ≤ a.ny := by omega
  have h := solves_cell a b bc v x hn hx hi' hj'.le
  have hl : bc.latUnit = true := by
    unfold boundaries at hbc
    split at hbc
    · cases hbc
    · split at hbc
      · cases hbc
      · rw [hlat] at hbc
        cases hbc
        rfl
  have hlr : a.latRow bc i := ⟨hl, hi⟩
  have hrhs : a.rhs b v i j = v.lCt i j + v.w i j * v.Cu i j * a.Ti := by
    unfold Adv.rhs Adv.yIm
    simp only
    rw [if_neg (by omega), if_neg (by omega), if_neg (by omega), if_neg (by omega),
      if_pos ⟨hj, hj'⟩, ha, hC]
    ring
  rw [hrhs] at h
  have hac : acrossPart a bc x i j = 0 := by
    unfold acrossPart
    split
    · rename_i hy
      have hA : a.Apx bc (nextRow a.ny i) j = 0 := by
        unfold Adv.Apx
        split
        · rfl
        · rw [if_neg (by omega)]
          unfold Adv.ixn
          rw [if_pos hb, if_pos (hun hy _ (by unfold nextRow; split <;> omega))]; ring
      have hM : a.Amx bc i j = 0 := by unfold Adv.Amx; rw [if_pos hlr]
      rw [hA, hM]; ring
    · rfl
  have h0 : ¬ j = 0 := by omega
  have h1 : ¬ j = a.nx := by omega
  rw [hac] at h
  unfold rowPart Adv.A0 Adv.Am1 Adv.Ap1 Adv.Am2 Adv.Ap2 at h
  simp only [hlr, h0, h1, if_true, if_false] at h
  unfold Adv.Ti at h
  linear_combination h

example : ∃ bc, boundaries (⟨"constant", "gradient", "circular"⟩ : Bounds) (fun _ => (1 : ℚ))
    (fun _ => 1) = .ok bc := (C50_accepted_iff _ _ _).mpr (by simp)

/-! ### C48: solutions -/

theorem offshore_zero (b : Bounds) (qoff qon : ℕ → K) (bc : BcRows K)
    (hb : boundaries b qoff qon = .ok bc) (h : b.off = "flux" ∨ b.off = "noflux" ∨ b.off = "constant") :
    (∀ i, bc.offP1 i = 0) ∧ ∀ i, bc.offP2 i = 0 := by
  unfold boundaries offshore at hb
  split at hb
  · cases hb
  · rename_i o ho
    have : o = (fun _ => 0, fun _ => 0) := by
      rcases h with h | h | h <;> simp [h] at ho <;> exact ho.symm
    subst this
    split at hb
    · cases hb
    · split at hb
      · cases hb
      · cases hb; exact ⟨fun _ => rfl, fun _ => rfl⟩

theorem onshore_simple (b : Bounds) (qoff qon : ℕ → K) (bc : BcRows K)
    (hb : boundaries b qoff qon = .ok bc) (h : b.on ≠ "gradient" ∨ b.off = "noflux") :
    (∀ i, bc.onM1 i ≤ 0) ∧ ∀ i, bc.onM2 i = 0 := by
  unfold boundaries at hb
  split at hb
  · cases hb
  · split at hb
    · cases hb
    · rename_i n hn
      split at hb
      · cases hb
      · cases hb
        unfold onshore at hn
        split at hn
        · cases hn; exact ⟨fun _ => le_rfl, fun _ => rfl⟩
        · rename_i h1
          push Not at h1
          split at hn
          · cases hn; exact ⟨fun _ => le_rfl, fun _ => rfl⟩
          · split at hn
            · cases hn; exact ⟨fun _ => by norm_num, fun _ => rfl⟩
            · split at hn
              · rename_i hg
                rcases h with h | h
                · exact absurd hg h
                · exact absurd h h1.2
              · split at hn <;> cases hn

/-- C48: for transport in onshore direction and a prescribed offshore concentration the matrix is
assembled and the system has exactly one solution for every right hand side, on grids of any size
(transects and planar grids), for any time step, cell sizes, implicitness and onshore and lateral
boundary condition. -/
theorem C48_unique_solution (a : Adv K) (b : Bounds) (qoff qon : ℕ → K) (bc : BcRows K)
    (h : Onshore a) (hb : boundaries b qoff qon = .ok bc)
    (hoff : b.off = "flux" ∨ b.off = "noflux" ∨ b.off = "constant") :
    ∃ A, a.matrix bc = .ok A ∧ ∀ y, ∃! X, A.mulVec X = y := by
  obtain ⟨h1, h2⟩ := offshore_zero b qoff qon bc hb hoff
  refine ⟨_, matrix_ok a bc h.nx h.ny, ?_⟩
  set A : Matrix (Fin ((a.ny + 1) * (a.nx + 1))) (Fin ((a.ny + 1) * (a.nx + 1))) K :=
    fun r c => diagsEntry (a.diagonals bc) r c with hAdef
  have hA := matrix_ok a bc h.nx h.ny
  have hinj : Function.Injective A.mulVec := by
    intro X Y hXY
    have : A.mulVec (X - Y) = 0 := by rw [Matrix.mulVec_sub]; exact sub_eq_zero.mpr hXY
    exact sub_eq_zero.mp (onshore_injective a bc h A hA h1 h2 _ this)
  have hu := Matrix.mulVec_injective_iff_isUnit.mp hinj
  have hsur := Matrix.mulVec_surjective_iff_isUnit.mpr hu
  intro y
  obtain ⟨X, hX⟩ := hsur y
  exact ⟨X, hX, fun Y hY => hinj (hY.trans hX.symm)⟩

/-- C48: every solution is non-negative if the right hand side is, unless the onshore boundary is
extrapolated (`gradient`); in that case all columns but the last are non-negative. -/
theorem C48_nonneg (a : Adv K) (b : Bounds) (qoff qon : ℕ → K) (bc : BcRows K)
    (h : Onshore a) (hb : boundaries b qoff qon = .ok bc)
    (hoff : b.off = "flux" ∨ b.off = "noflux" ∨ b.off = "constant")
    (A : Matrix (Fin ((a.ny + 1) * (a.nx + 1))) (Fin ((a.ny + 1) * (a.nx + 1))) K)
    (hA : a.matrix bc = .ok A) (X : Fin ((a.ny + 1) * (a.nx + 1)) → K)
    (hX : ∀ c, 0 ≤ A.mulVec X c) (c : Fin ((a.ny + 1) * (a.nx + 1)))
    (hc : (c : ℕ) % (a.nx + 1) ≠ a.nx ∨ b.on ≠ "gradient" ∨ b.off = "noflux") : 0 ≤ X c := by
  obtain ⟨h1, h2⟩ := offshore_zero b qoff qon bc hb hoff
  have hn := h.nx
  have hcol := onshore_nonneg a bc h A hA h1 h2 X hX
  obtain ⟨i, j, hi, hj, rfl⟩ := index_cases a c
  rw [← gridOf_at a X hi hj]
  rcases Nat.lt_or_ge j a.nx with hlt | hge
  · exact hcol j hlt i hi
  · obtain rfl : j = a.nx := by omega
    have hcon : b.on ≠ "gradient" ∨ b.off = "noflux" := by
      rcases hc with hc | hc
      · exfalso
        apply hc
        change (i * (a.nx + 1) + a.nx) % (a.nx + 1) = a.nx
        rw [show i * (a.nx + 1) + a.nx = a.nx + (a.nx + 1) * i by ring, Nat.add_mul_mod_self_left,
          Nat.mod_eq_of_lt (by omega)]
      · exact hc
    obtain ⟨g1, g2⟩ := onshore_simple b qoff qon bc hb hcon
    have heq := mulVec_gridOf a bc hn A hA X hi le_rfl
    rw [last_column a bc hn, g2 i, zero_mul, add_zero] at heq
    have hy := hX ⟨i * (a.nx + 1) + a.nx, index_lt a hi le_rfl⟩
    have hp := hcol (a.nx - 1) (by omega) i hi
    rw [heq] at hy
    split at hy
    · linarith
    · have := mul_nonneg (neg_nonneg.mpr (g1 i)) hp
      linarith

/-- A transect of four cells in which the wind diverges in the middle. -/
def exDiverge : Adv ℚ :=
  { nx := 3, ny := 0, dt := 1, T := 1, alpha := 1, beta := 1, ds := fun _ _ => 1, dn := fun _ _ => 1,
    dsdni := fun _ _ => 1, un := fun _ _ => 0, us := fun _ j => if j ≤ 1 then -1 else 1 }

/-- C48 (limit of the property): where the transport direction diverges between two cells the solution
can be negative although the right hand side is not. -/
theorem C48_diverging_negative :
    ∃ (bc : BcRows ℚ) (A : Matrix (Fin ((exDiverge.ny + 1) * (exDiverge.nx + 1)))
        (Fin ((exDiverge.ny + 1) * (exDiverge.nx + 1))) ℚ)
      (X : Fin ((exDiverge.ny + 1) * (exDiverge.nx + 1)) → ℚ),
      boundaries ⟨"constant", "constant", "circular"⟩ (fun _ => 1) (fun _ => 1) = .ok bc ∧
      exDiverge.matrix bc = .ok A ∧ (∀ c, 0 ≤ A.mulVec X c) ∧ ∃ c, X c < 0 := by
  have hA := matrix_ok exDiverge ⟨fun _ => 0, fun _ => 0, fun _ => 0, fun _ => 0, false⟩
    (by simp [exDiverge]) (by simp [exDiverge])
  refine ⟨⟨fun _ => 0, fun _ => 0, fun _ => 0, fun _ => 0, false⟩, _,
    fun c => if (c : ℕ) = 1 then -1 else if (c : ℕ) = 2 then 3 else 0, rfl, hA, ?_,
    ⟨1, by simp [exDiverge]⟩, by simp⟩
  intro c
  obtain ⟨i, j, hi, hj, rfl⟩ := index_cases exDiverge c
  rw [mulVec_gridOf exDiverge _ (by simp [exDiverge]) _ hA _ hi hj]
  have hi0 : i = 0 := by simp [exDiverge] at hi; omega
  subst hi0
  simp only [exDiverge] at hj
  interval_cases j <;>
    norm_num [rowPart, acrossPart, Adv.A0, Adv.Am1, Adv.Ap1, Adv.Am2, Adv.Ap2, Adv.latRow, gridOf,
      exDiverge, Adv.sgs, Adv.sgn, Adv.ixs, Adv.ixn, Adv.facS, Adv.facN, Adv.Ti, Adv.usPlus, Adv.usMin]

/-- A planar case: three rows, four columns. -/
def exPlanar : Adv ℚ :=
  { nx := 3, ny := 2, dt := 1, T := 1, alpha := 1, beta := 1, ds := fun _ _ => 2, dn := fun _ _ => 1,
    dsdni := fun _ _ => 1/2, un := fun i _ => i, us := fun i j => i + j }

theorem exPlanar_onshore : Onshore exPlanar := by
  refine ⟨by simp [exPlanar], by simp [exPlanar], by simp [exPlanar], by simp [exPlanar],
    by simp [exPlanar], by simp [exPlanar], ?_, ?_, ?_, ?_, ?_, ?_, ?_⟩ <;>
    intros <;> simp [exPlanar] <;> positivity

example : ∃ A, exPlanar.matrix ⟨fun _ => 0, fun _ => 0, fun _ => -2, fun _ => 1, false⟩ = .ok A ∧
    ∀ y, ∃! X, A.mulVec X = y :=
  C48_unique_solution exPlanar ⟨"constant", "gradient", "circular"⟩ (fun _ => 1) (fun _ => 1) _
    exPlanar_onshore (by simp [boundaries, offshore, onshore, lateral]; funext i; norm_num)
    (by simp)

/-! ### C49: sediment budget -/

/-- C49: Euler backward on a transect: the sediment in the air between the first and last cell changes
by what the bed exchanges plus the inflow minus the outflow, minus what leaves sideways
(`|un|`, as the transect has no neighbours).  Velocities may vary along the transect but not change
sign, cells may differ in size. -/
theorem C49_transect_budget_partial (a : Adv K) (b : Bounds) (bc : BcRows K) (v : Rhs K)
    (x : ℕ → ℕ → K) (h : BudgetSetting a bc v) (hy : a.ny = 0) (hs : Solves a b bc v x) :
    ∑ j ∈ Ico 1 a.nx, area a 0 j * x 0 j = ∑ j ∈ Ico 1 a.nx, area a 0 j * v.lCt 0 j
      + ∑ j ∈ Ico 1 a.nx, area a 0 j * exchange a v x 0 j
      + a.dt * (a.dn 0 0 * throughflow a x 0)
      - a.dt * ∑ j ∈ Ico 1 a.nx, a.ds 0 j * |a.un 0 j| * x 0 j := by
  have := budget a b bc v x h hs
  unfold inner at this
  rw [hy] at this
  simp only [zero_add, sum_range_one] at this
  rw [this]
  congr 1
  rw [mul_sum]
  refine sum_congr rfl fun j _ => ?_
  have hac : acrossPart a bc x 0 j = 0 := by unfold acrossPart; rw [if_neg (by omega)]
  have hsg : a.sgn 0 j * a.un 0 j = |a.un 0 j| := by
    unfold Adv.sgn Adv.ixn
    rw [if_pos h.beta, if_pos h.beta]
    split
    · rename_i h0; rw [abs_of_nonneg h0]; ring
    · rename_i h0; rw [abs_of_neg (not_le.mp h0)]; ring
  rw [hac, hsg]; ring

/-- C49: the same on a planar grid for transport towards higher rows: the budget closes up to the
difference of the velocities of the first and last row (the grid is taken as circular, but the
velocity used for the inflow into the first row is that of the first row itself). -/
theorem C49_planar_budget_partial (a : Adv K) (b : Bounds) (bc : BcRows K) (v : Rhs K)
    (x : ℕ → ℕ → K) (h : BudgetSetting a bc v) (hy : 0 < a.ny)
    (hds : ∀ i ≤ a.ny, ∀ j ≤ a.nx, a.ds i j = a.ds 0 j)
    (hun : ∀ i ≤ a.ny, ∀ j ≤ a.nx, 0 ≤ a.un i j) (hs : Solves a b bc v x) :
    inner a (fun i j => area a i j * x i j) = inner a (fun i j => area a i j * v.lCt i j)
      + inner a (fun i j => area a i j * exchange a v x i j)
      + a.dt * ∑ i ∈ range (a.ny + 1), a.dn i 0 * throughflow a x i
      + a.dt * ∑ j ∈ Ico 1 a.nx, a.ds 0 j * (a.un 0 j - a.un a.ny j) * x a.ny j := by
  rw [budget a b bc v x h hs, sub_eq_add_neg]
  congr 1
  rw [mul_sum, ← sum_neg_distrib]
  refine sum_congr rfl fun j hj => ?_
  rw [mem_Ico] at hj
  rw [across_pos a bc v x h hy hds hun hj.1 hj.2]; ring

/-! ### C51: transport towards lower rows -/

/-- C51 (finding): for transport towards lower rows the matrix uses the velocity two rows ahead.  On a
grid of equal cells the budget then has the error `dt Σ ds (un_i - un_{i+1}) Ct_i`. -/
theorem C51_planar_budget_error (a : Adv K) (b : Bounds) (bc : BcRows K) (v : Rhs K)
    (x : ℕ → ℕ → K) (h : BudgetSetting a bc v) (hy : 0 < a.ny)
    (hds : ∀ i ≤ a.ny, ∀ j ≤ a.nx, a.ds i j = a.ds 0 j) (hdn : ∀ i ≤ a.ny, a.dn i 0 = a.dn 0 0)
    (hun : ∀ i ≤ a.ny, ∀ j ≤ a.nx, a.un i j < 0) (hs : Solves a b bc v x) :
    inner a (fun i j => area a i j * x i j) = inner a (fun i j => area a i j * v.lCt i j)
      + inner a (fun i j => area a i j * exchange a v x i j)
      + a.dt * ∑ i ∈ range (a.ny + 1), a.dn i 0 * throughflow a x i
      + a.dt * ∑ j ∈ Ico 1 a.nx, a.ds 0 j *
          ∑ i ∈ range a.ny, (a.un i j - a.un (i + 1) j) * x i j := by
  rw [budget a b bc v x h hs, sub_eq_add_neg]
  congr 1
  rw [mul_sum, ← sum_neg_distrib]
  refine sum_congr rfl fun j hj => ?_
  rw [mem_Ico] at hj
  rw [across_neg a bc v x h hy hds hdn hun hj.1 hj.2]; ring

/-- C51: with alongshore velocities that do not vary alongshore the budget closes. -/
theorem C51_uniform_budget_partial (a : Adv K) (b : Bounds) (bc : BcRows K) (v : Rhs K)
    (x : ℕ → ℕ → K) (h : BudgetSetting a bc v) (hy : 0 < a.ny)
    (hds : ∀ i ≤ a.ny, ∀ j ≤ a.nx, a.ds i j = a.ds 0 j) (hdn : ∀ i ≤ a.ny, a.dn i 0 = a.dn 0 0)
    (hun : (∀ i ≤ a.ny, ∀ j ≤ a.nx, a.un i j < 0) ∨ (∀ i ≤ a.ny, ∀ j ≤ a.nx, 0 ≤ a.un i j))
    (huni : ∀ i ≤ a.ny, ∀ j ≤ a.nx, a.un i j = a.un 0 j) (hs : Solves a b bc v x) :
    inner a (fun i j => area a i j * x i j) = inner a (fun i j => area a i j * v.lCt i j)
      + inner a (fun i j => area a i j * exchange a v x i j)
      + a.dt * ∑ i ∈ range (a.ny + 1), a.dn i 0 * throughflow a x i := by
  rcases hun with hun | hun
  · rw [C51_planar_budget_error a b bc v x h hy hds hdn hun hs]
    have : ∑ j ∈ Ico 1 a.nx, a.ds 0 j *
          ∑ i ∈ range a.ny, (a.un i j - a.un (i + 1) j) * x i j = 0 := by
      refine sum_eq_zero fun j hj => ?_
      rw [mem_Ico] at hj
      rw [sum_eq_zero, mul_zero]
      intro i hi
      rw [mem_range] at hi
      rw [huni i hi.le j hj.2.le, huni (i + 1) (by omega) j hj.2.le, sub_self, zero_mul]
    rw [this, mul_zero, add_zero]
  · rw [C49_planar_budget_partial a b bc v x h hy hds hun hs]
    have : ∑ j ∈ Ico 1 a.nx, a.ds 0 j * (a.un 0 j - a.un a.ny j) * x a.ny j = 0 := by
      refine sum_eq_zero fun j hj => ?_
      rw [mem_Ico] at hj
      rw [huni a.ny le_rfl j hj.2.le, sub_self, mul_zero, zero_mul]
    rw [this, mul_zero, add_zero]

/-- The planar case meets the setting of the budgets. -/
example (v : Rhs ℚ) (hv : v.Cuf = v.Cu) :
    BudgetSetting exPlanar ⟨fun _ => 0, fun _ => 0, fun _ => -2, fun _ => 1, false⟩ v := by
  refine ⟨by simp [exPlanar], by simp [exPlanar], by simp [exPlanar], by simp [exPlanar], rfl, ?_, ?_,
    ?_, hv⟩
  · intro i _; left; intro j _; simp only [exPlanar]; positivity
  · intro i _ j _; simp [exPlanar]
  · intro i _ j _; simp [exPlanar]

end Aeolis.Props
