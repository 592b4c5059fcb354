import Verif.Props.SolverTransect
import Verif.Props.Weights

/-!
C128: concentrations stay below the transport capacity.
-/

set_option linter.unusedSectionVars false

namespace Aeolis.Props

open Finset Aeolis.Solver

variable {K : Type*} [Field K] [LinearOrder K] [IsStrictOrderedRing K]

theorem onshore_last (b : Bounds) (qoff qon : ℕ → K) (bc : BcRows K) (hb : boundaries b qoff qon = .ok bc)
    (h : b.on ≠ "gradient" ∨ b.off = "noflux") : (∀ i, bc.onM1 i = 0) ∨ (b.on = "uniform" ∧ ∀ i, bc.onM1 i = -1) := by
  unfold boundaries at hb
  split at hb
  · cases hb
  · split at hb
    · cases hb
    · rename_i n hn
      split at hb
      · cases hb
      · cases hb
        unfold onshore at hn
        split_ifs at hn with h1 h2 h3 h4
        · cases hn; exact Or.inl fun _ => rfl
        · cases hn; exact Or.inl fun _ => rfl
        · cases hn; exact Or.inr ⟨h3, fun _ => rfl⟩
        · exfalso
          push Not at h1
          rcases h with h | h
          · exact h h4
          · exact h1.2 h

theorem lateral_circular (b : Bounds) (qoff qon : ℕ → K) (bc : BcRows K) (hb : boundaries b qoff qon = .ok bc) (h : b.lat = "circular") :
    bc.latUnit = false := by
  unfold boundaries at hb
  split at hb
  · cases hb
  · split at hb
    · cases hb
    · split at hb
      · cases hb
      · rename_i l hl
        cases hb
        unfold lateral at hl
        simp only [h] at hl
        simpa using hl.symm

/-- Grains that do not slow down in the direction in which they move. -/
structure NotSlowing (a : Adv K) : Prop where
  us : ∀ i ≤ a.ny, ∀ j, j + 1 ≤ a.nx → a.us i j ≤ a.us i (j + 1)
  un : 0 < a.ny → ∀ i, i + 1 ≤ a.ny → ∀ j ≤ a.nx, a.un i j ≤ a.un (i + 1) j

/-- An equal concentration in all cells leaves more than it brings. -/
theorem constant_row (a : Adv K) (bc : BcRows K) (h : Onshore a) (hs : NotSlowing a) (hα : a.alpha = 1) (hl : bc.latUnit = false) (M : K)
    (hM : 0 ≤ M) (x : ℕ → ℕ → K) (hx : ∀ i ≤ a.ny, ∀ j ≤ a.nx, x i j = M) {i j : ℕ} (hi : i ≤ a.ny) (h0 : 1 ≤ j) (hj : j < a.nx) :
    M * (1 + a.Ti) ≤ rowPart a bc x i j + acrossPart a bc x i j := by
  have hnl : ∀ i, ¬ a.latRow bc i := fun i hr => by
    have := hr.1
    rw [hl] at this
    cases this
  have hus := h.us i hi j hj.le
  have hj0 : ¬ j = 0 := by omega
  have hjn : ¬ j = a.nx := by omega
  have hix : a.ixs i j = 1 := by unfold Adv.ixs; rw [if_pos h.beta, if_pos hus]
  have hsg : a.sgs i j = 1 := by unfold Adv.sgs; rw [if_pos h.beta, hix]; ring
  have hus' : a.usPlus i j ≤ a.us i j := by
    unfold Adv.usPlus
    rw [if_neg hj0]
    have := hs.us i hi (j - 1) (by omega)
    rwa [Nat.sub_add_cancel h0] at this
  have hfS : 0 ≤ a.facS i j := mul_nonneg (mul_nonneg h.dt (h.dn i hi j hj.le)) (h.dsdni i hi j hj.le)
  have hfN : 0 ≤ a.facN i j := mul_nonneg (mul_nonneg h.dt (h.ds i hi j hj.le)) (h.dsdni i hi j hj.le)
  have hrow : rowPart a bc x i j = M * (1 + a.Ti) + M * (a.facS i j * (a.us i j - a.usPlus i j)) +
      M * (a.sgn i j * (a.facN i j * a.un i j)) := by
    unfold rowPart Adv.A0 Adv.Am1 Adv.Ap1 Adv.Am2 Adv.Ap2
    rw [if_neg (hnl i), if_neg (hnl i), if_neg (hnl i), if_neg (by tauto), if_neg hjn, if_neg hj0, if_neg hj0, if_neg hjn, if_neg hjn,
      if_neg hj0, hix, hsg, hα, hx i hi j hj.le, hx i hi (j - 1) (by omega)]
    ring
  have hS : 0 ≤ M * (a.facS i j * (a.us i j - a.usPlus i j)) := mul_nonneg hM (mul_nonneg hfS (by linarith))
  rw [hrow]
  by_cases hy : 0 < a.ny
  · have hun := h.un hy i hi j hj.le
    have hixn : ∀ i ≤ a.ny, a.ixn i j = 1 := by
      intro i hi; unfold Adv.ixn; rw [if_pos h.beta, if_pos (h.un hy i hi j hj.le)]
    have hsgn : a.sgn i j = 1 := by unfold Adv.sgn; rw [if_pos h.beta, hixn i hi]; ring
    have hn : nextRow a.ny i ≤ a.ny := by unfold nextRow; split <;> omega
    have hp : prevRow a.ny i ≤ a.ny := by unfold prevRow; split <;> omega
    have hun' : a.unPlus i j ≤ a.un i j := by
      unfold Adv.unPlus
      split
      · rename_i e; rw [e]
      · have := hs.un hy (i - 1) (by omega) j hj.le
        rwa [Nat.sub_add_cancel (by omega)] at this
    have hac : acrossPart a bc x i j = -(M * (a.facN i j * a.unPlus i j)) := by
      unfold acrossPart Adv.Amx Adv.Apx
      rw [if_pos hy, if_neg (hnl i), if_neg (hnl _), if_neg (by tauto), if_neg (by tauto), hixn i hi, hixn _ hn, hα,
        hx _ hp j hj.le]
      ring
    rw [hac, hsgn]
    have : 0 ≤ M * (a.facN i j * (a.un i j - a.unPlus i j)) := mul_nonneg hM (mul_nonneg hfN (by linarith))
    nlinarith
  · have hac : acrossPart a bc x i j = 0 := by unfold acrossPart; rw [if_neg hy]
    rw [hac]
    have : 0 ≤ a.sgn i j * (a.facN i j * a.un i j) := by
      have : 0 ≤ a.sgn i j * a.un i j := by
        unfold Adv.sgn Adv.ixn
        rw [if_pos h.beta, if_pos h.beta]
        split
        · rename_i hu; linarith
        · rename_i hu; push Not at hu; linarith
      nlinarith [mul_nonneg hfN this]
    have := mul_nonneg hM this
    linarith

theorem solution_le (a : Adv K) (b : Bounds) (qoff qon : ℕ → K) (bc : BcRows K) (hn : 2 ≤ a.nx) (hTi : 0 ≤ a.Ti) (hα : a.alpha = 1)
    (hb : boundaries b qoff qon = .ok bc) (hoff : b.off = "flux" ∨ b.off = "noflux" ∨ b.off = "constant")
    (hon : b.on ≠ "gradient" ∨ b.off = "noflux") (hlat : b.lat = "circular") (v : Rhs K) (M : K) (hM : 0 ≤ M)
    (hconst : ∀ x : ℕ → ℕ → K, (∀ i ≤ a.ny, ∀ j ≤ a.nx, x i j = M) → ∀ i ≤ a.ny, ∀ j, 1 ≤ j → j < a.nx →
      M * (1 + a.Ti) ≤ rowPart a bc x i j + acrossPart a bc x i j)
    (hair : ∀ i ≤ a.ny, ∀ j ≤ a.nx, v.lCt i j ≤ M)
    (hcap : ∀ i ≤ a.ny, ∀ j ≤ a.nx, v.w i j * v.Cuf i j * (1 - v.S i j) + v.w i j * v.Cu i j * v.S i j ≤ M)
    (hends : ∀ i ≤ a.ny, (b.off = "flux" → v.offFlux i ≤ M) ∧ (b.off = "constant" → v.offConst i ≤ M) ∧
      (b.on = "flux" → v.onFlux i ≤ M) ∧ (b.on = "constant" → v.onConst i ≤ M))
    (A : Matrix (Fin ((a.ny + 1) * (a.nx + 1))) (Fin ((a.ny + 1) * (a.nx + 1))) K) (hA : a.matrix bc = .ok A)
    (hkeep : ∀ X, (∀ c, 0 ≤ A.mulVec X c) → ∀ c, 0 ≤ X c) (X : Fin ((a.ny + 1) * (a.nx + 1)) → K)
    (hX : A.mulVec X = fun c : Fin ((a.ny + 1) * (a.nx + 1)) => a.rhs b v ((c : ℕ) / (a.nx + 1)) ((c : ℕ) % (a.nx + 1))) (c : Fin ((a.ny + 1) * (a.nx + 1))) :
    X c ≤ M := by
  obtain ⟨h1, h2⟩ := offshore_zero b qoff qon bc hb hoff
  obtain ⟨-, g2⟩ := onshore_simple b qoff qon bc hb hon
  have hlast := onshore_last b qoff qon bc hb hon
  have hl := lateral_circular b qoff qon bc hb hlat
  have hnl : ∀ i, ¬ a.latRow bc i := fun i hr => by
    have := hr.1
    rw [hl] at this
    cases this
  have key := hkeep ((fun _ => M) - X) (fun c => ?_) c
  · simpa using key
  rw [Matrix.mulVec_sub, hX]
  obtain ⟨i, j, hi, hj, rfl⟩ := index_cases a c
  have e1 : (i * (a.nx + 1) + j) / (a.nx + 1) = i := by
    rw [mul_comm, Nat.mul_add_div (by omega), Nat.div_eq_of_lt (by omega), add_zero]
  have e2 : (i * (a.nx + 1) + j) % (a.nx + 1) = j := by
    rw [mul_comm, Nat.mul_add_mod, Nat.mod_eq_of_lt (by omega)]
  have hx : ∀ i ≤ a.ny, ∀ j ≤ a.nx, gridOf a (fun _ => M) i j = M := fun i hi j hj => gridOf_at a _ hi hj
  show 0 ≤ A.mulVec (fun _ => M) ⟨_, _⟩ - a.rhs b v ((i * (a.nx + 1) + j) / (a.nx + 1)) ((i * (a.nx + 1) + j) % (a.nx + 1))
  rw [mulVec_gridOf a bc hn A hA _ hi hj, e1, e2]
  obtain ⟨d1, d2, d3, d4⟩ := hends i hi
  by_cases hj0 : j = 0
  · subst hj0
    have hne : ¬ 0 = a.nx := by omega
    have hr : rowPart a bc (gridOf a fun _ => M) i 0 + acrossPart a bc (gridOf a fun _ => M) i 0 = M := by
      unfold rowPart acrossPart Adv.A0 Adv.Am1 Adv.Ap1 Adv.Am2 Adv.Ap2 Adv.Amx Adv.Apx
      rw [h1 i, h2 i]
      simp [hne, hx i hi 0 (by omega)]
    have hy : a.rhs b v i 0 ≤ M := by
      unfold Adv.rhs
      simp only [hne, and_false, if_false, and_true]
      split_ifs with k1 k2 k3
      · exact d2 k1
      · exact d1 k2
      · omega
      · exact hM
    linarith
  by_cases hjn : j = a.nx
  · subst hjn
    have hne : ¬ a.nx = 0 := by omega
    rw [last_column a bc hn, if_neg (hnl i), g2 i, hx i hi a.nx le_rfl, hx i hi (a.nx - 1) (by omega)]
    have hy : a.rhs b v i a.nx ≤ M * (1 + bc.onM1 i) := by
      unfold Adv.rhs
      simp only [hne, and_false, if_false, and_true]
      rcases hlast with e | ⟨e, e'⟩
      · rw [e i, add_zero, mul_one]
        split_ifs with k1 k2 k3
        · exact d4 k1
        · exact d3 k2
        · omega
        · exact hM
      · rw [e' i]
        rw [if_neg (by rw [e]; decide), if_neg (by rw [e]; decide), if_neg (by omega)]
        simp
    nlinarith
  have hrow := hconst (gridOf a fun _ => M) hx i hi j (by omega : 1 ≤ j) (by omega : j < a.nx)
  have hy : a.rhs b v i j ≤ M * (1 + a.Ti) := by
    unfold Adv.rhs Adv.yIm
    simp only [hj0, hjn, and_false, if_false]
    rw [if_pos (by omega), hα]
    have := mul_le_mul_of_nonneg_right (hcap i hi j hj) hTi
    have := hair i hi j hj
    nlinarith
  linarith

/-- C128: with an implicit scheme, onshore transport and grains that do not slow down on their way, the solution of the linear system
nowhere exceeds a value that the previous concentrations, the weighted capacities and the concentrations at the ends do not exceed.  Grids
of any size, any time step and cell sizes. -/
theorem C128_solution_le (a : Adv K) (b : Bounds) (qoff qon : ℕ → K) (bc : BcRows K) (h : Onshore a) (hs : NotSlowing a) (hα : a.alpha = 1)
    (hb : boundaries b qoff qon = .ok bc) (hoff : b.off = "flux" ∨ b.off = "noflux" ∨ b.off = "constant")
    (hon : b.on ≠ "gradient" ∨ b.off = "noflux") (hlat : b.lat = "circular") (v : Rhs K) (M : K) (hM : 0 ≤ M)
    (hair : ∀ i ≤ a.ny, ∀ j ≤ a.nx, v.lCt i j ≤ M)
    (hcap : ∀ i ≤ a.ny, ∀ j ≤ a.nx, v.w i j * v.Cuf i j * (1 - v.S i j) + v.w i j * v.Cu i j * v.S i j ≤ M)
    (hends : ∀ i ≤ a.ny, (b.off = "flux" → v.offFlux i ≤ M) ∧ (b.off = "constant" → v.offConst i ≤ M) ∧
      (b.on = "flux" → v.onFlux i ≤ M) ∧ (b.on = "constant" → v.onConst i ≤ M))
    (A : Matrix (Fin ((a.ny + 1) * (a.nx + 1))) (Fin ((a.ny + 1) * (a.nx + 1))) K) (hA : a.matrix bc = .ok A)
    (X : Fin ((a.ny + 1) * (a.nx + 1)) → K)
    (hX : A.mulVec X = fun c : Fin ((a.ny + 1) * (a.nx + 1)) => a.rhs b v ((c : ℕ) / (a.nx + 1)) ((c : ℕ) % (a.nx + 1))) (c : Fin ((a.ny + 1) * (a.nx + 1))) :
    X c ≤ M := by
  exact solution_le a b qoff qon bc h.nx (div_nonneg h.dt h.T) hα hb hoff hon hlat v M hM
    (fun x hx i hi j h1 h2 => constant_row a bc h hs hα (lateral_circular b qoff qon bc hb hlat) M hM x hx hi h1 h2) hair hcap hends A hA
    (fun X hX c => C48_nonneg a b qoff qon bc h hb hoff A hA X hX c (Or.inr hon)) X hX c

/-- An equal concentration in all cells of a transect leaves more than it brings, whatever the direction. -/
theorem constant_row_transect (a : Adv K) (bc : BcRows K) (h : Transect a) (hs : ∀ j, j + 1 ≤ a.nx → a.us 0 j ≤ a.us 0 (j + 1))
    (hα : a.alpha = 1) (hl : bc.latUnit = false) (M : K) (hM : 0 ≤ M) (x : ℕ → ℕ → K) (hx : ∀ i ≤ a.ny, ∀ j ≤ a.nx, x i j = M) {i j : ℕ}
    (hi : i ≤ a.ny) (h0 : 1 ≤ j) (hj : j < a.nx) : M * (1 + a.Ti) ≤ rowPart a bc x i j + acrossPart a bc x i j := by
  have hi0 : i = 0 := by have := h.ny; omega
  subst hi0
  have e := transect_row a bc h hl x h0 hj
  rw [hx 0 hi j hj.le, hx 0 hi (j - 1) (by omega), hx 0 hi (j + 1) hj] at e
  have hfS := transect_facS a h hj.le
  have hfN : 0 ≤ a.facN 0 j * |a.un 0 j| := mul_nonneg (mul_nonneg (mul_nonneg h.dt (h.ds j hj.le)) (h.dsdni j hj.le)) (abs_nonneg _)
  have hN := mul_nonneg hM hfN
  unfold Adv.diag Adv.side at e
  rw [hα] at e
  have s1 := hs (j - 1) (by omega)
  rw [Nat.sub_add_cancel h0] at s1
  have s2 := hs j hj
  by_cases hu : 0 ≤ a.us 0 j
  · rw [if_pos hu, abs_of_nonneg hu] at e
    have := mul_nonneg hM (mul_nonneg hfS (sub_nonneg.mpr s1))
    linarith
  · rw [if_neg hu, abs_of_neg (not_le.mp hu)] at e
    have := mul_nonneg hM (mul_nonneg hfS (sub_nonneg.mpr s2))
    linarith

/-- C128: the same on a transect with transport in any direction that nowhere diverges, for prescribed values at both ends. -/
theorem C128_solution_le_transect (a : Adv K) (b : Bounds) (qoff qon : ℕ → K) (bc : BcRows K) (h : Transect a) (hdiv : NonDiverging a)
    (hs : ∀ j, j + 1 ≤ a.nx → a.us 0 j ≤ a.us 0 (j + 1)) (hα : a.alpha = 1) (hb : boundaries b qoff qon = .ok bc)
    (hoff : b.off = "flux" ∨ b.off = "noflux" ∨ b.off = "constant") (hon : b.on = "flux" ∨ b.on = "constant" ∨ b.off = "noflux")
    (hlat : b.lat = "circular") (v : Rhs K) (M : K) (hM : 0 ≤ M) (hair : ∀ i ≤ a.ny, ∀ j ≤ a.nx, v.lCt i j ≤ M)
    (hcap : ∀ i ≤ a.ny, ∀ j ≤ a.nx, v.w i j * v.Cuf i j * (1 - v.S i j) + v.w i j * v.Cu i j * v.S i j ≤ M)
    (hends : ∀ i ≤ a.ny, (b.off = "flux" → v.offFlux i ≤ M) ∧ (b.off = "constant" → v.offConst i ≤ M) ∧
      (b.on = "flux" → v.onFlux i ≤ M) ∧ (b.on = "constant" → v.onConst i ≤ M))
    (A : Matrix (Fin ((a.ny + 1) * (a.nx + 1))) (Fin ((a.ny + 1) * (a.nx + 1))) K) (hA : a.matrix bc = .ok A)
    (X : Fin ((a.ny + 1) * (a.nx + 1)) → K)
    (hX : A.mulVec X = fun c : Fin ((a.ny + 1) * (a.nx + 1)) => a.rhs b v ((c : ℕ) / (a.nx + 1)) ((c : ℕ) % (a.nx + 1)))
    (c : Fin ((a.ny + 1) * (a.nx + 1))) : X c ≤ M := by
  refine solution_le a b qoff qon bc h.nx (div_nonneg h.dt h.T) hα hb hoff ?_ hlat v M hM
    (fun x hx i hi j h1 h2 => constant_row_transect a bc h hs hα (lateral_circular b qoff qon bc hb hlat) M hM x hx hi h1 h2) hair hcap hends
    A hA (C48_any_direction_nonneg a b qoff qon bc h hdiv hb hoff (Or.inl hon) A hA) X hX c
  rcases hon with e | e | e
  · exact Or.inl (by rw [e]; decide)
  · exact Or.inl (by rw [e]; decide)
  · exact Or.inr e

/-! ### Several fractions and iterations -/

variable {ι : Type*} [Fintype ι] {nf : ℕ}

/-- The concentrations of a fraction are those of the linear system for weights between zero and one. -/
theorem solve_weights (s : SolveIn K ι nf) (h : SolveOk s) (Ct0 p0 w0 : ι → Fin nf → K) (hw0 : ∀ c k, 0 ≤ w0 c k) (o : SolveOut K ι nf)
    (hr : solve s Ct0 p0 w0 = .ok o) (k : Fin nf) :
    ∃ w : ι → K, (∀ c, 0 ≤ w c ∧ w c ≤ 1) ∧ ∀ c, o.Ct c k = concentrations (s.frac k) (s.lin k) w c := by
  have loop : ∀ (i : Fin nf) (n : ℕ) (w : ι → K) (r : FracOut K ι), (∀ c, 0 ≤ w c ∧ w c ≤ 1) →
      fractionLoop (s.frac i) (s.lin i) n w = .ok r →
      ∃ w : ι → K, (∀ c, 0 ≤ w c ∧ w c ≤ 1) ∧ ∀ c, r.Ct c = concentrations (s.frac i) (s.lin i) w c := by
    intro i n
    induction n with
    | zero => intro w r _ h; cases h
    | succ n ih =>
      intro w r hw hL
      have hL' := hL
      unfold fractionLoop at hL
      simp only at hL
      split_ifs at hL with h1 h2
      · rw [← Except.ok.inj hL]
        exact ⟨w, hw, fun _ => rfl⟩
      · refine ih _ r (fun c => ?_) hL
        have hc := concentrations_nonneg s h i w fun c => (hw c).1
        have hm := h.mass c i
        have hCu := h.Cu c i
        unfold correctWeights
        split_ifs with hd
        · refine ⟨div_nonneg (add_nonneg (div_nonneg (mul_nonneg hm h.T.le) h.dt.le) (hc c)) hCu, ?_⟩
          refine le_trans ?_ (hw c).2
          have hpos : 0 < s.Cu c i := by
            rcases hCu.lt_or_eq with hlt | he
            · exact hlt
            · have : 0 < w c * s.Cu c i := hd.2
              rw [← he, mul_zero] at this
              exact absurd this (lt_irrefl _)
          rw [div_le_iff₀ (show 0 < (s.frac i).Cu c from hpos)]
          have hlt : s.mass c i < (w c * s.Cu c i - concentrations (s.frac i) (s.lin i) w c) / s.T * s.dt := by
            have h3 : s.maxError < _ - s.mass c i := hd.1
            have h4 := h.err
            unfold pickupOf at h3
            change s.maxError < (w c * s.Cu c i - concentrations (s.frac i) (s.lin i) w c) / s.T * s.dt - s.mass c i at h3
            linarith
          have h5 : s.mass c i * s.T / s.dt ≤ w c * s.Cu c i - concentrations (s.frac i) (s.lin i) w c := by
            rw [div_le_iff₀ h.dt]
            have := mul_le_mul_of_nonneg_right hlt.le h.T.le
            refine this.trans_eq ?_
            field_simp [h.T.ne']
          show s.mass c i * s.T / s.dt + concentrations (s.frac i) (s.lin i) w c ≤ w c * s.Cu c i
          linarith
        · exact hw c
      · rw [← Except.ok.inj hL]
        exact ⟨w, hw, fun _ => rfl⟩
  have key := foldlM_inv (fractionStep s)
    (fun m o => (∀ c k, 0 ≤ o.w c k) ∧ (0 < m → ∀ c, ∑ k, o.w c k ≤ 1) ∧ (∀ k : Fin nf, (k : ℕ) < m →
      ∃ w : ι → K, (∀ c, 0 ≤ w c ∧ w c ≤ 1) ∧ ∀ c, o.Ct c k = concentrations (s.frac k) (s.lin k) w c))
    (List.finRange nf) 0 ⟨Ct0, p0, w0, fun _ => false⟩ o ⟨hw0, by omega, fun k hk => by omega⟩ ?_ hr
  · simp only [List.length_finRange, Nat.zero_add] at key
    exact key.2.2 k k.2
  · intro m hm b b' hb hf
    simp only [List.length_finRange] at hm
    rw [List.getElem_finRange, Nat.zero_add] at *
    obtain ⟨b1, b2, b3⟩ := hb
    have hpre : ∀ c, (∑ l : Fin nf, if (l : ℕ) < m then b.w c l else 0) ≤ 1 := by
      intro c
      rcases Nat.eq_zero_or_pos m with h0 | h0
      · subst h0; simp
      · refine le_trans (sum_le_sum fun l _ => ?_) (b2 h0 c)
        split
        · exact le_rfl
        · exact b1 c l
    obtain ⟨c1, c2, c3, c4, c5⟩ := fractionStep_facts s h b b' ⟨m, hm⟩ b1 hpre (by simpa using hf)
    refine ⟨c1, fun _ => c2, fun k hk => ?_⟩
    by_cases hkm : k = ⟨m, hm⟩
    · subst hkm
      have hf' : fractionStep s b ⟨m, hm⟩ = .ok b' := by simpa using hf
      unfold fractionStep at hf'
      simp only at hf'
      cases hL : fractionLoop (s.frac ⟨m, hm⟩) (s.lin ⟨m, hm⟩) s.maxIter (fun c => renormalizeWeights m (b.w c) ⟨m, hm⟩) with
      | error e => rw [hL] at hf'; cases hf'
      | ok r =>
        rw [hL] at hf'
        cases hf'
        have hn : 0 < nf := by omega
        have hw0 : ∀ c k, 0 ≤ renormalizeWeights m (b.w c) k := fun c k => C45_nonneg m (b.w c) (b1 c) (hpre c) k
        obtain ⟨w, hw, he⟩ := loop ⟨m, hm⟩ _ _ r (fun c => ⟨hw0 c _, by
          rw [← C45_sum_one m (b.w c) hn]
          exact single_le_sum (fun l _ => hw0 c l) (mem_univ _)⟩) hL
        exact ⟨w, hw, fun c => by simpa using he c⟩
    · have hlt : (k : ℕ) < m := by
        rcases Nat.lt_or_ge (k : ℕ) m with h | h
        · exact h
        · exact absurd (Fin.ext (show (k : ℕ) = m by omega)) hkm
      obtain ⟨d1, d2⟩ := c5 k hkm
      obtain ⟨w, hw, he⟩ := b3 k hlt
      exact ⟨w, hw, fun c => by rw [(d1 c).1]; exact he c⟩

/-- What the wind can pick up with the weights `w` beyond what the bed holds. -/
def excess (s : SolveIn K ι nf) (i : Fin nf) (w : ι → K) : K := ∑ c, max 0 (w c * s.Cu c i / s.T * s.dt - s.mass c i)

/-- A correction of the weights lowers the excess by more than `max_error`. -/
theorem excess_decreases (s : SolveIn K ι nf) (h : SolveOk s) (i : Fin nf) (w Ct : ι → K) (hw : ∀ c, 0 ≤ w c) (hc : ∀ c, 0 ≤ Ct c)
    (hd : ∃ c, inDeficit (s.frac i) Ct w c) : (∀ c, 0 ≤ correctWeights (s.frac i) Ct w c) ∧
      excess s i (correctWeights (s.frac i) Ct w) + s.maxError < excess s i w := by
  have hcell : ∀ c, 0 ≤ correctWeights (s.frac i) Ct w c ∧
      max 0 (correctWeights (s.frac i) Ct w c * s.Cu c i / s.T * s.dt - s.mass c i) ≤
        max 0 (w c * s.Cu c i / s.T * s.dt - s.mass c i) ∧ (inDeficit (s.frac i) Ct w c →
      max 0 (correctWeights (s.frac i) Ct w c * s.Cu c i / s.T * s.dt - s.mass c i) + s.maxError <
        max 0 (w c * s.Cu c i / s.T * s.dt - s.mass c i)) := by
    intro c
    have hCu := h.Cu c i
    have hm := h.mass c i
    have hT := h.T
    have hdt := h.dt
    have hTd : 0 ≤ s.mass c i * s.T / s.dt := div_nonneg (mul_nonneg hm hT.le) hdt.le
    by_cases hd : inDeficit (s.frac i) Ct w c
    · have hpos : 0 < s.Cu c i := by
        rcases hCu.lt_or_eq with hlt | he
        · exact hlt
        · have : 0 < w c * s.Cu c i := hd.2
          rw [← he, mul_zero] at this
          exact absurd this (lt_irrefl _)
      have hd1 : s.maxError < (w c * s.Cu c i - Ct c) / s.T * s.dt - s.mass c i := hd.1
      have e1 : correctWeights (s.frac i) Ct w c = (s.mass c i * s.T / s.dt + Ct c) / s.Cu c i := if_pos hd
      have e2 : correctWeights (s.frac i) Ct w c * s.Cu c i / s.T * s.dt - s.mass c i = Ct c / s.T * s.dt := by
        rw [e1, div_mul_cancel₀ _ hpos.ne']
        have h1 := hT.ne'
        have h2 := hdt.ne'
        field_simp
        ring
      have e3 : (w c * s.Cu c i - Ct c) / s.T * s.dt = w c * s.Cu c i / s.T * s.dt - Ct c / s.T * s.dt := by ring
      have h3 : 0 ≤ Ct c / s.T * s.dt := mul_nonneg (div_nonneg (hc c) hT.le) hdt.le
      have h4 : max 0 (Ct c / s.T * s.dt) + s.maxError < max 0 (w c * s.Cu c i / s.T * s.dt - s.mass c i) := by
        rw [max_eq_right h3]
        exact lt_of_lt_of_le (by linarith) (le_max_right _ _)
      rw [e2]
      refine ⟨?_, ?_, fun _ => h4⟩
      · rw [e1]
        exact div_nonneg (add_nonneg hTd (hc c)) hCu
      · have := h.err
        linarith
    · have e1 : correctWeights (s.frac i) Ct w c = w c := if_neg hd
      rw [e1]
      exact ⟨hw c, le_rfl, fun k => absurd k hd⟩
  obtain ⟨c0, hd0⟩ := hd
  refine ⟨fun c => (hcell c).1, ?_⟩
  classical
  have e := sum_lt_sum (f := fun c => max 0 (correctWeights (s.frac i) Ct w c * s.Cu c i / s.T * s.dt - s.mass c i) +
    if c = c0 then s.maxError else 0) (g := fun c => max 0 (w c * s.Cu c i / s.T * s.dt - s.mass c i)) (s := univ)
    (fun c _ => by
      split_ifs with hcc
      · rw [hcc]; exact ((hcell c0).2.2 hd0).le
      · rw [add_zero]; exact (hcell c).2.1) ⟨c0, mem_univ _, by
      rw [if_pos rfl]; exact (hcell c0).2.2 hd0⟩
  rw [sum_add_distrib, sum_ite_eq' univ c0, if_pos (mem_univ _)] at e
  exact e

/-- C128: if what the wind can pick up at most in the step beyond what the bed holds, summed over the cells, is at most `max_error` times
`max_iter`, the iteration ends without a warning, and no more falls out of the air than is in it in `T`.  In particular if the bed
holds of every fraction what the wind can pick up at most. -/
theorem C128_converges (s : SolveIn K ι nf) (h : SolveOk s)
    (hsup : ∀ k, ∑ c, max 0 (s.Cu c k / s.T * s.dt - s.mass c k) ≤ s.maxError * s.maxIter)
    (Ct0 p0 w0 : ι → Fin nf → K) (hw0 : ∀ c k, 0 ≤ w0 c k) (o : SolveOut K ι nf) (hr : solve s Ct0 p0 w0 = .ok o) (k : Fin nf) :
    o.conv k = true ∧ ∀ c, -(o.Ct c k / s.T * s.dt) ≤ o.pickup c k := by
  have loop' : ∀ (i : Fin nf) (n : ℕ) (w : ι → K) (r : FracOut K ι), (∀ c, 0 ≤ w c) → excess s i w ≤ s.maxError * n →
      fractionLoop (s.frac i) (s.lin i) n w = .ok r → r.conv = true ∧ ∀ c, -(r.Ct c / s.T * s.dt) ≤ r.pickup c := by
    intro i n
    induction n with
    | zero => intro w r _ _ hL; cases hL
    | succ n ih =>
      intro w r hw hex hL
      unfold fractionLoop at hL
      simp only at hL
      have hc := concentrations_nonneg s h i w hw
      push_cast at hex
      split_ifs at hL with h1 h2
      · exfalso
        have h3 := (excess_decreases s h i w _ hw hc h1).2
        have h4 : 0 ≤ excess s i (correctWeights (s.frac i) (concentrations (s.frac i) (s.lin i) w) w) :=
          sum_nonneg fun c _ => le_max_left _ _
        rw [h2] at hex
        simp only [Nat.cast_zero, zero_add, mul_one] at hex
        linarith
      · obtain ⟨h3, h4⟩ := excess_decreases s h i w _ hw hc h1
        exact ih _ r h3 (by linarith) hL
      · rw [← Except.ok.inj hL]
        refine ⟨rfl, fun c => le_min ?_ ?_⟩
        · show -(concentrations (s.frac i) (s.lin i) w c / s.T * s.dt) ≤ (w c * s.Cu c i - concentrations (s.frac i) (s.lin i) w c) / s.T * s.dt
          have := mul_nonneg (mul_nonneg (hw c) (h.Cu c i)) (div_pos h.dt h.T).le
          have e : (w c * s.Cu c i - concentrations (s.frac i) (s.lin i) w c) / s.T * s.dt = w c * s.Cu c i * (s.dt / s.T) -
            concentrations (s.frac i) (s.lin i) w c / s.T * s.dt := by ring
          rw [e]
          linarith
        · have h1 := h.mass c i
          have h2 := mul_nonneg (div_nonneg (hc c) h.T.le) h.dt.le
          exact (neg_nonpos.mpr h2).trans h1
  have loop : ∀ (i : Fin nf) (w : ι → K) (r : FracOut K ι), (∀ c, 0 ≤ w c ∧ w c ≤ 1) →
      fractionLoop (s.frac i) (s.lin i) s.maxIter w = .ok r → r.conv = true ∧ ∀ c, -(r.Ct c / s.T * s.dt) ≤ r.pickup c := by
    intro i w r hw hL
    refine loop' i _ w r (fun c => (hw c).1) (le_trans (sum_le_sum fun c _ => ?_) (hsup i)) hL
    refine max_le_max le_rfl (sub_le_sub_right (mul_le_mul_of_nonneg_right (div_le_div_of_nonneg_right ?_ h.T.le) h.dt.le) _)
    exact mul_le_of_le_one_left (h.Cu c i) (hw c).2
  have key := foldlM_inv (fractionStep s)
    (fun m o => (∀ c k, 0 ≤ o.w c k) ∧ (0 < m → ∀ c, ∑ k, o.w c k ≤ 1) ∧ (∀ k : Fin nf, (k : ℕ) < m →
      o.conv k = true ∧ ∀ c, -(o.Ct c k / s.T * s.dt) ≤ o.pickup c k))
    (List.finRange nf) 0 ⟨Ct0, p0, w0, fun _ => false⟩ o ⟨hw0, by omega, fun k hk => by omega⟩ ?_ hr
  · simp only [List.length_finRange, Nat.zero_add] at key
    exact key.2.2 k k.2
  · intro m hm b b' hb hf
    simp only [List.length_finRange] at hm
    rw [List.getElem_finRange, Nat.zero_add] at *
    obtain ⟨b1, b2, b3⟩ := hb
    have hpre : ∀ c, (∑ l : Fin nf, if (l : ℕ) < m then b.w c l else 0) ≤ 1 := by
      intro c
      rcases Nat.eq_zero_or_pos m with h0 | h0
      · subst h0; simp
      · refine le_trans (sum_le_sum fun l _ => ?_) (b2 h0 c)
        split
        · exact le_rfl
        · exact b1 c l
    obtain ⟨c1, c2, c3, c4, c5⟩ := fractionStep_facts s h b b' ⟨m, hm⟩ b1 hpre (by simpa using hf)
    refine ⟨c1, fun _ => c2, fun k hk => ?_⟩
    by_cases hkm : k = ⟨m, hm⟩
    · subst hkm
      have hf' : fractionStep s b ⟨m, hm⟩ = .ok b' := by simpa using hf
      unfold fractionStep at hf'
      simp only at hf'
      cases hL : fractionLoop (s.frac ⟨m, hm⟩) (s.lin ⟨m, hm⟩) s.maxIter (fun c => renormalizeWeights m (b.w c) ⟨m, hm⟩) with
      | error e => rw [hL] at hf'; cases hf'
      | ok r =>
        rw [hL] at hf'
        cases hf'
        have hn : 0 < nf := by omega
        have hw0 : ∀ c k, 0 ≤ renormalizeWeights m (b.w c) k := fun c k => C45_nonneg m (b.w c) (b1 c) (hpre c) k
        obtain ⟨l1, l2⟩ := loop ⟨m, hm⟩ _ r (fun c => ⟨hw0 c _, by
          rw [← C45_sum_one m (b.w c) hn]
          exact single_le_sum (fun l _ => hw0 c l) (mem_univ _)⟩) hL
        exact ⟨by simpa using l1, fun c => by simpa using l2 c⟩
    · have hlt : (k : ℕ) < m := by
        rcases Nat.lt_or_ge (k : ℕ) m with h | h
        · exact h
        · exact absurd (Fin.ext (show (k : ℕ) = m by omega)) hkm
      obtain ⟨d1, d2⟩ := c5 k hkm
      obtain ⟨e1, e2⟩ := b3 k hlt
      exact ⟨by rw [d2]; exact e1, fun c => by rw [(d1 c).1, (d1 c).2]; exact e2 c⟩

/-- A cell without sand and without gradients in the transport, with `T = 1`, an empty bed and capacity 1: the linear system is
`(1 + dt) Ct = dt w Cu`. -/
def exBare (n : ℕ) (dt : K) : SolveIn K (Fin 1) 1 :=
  { T := 1, dt := dt, maxError := 1 / 1000000, maxIter := n, Cu := fun _ _ => 1, mass := fun _ _ => 0, lin := fun _ w c => dt / (1 + dt) * w c }

theorem bare_lin {dt : K} (hdt : 0 < dt) (w : Fin 1 → K) (hw : ∀ c, 0 ≤ w c) (c : Fin 1) :
    preventTinyNegatives (1 / 1000000 : K) 0 (dt / (1 + dt) * w c) = dt / (1 + dt) * w c := by
  have := mul_nonneg (div_pos hdt (by linarith : 0 < 1 + dt)).le (hw c)
  unfold preventTinyNegatives
  rw [if_neg]
  rintro ⟨h1, -⟩
  linarith

theorem bare_ok (n : ℕ) {dt : K} (hdt : 0 < dt) : SolveOk (exBare n dt) := by
  refine ⟨one_pos, hdt, by norm_num [exBare], fun _ _ => zero_le_one, fun _ _ => le_rfl, fun i w hw => sum_nonneg fun c _ => ?_⟩
  show 0 ≤ preventTinyNegatives (1 / 1000000 : K) 0 (dt / (1 + dt) * w c)
  rw [bare_lin hdt w hw c]
  exact mul_nonneg (div_pos hdt (by linarith : 0 < 1 + dt)).le (hw c)

/-- C128: otherwise the iteration may reach its limit: with `T = 1` and time steps that are long compared to `max_iter`, sand is picked
up where there is none, nearly the whole capacity. -/
theorem C128_limit_reached (n : ℕ) (hn : 0 < n) (dt : K) (hdt : 0 < dt) (hlong : (n : K) < (1 - 1 / 1000000) * (1 + dt))
    (Ct0 p0 : Fin 1 → Fin 1 → K) : SolveOk (exBare n dt) ∧ ∃ o, solve (exBare n dt) Ct0 p0 (fun _ _ => 1) = .ok o ∧ o.conv 0 = false ∧
      1 - n / (1 + dt) ≤ o.pickup 0 0 := by
  have hd : 0 < 1 + dt := by linarith
  have hρ : 0 < dt / (1 + dt) := div_pos hdt hd
  have hlin := fun w hw => bare_lin (K := K) hdt w hw
  have hconc : ∀ w : Fin 1 → K, (∀ c, 0 ≤ w c) → concentrations ((exBare n dt).frac 0) ((exBare n dt).lin 0) w = fun c => dt / (1 + dt) * w c := by
    intro w hw
    unfold concentrations removeNegatives
    rw [if_neg]
    · funext c; exact hlin w hw c
    · rintro ⟨c, hc⟩
      have e : preventTinyNegatives (1 / 1000000 : K) 0 (dt / (1 + dt) * w c) < 0 := hc
      rw [hlin w hw c] at e
      exact absurd e (not_lt.mpr (mul_nonneg hρ.le (hw c)))
  have hpow : ∀ k ≤ n, 1 - n / (1 + dt) ≤ (dt / (1 + dt)) ^ k := by
    intro k hk
    have h1 := one_add_mul_le_pow (a := dt / (1 + dt) - 1) (by linarith) k
    have h2 : dt / (1 + dt) - 1 = -(1 / (1 + dt)) := by field_simp; ring
    have h3 : (k : K) * (1 / (1 + dt)) ≤ n * (1 / (1 + dt)) :=
      mul_le_mul_of_nonneg_right (by exact_mod_cast hk) (one_div_nonneg.mpr hd.le)
    have h4 : (n : K) * (1 / (1 + dt)) = n / (1 + dt) := by ring
    rw [h2] at h1
    have h5 : 1 + -(1 / (1 + dt)) = dt / (1 + dt) := by field_simp; ring
    rw [h5] at h1
    linarith
  have hbig : 1 / 1000000 < 1 - n / (1 + dt) := by
    rw [lt_sub_comm, div_lt_iff₀ hd]
    exact hlong
  have loop : ∀ m k, 0 < m → m + k = n → ∃ r, fractionLoop ((exBare n dt).frac 0) ((exBare n dt).lin 0) m (fun _ => (dt / (1 + dt)) ^ k) = .ok r ∧
      r.conv = false ∧ 1 - n / (1 + dt) ≤ r.pickup 0 := by
    intro m
    induction m with
    | zero => intro k h; omega
    | succ m ih =>
      intro k _ hk
      have hw : ∀ c : Fin 1, 0 ≤ (fun _ => (dt / (1 + dt)) ^ k : Fin 1 → K) c := fun _ => pow_nonneg hρ.le _
      have hp : ∀ c, pickupOf ((exBare n dt).frac 0) (fun _ => dt / (1 + dt) * (dt / (1 + dt)) ^ k) (fun _ => (dt / (1 + dt)) ^ k) c =
          (dt / (1 + dt)) ^ (k + 1) := by
        intro c
        unfold pickupOf
        show ((dt / (1 + dt)) ^ k * 1 - dt / (1 + dt) * (dt / (1 + dt)) ^ k) / 1 * dt = _
        rw [pow_succ]
        generalize (dt / (1 + dt)) ^ k = x
        field_simp
        ring
      have hdef : ∀ c, inDeficit ((exBare n dt).frac 0) (fun _ => dt / (1 + dt) * (dt / (1 + dt)) ^ k) (fun _ => (dt / (1 + dt)) ^ k) c := by
        intro c
        refine ⟨?_, ?_⟩
        · rw [hp c]
          show 1 / 1000000 < (dt / (1 + dt)) ^ (k + 1) - 0
          have := hpow (k + 1) (by omega)
          linarith
        · show 0 < (dt / (1 + dt)) ^ k * 1
          rw [mul_one]
          exact pow_pos hρ k
      have hcw : correctWeights ((exBare n dt).frac 0) (fun _ => dt / (1 + dt) * (dt / (1 + dt)) ^ k) (fun _ => (dt / (1 + dt)) ^ k) =
          fun _ => (dt / (1 + dt)) ^ (k + 1) := by
        funext c
        unfold correctWeights
        rw [if_pos (hdef c)]
        show (0 * 1 / dt + dt / (1 + dt) * (dt / (1 + dt)) ^ k) / 1 = _
        rw [pow_succ]
        ring
      unfold fractionLoop
      simp only
      rw [hconc _ hw, if_pos ⟨0, hdef 0⟩, hcw]
      by_cases hm : m = 0
      · rw [if_pos hm]
        refine ⟨_, rfl, rfl, ?_⟩
        dsimp only
        rw [hp 0]
        exact hpow (k + 1) (by omega)
      · rw [if_neg hm]
        exact ih (k + 1) (by omega) (by omega)
  refine ⟨bare_ok n hdt, ?_⟩
  · obtain ⟨r, h1, h2, h3⟩ := loop n 0 hn (by omega)
    have e0 : (fun c => renormalizeWeights ((0 : Fin 1) : ℕ) ((fun _ _ => 1 : Fin 1 → Fin 1 → K) c) 0) = fun _ => (dt / (1 + dt)) ^ 0 := by
      funext c
      have hsum := C45_sum_one (nf := 1) ((0 : Fin 1) : ℕ) ((fun _ _ => 1 : Fin 1 → Fin 1 → K) c) one_pos
      rw [Fin.sum_univ_one] at hsum
      rw [pow_zero]
      exact hsum
    refine ⟨⟨fun c => Function.update (Ct0 c) 0 (r.Ct c), fun c => Function.update (p0 c) 0 (r.pickup c),
      fun c => Function.update (renormalizeWeights ((0 : Fin 1) : ℕ) ((fun _ _ => 1 : Fin 1 → Fin 1 → K) c)) 0 (r.w c),
      Function.update (fun _ => false) 0 r.conv⟩, ?_, ?_, ?_⟩
    · unfold solve
      rw [show List.finRange 1 = [0] from rfl, List.foldlM_cons]
      unfold fractionStep
      simp only
      rw [e0]
      change (fractionLoop ((exBare n dt).frac 0) ((exBare n dt).lin 0) n _ >>= _) >>= _ = _
      rw [h1]
      rfl
    · simpa using h2
    · simpa using h3

/-- Steps of an hour and the default limits: seven tenths of the capacity are picked up where there is nothing. -/
example (Ct0 p0 : Fin 1 → Fin 1 → ℚ) : ∃ o, solve (exBare 1000 3600) Ct0 p0 (fun _ _ => 1) = .ok o ∧ o.conv 0 = false ∧
    (0.7 : ℚ) ≤ o.pickup 0 0 := by
  obtain ⟨-, o, h1, h2, h3⟩ := C128_limit_reached (K := ℚ) 1000 (by norm_num) 3600 (by norm_num) (by norm_num) Ct0 p0
  exact ⟨o, h1, h2, le_trans (by norm_num) h3⟩

/-- With the same limits the iteration ends if the step is a thousandth of `T`. -/
example (Ct0 p0 : Fin 1 → Fin 1 → ℚ) (o : SolveOut ℚ (Fin 1) 1) (h : solve (exBare 1000 (1 / 1000)) Ct0 p0 (fun _ _ => 1) = .ok o) :
    o.conv 0 = true := by
  refine (C128_converges _ (bare_ok 1000 (by norm_num)) (fun k => ?_) _ _ _ (fun _ _ => zero_le_one) o h 0).1
  norm_num [exBare]

/-- A transect of three cells on which the grains slow down. -/
def exSlowing : Adv ℚ :=
  { nx := 2, ny := 0, dt := 1, T := 1, alpha := 1, beta := 1, ds := fun _ _ => 1, dn := fun _ _ => 1, dsdni := fun _ _ => 1,
    us := fun _ j => if j = 0 then 1 else 0, un := fun _ _ => 0 }

/-- Right-hand side with capacities and concentrations 1. -/
def exSlowingRhs : Rhs ℚ :=
  { w := fun _ _ => 1, Cu := fun _ _ => 1, Cuf := fun _ _ => 1, S := fun _ _ => 1, lw := fun _ _ => 1, lCu := fun _ _ => 1,
    lCuf := fun _ _ => 1, lCt := fun _ _ => 1, offFlux := fun _ => 1, onFlux := fun _ => 1, offConst := fun _ => 1, onConst := fun _ => 1 }

/-- C128 (limit of the property): where the grains slow down the concentration exceeds the capacity. -/
theorem C128_slowing_exceeds : ∃ (bc : BcRows ℚ) (A : Matrix (Fin ((exSlowing.ny + 1) * (exSlowing.nx + 1)))
    (Fin ((exSlowing.ny + 1) * (exSlowing.nx + 1))) ℚ) (X : Fin ((exSlowing.ny + 1) * (exSlowing.nx + 1)) → ℚ),
    boundaries ⟨"flux", "uniform", "circular"⟩ (fun _ => 1) (fun _ => 1) = .ok bc ∧ exSlowing.matrix bc = .ok A ∧ Onshore exSlowing ∧
      (A.mulVec X = fun c : Fin ((exSlowing.ny + 1) * (exSlowing.nx + 1)) =>
        exSlowing.rhs ⟨"flux", "uniform", "circular"⟩ exSlowingRhs ((c : ℕ) / (exSlowing.nx + 1)) ((c : ℕ) % (exSlowing.nx + 1))) ∧
      X (⟨1, by decide⟩ : Fin ((exSlowing.ny + 1) * (exSlowing.nx + 1))) = 3 / 2 := by
  have hA := matrix_ok exSlowing ⟨fun _ => 0, fun _ => 0, fun _ => -1, fun _ => 0, false⟩ (by simp [exSlowing]) (by simp [exSlowing])
  refine ⟨⟨fun _ => 0, fun _ => 0, fun _ => -1, fun _ => 0, false⟩, _, fun c => if (c : ℕ) = 0 then 1 else 3 / 2, ?_, hA, ?_, ?_, by simp⟩
  · simp [boundaries, offshore, onshore, lateral]
  · constructor <;> simp [exSlowing]
    intro i j
    split <;> norm_num
  · funext c
    revert c
    decide +kernel

/-- A transect of three cells with equal velocities. -/
def exEven : Adv ℚ := { exSlowing with us := fun _ _ => 1 }

example : Onshore exEven ∧ NotSlowing exEven ∧ exEven.alpha = 1 := by
  refine ⟨?_, ⟨fun _ _ _ _ => le_rfl, fun _ _ _ _ _ => le_rfl⟩, rfl⟩
  constructor <;> simp [exEven, exSlowing]

example (bc : BcRows ℚ) (hb : boundaries ⟨"flux", "uniform", "circular"⟩ (fun _ => 1) (fun _ => 1) = .ok bc)
    (A : Matrix (Fin ((exEven.ny + 1) * (exEven.nx + 1))) (Fin ((exEven.ny + 1) * (exEven.nx + 1))) ℚ) (hA : exEven.matrix bc = .ok A)
    (X : Fin ((exEven.ny + 1) * (exEven.nx + 1)) → ℚ)
    (hX : A.mulVec X = fun c : Fin ((exEven.ny + 1) * (exEven.nx + 1)) => exEven.rhs ⟨"flux", "uniform", "circular"⟩ exSlowingRhs
      ((c : ℕ) / (exEven.nx + 1)) ((c : ℕ) % (exEven.nx + 1))) (c : Fin ((exEven.ny + 1) * (exEven.nx + 1))) : X c ≤ 1 :=
  C128_solution_le exEven _ _ _ bc (by constructor <;> simp [exEven, exSlowing]) ⟨fun _ _ _ _ => le_rfl, fun _ _ _ _ _ => le_rfl⟩ rfl hb
    (Or.inl rfl) (Or.inl (by decide)) rfl exSlowingRhs 1 (by norm_num) (fun _ _ _ _ => le_rfl)
    (fun _ _ _ _ => by norm_num [exSlowingRhs]) (fun _ _ => ⟨fun _ => le_rfl, fun _ => le_rfl, fun _ => le_rfl, fun _ => le_rfl⟩) A hA X hX c

end Aeolis.Props
