import Verif.Proofs.SolverFVSolution

/-!
Non-negative and unique solutions of the finite-volume system in the settings of `Setting`.
-/

set_option linter.unusedSectionVars false

namespace Aeolis.Solver.FV

open Finset

variable {K : Type*} [Field K] [LinearOrder K] [IsStrictOrderedRing K]

theorem posS (a : FV K) (i j : ℕ) : 0 ≤ a.ufs i j * a.ixfs i j := by
  unfold ixfs; split
  · rename_i h; rw [mul_one]; exact h
  · rw [mul_zero]
theorem negS (a : FV K) (i j : ℕ) : a.ufs i j * (1 - a.ixfs i j) ≤ 0 := by
  unfold ixfs; split
  · rw [sub_self, mul_zero]
  · rename_i h; rw [sub_zero, mul_one]; exact (not_le.mp h).le
theorem posN (a : FV K) (l : String) (i j : ℕ) : 0 ≤ a.ufn l i j * a.ixfn l i j := by
  unfold ixfn; split
  · rename_i h; rw [mul_one]; exact h
  · rw [mul_zero]
theorem negN (a : FV K) (l : String) (i j : ℕ) : a.ufn l i j * (1 - a.ixfn l i j) ≤ 0 := by
  unfold ixfn; split
  · rw [sub_self, mul_zero]
  · rename_i h; rw [sub_zero, mul_one]; exact (not_le.mp h).le

theorem al_nonneg {a : FV K} {b : Bounds} (h : Setting a b) : 0 ≤ a.al := by
  unfold al; split
  · exact zero_le_one
  · exact h.alpha

theorem source_pos {a : FV K} {b : Bounds} (h : Setting a b) {i j : ℕ} (hi : i ≤ a.ny) (hj : j ≤ a.nx) :
    0 < a.dsdn i j * a.invDt + a.dsdn i j / a.T * a.al := by
  have hd := h.dsdn i hi j hj
  have hT := div_pos hd h.T
  unfold invDt al
  split
  · rw [mul_zero, zero_add, mul_one]; exact hT
  · have := mul_pos hd (one_div_pos.mpr h.dt)
    have := mul_nonneg hT.le h.alpha
    linarith

/-- Terms of `A0` across the rows and the added circular ones. -/
def y0 (a : FV K) (b : Bounds) (i j : ℕ) : K :=
  -at' (1 ≤ i) (a.ds i j * a.ufn b.lat i j * (1 - a.ixfn b.lat i j) * a.al)
    + at' (i < a.ny) (a.ds i j * a.ufn b.lat (i + 1) j * a.ixfn b.lat (i + 1) j * a.al)

/-- Terms of `A0` added by a circular condition. -/
def c0 (a : FV K) (b : Bounds) (i j : ℕ) : K :=
  at' (b.lat = "circular")
    (-at' (i = 0) (a.ds 0 j * a.ufn b.lat 0 j * (1 - a.ixfn b.lat 0 j) * a.al)
      + at' (i = a.ny) (a.ds a.ny j * a.ufn b.lat (a.ny + 1) j * a.ixfn b.lat (a.ny + 1) j * a.al))
/-- Terms of `Amx` added by a circular condition. -/
def cm (a : FV K) (b : Bounds) (i j : ℕ) : K :=
  at' (b.lat = "circular") (-at' (i = 0) (a.ds 0 j * a.ufn b.lat 0 j * a.ixfn b.lat 0 j * a.al))
/-- Terms of `Apx` added by a circular condition. -/
def cp (a : FV K) (b : Bounds) (i j : ℕ) : K :=
  at' (b.lat = "circular")
    (at' (i = a.ny) (a.ds a.ny j * a.ufn b.lat (a.ny + 1) j * (1 - a.ixfn b.lat (a.ny + 1) j) * a.al))

/-- The entries in cells that are not on a fixed lateral boundary. -/
theorem entries_form (a : FV K) (b : Bounds) (h : Setting a b) :
    ∃ D, a.entries b = .ok D ∧
      (∀ i j, a.rowUnit b i → D.A0 i j = 1 ∧ D.Am1 i j = 0 ∧ D.Ap1 i j = 0 ∧ D.Amx i j = 0 ∧ D.Apx i j = 0) ∧
      (∀ i j, ¬ a.rowUnit b i → D.A0 i j = (a.form2 b).A0 i j + a.c0 b i j ∧
        D.Am1 i j = (a.form2 b).Am1 i j ∧ D.Ap1 i j = (a.form2 b).Ap1 i j ∧
        D.Amx i j = (a.form2 b).Amx i j + a.cm b i j ∧ D.Apx i j = (a.form2 b).Apx i j + a.cp b i j) := by
  unfold entries
  rw [offshore_form a b h.nx h.ends.1]
  simp only
  rw [onshore_form a b h.nx h.ends.2]
  simp only
  rcases h.lat with hl | hl | hl
  · refine ⟨a.form2 b, by rw [lateralRows, if_pos hl], ?_, ?_⟩
    · intro i j hr; exact absurd hr.1 (by rw [hl]; decide)
    · intro i j _
      have hc : ¬ b.lat = "circular" := by rw [hl]; decide
      simp only [c0, cm, cp, at'_neg hc, add_zero, and_self]
  · refine ⟨_, by rw [lateralRows, if_neg (by rw [hl]; decide), if_pos hl], ?_, ?_⟩
    · intro i j hr
      have := hr.2
      simp only [Diags.unit, if_pos this, and_self]
    · intro i j hr
      have hc : ¬ b.lat = "circular" := by rw [hl]; decide
      have : ¬ (i = 0 ∨ i = a.ny) := fun hh => hr ⟨hl, hh⟩
      simp only [c0, cm, cp, at'_neg hc, add_zero, Diags.unit, if_neg this, and_self]
  · refine ⟨_, by rw [lateralRows, if_neg (by rw [hl]; decide), if_neg (by rw [hl]; decide),
      if_neg (by rw [hl]; decide), if_pos hl], ?_, ?_⟩
    · intro i j hr; exact absurd hr.1 (by rw [hl]; decide)
    · intro i j _
      simp only [c0, cm, cp, at'_pos hl, and_true, true_and]
      refine ⟨by ring, by ring⟩

theorem ufn_last (a : FV K) (j : ℕ) : a.ufn "circular" (a.ny + 1) j = a.ufn "circular" 0 j := by
  unfold ufn
  rw [if_pos (Or.inr rfl), if_pos rfl, if_pos (Or.inl rfl), if_pos rfl]

theorem ixfn_last (a : FV K) (j : ℕ) : a.ixfn "circular" (a.ny + 1) j = a.ixfn "circular" 0 j := by
  unfold ixfn; rw [ufn_last]

/-- A wind towards higher rows does so at all faces. -/
theorem ufn_nonneg (a : FV K) (l : String) (h : ∀ i ≤ a.ny, ∀ j ≤ a.nx, 0 ≤ a.un i j) {i j : ℕ}
    (hi : i ≤ a.ny + 1) (hj : j ≤ a.nx) : 0 ≤ a.ufn l i j := by
  have h0 := h 0 (by omega) j hj
  have hny := h a.ny le_rfl j hj
  unfold ufn
  split_ifs with c1 c2 c3
  · linarith
  · exact h0
  · exact hny
  · have q1 := h (i - 1) (by omega) j hj
    have q2 := h i (by omega) j hj
    linarith

/-- A wind equal in all rows is equal at all faces of a circular grid. -/
theorem ufn_uniform (a : FV K) (h : ∀ i ≤ a.ny, ∀ j ≤ a.nx, a.un i j = a.un 0 j) {i j : ℕ}
    (hi : i ≤ a.ny + 1) (hj : j ≤ a.nx) : a.ufn "circular" i j = a.ufn "circular" 0 j := by
  have e0 : a.ufn "circular" 0 j = 1 / 2 * a.un 0 j + 1 / 2 * a.un a.ny j := by
    unfold ufn; rw [if_pos (Or.inl rfl), if_pos rfl]
  rw [e0]
  unfold ufn
  by_cases c1 : i = 0 ∨ i = a.ny + 1
  · rw [if_pos c1, if_pos rfl]
  · rw [if_neg c1, h (i - 1) (by omega) j hj, h i (by omega) j hj, h a.ny le_rfl j hj]

/-- The couplings across the rows add up to a non-negative amount. -/
theorem across_sum (a : FV K) (b : Bounds) (h : Setting a b) {i j : ℕ} (hi : i ≤ a.ny) (hj : j ≤ a.nx)
    (hl : b.lat ≠ "constant") (hu : ¬ a.colUnit b j) :
    0 ≤ a.y0 b i j + a.c0 b i j + at' (0 < a.ny)
      (((a.form2 b).Amx (nextRow a.ny i) j + a.cm b (nextRow a.ny i) j)
        + ((a.form2 b).Apx i j + a.cp b i j)) := by
  have hds := h.ds i hi j hj
  have hal := al_nonneg h
  have hP : ∀ i', 0 ≤ a.ds i j * a.ufn b.lat i' j * a.ixfn b.lat i' j * a.al := fun i' => by
    have := mul_nonneg (mul_nonneg hds (posN a b.lat i' j)) hal
    rwa [← mul_assoc] at this
  have hN : ∀ i', a.ds i j * a.ufn b.lat i' j * (1 - a.ixfn b.lat i' j) * a.al ≤ 0 := fun i' => by
    have := mul_nonpos_of_nonpos_of_nonneg
      (mul_nonpos_of_nonneg_of_nonpos hds (negN a b.lat i' j)) hal
    rwa [← mul_assoc] at this
  have hds' : ∀ i' ≤ a.ny, a.ds i' j = a.ds i j := fun i' hi' => by
    rw [h.dsCol i' hi' j hj, h.dsCol i hi j hj]
  by_cases hy : 0 < a.ny
  · rw [at'_pos hy]
    simp only [form2, if_neg hu]
    rcases h.wind with hw | hw | ⟨hc, _, _, hw⟩
    · omega
    · have hN0 : ∀ i' ≤ a.ny + 1, a.ixfn b.lat i' j = 1 := fun i' hi' => by
        unfold ixfn; rw [if_pos (ufn_nonneg a b.lat hw hi' hj)]
      have e1 : a.y0 b i j = at' (i < a.ny) (a.ds i j * a.ufn b.lat (i + 1) j * a.al) := by
        unfold y0
        rw [hN0 i (by omega), hN0 (i + 1) (by omega)]
        unfold at'; split_ifs <;> ring
      have e4 : at' (i < a.ny) (a.ds i j * a.ufn b.lat (i + 1) j * (1 - a.ixfn b.lat (i + 1) j) * a.al)
          = 0 := by
        rw [hN0 (i + 1) (by omega)]; unfold at'; split_ifs <;> ring
      have e5 : a.cp b i j = 0 := by
        unfold cp; rw [hN0 (a.ny + 1) (by omega)]; unfold at'; split_ifs <;> ring
      rw [e1, e4, e5]
      by_cases hin : i = a.ny
      · have hnx : nextRow a.ny i = 0 := by unfold nextRow; rw [if_pos hin]
        rw [hnx, at'_neg (by omega : ¬ i < a.ny), at'_neg (by omega : ¬ 1 ≤ 0)]
        unfold c0 cm
        rw [hN0 0 (by omega), hN0 (a.ny + 1) (by omega), at'_pos hin, at'_pos rfl]
        by_cases hc : b.lat = "circular"
        · rw [at'_pos hc, at'_pos hc, at'_neg (by omega : ¬ i = 0), hc, ufn_last, hds' 0 (by omega),
            hds' a.ny le_rfl]
          apply le_of_eq; ring
        · rw [at'_neg hc, at'_neg hc]; apply le_of_eq; ring
      · have hnx : nextRow a.ny i = i + 1 := by unfold nextRow; rw [if_neg hin]
        have c0e : 0 ≤ a.c0 b i j := by
          unfold c0; rw [hN0 0 (by omega), at'_neg hin]; unfold at'; split_ifs <;> simp
        have cme : a.cm b (i + 1) j = 0 := by
          unfold cm; rw [at'_neg (by omega : ¬ i + 1 = 0)]; unfold at'; split_ifs <;> simp
        rw [hnx, cme, at'_pos (by omega : i < a.ny), at'_pos (by omega : 1 ≤ i + 1), hN0 (i + 1) (by omega),
          hds' (i + 1) (by omega)]
        linarith
    · have hu' : ∀ i' ≤ a.ny + 1, a.ufn "circular" i' j = a.ufn "circular" 0 j :=
        fun i' hi' => ufn_uniform a hw hi' hj
      have hi' : ∀ i' ≤ a.ny + 1, a.ixfn "circular" i' j = a.ixfn "circular" 0 j := fun i' h' => by
        unfold ixfn; rw [hu' i' h']
      unfold y0 c0 cm cp
      simp only [at'_pos hc]
      rw [hc] at *
      have nle := next_le a.ny i hi
      rw [hu' (nextRow a.ny i) (by omega), hu' i (by omega), hu' (i + 1) (by omega), hu' (a.ny + 1) le_rfl,
        hi' (nextRow a.ny i) (by omega), hi' i (by omega), hi' (i + 1) (by omega), hi' (a.ny + 1) le_rfl,
        hds' (nextRow a.ny i) nle, hds' 0 (by omega), hds' a.ny le_rfl]
      generalize hPd : a.ds i j * a.ufn "circular" 0 j * a.ixfn "circular" 0 j * a.al = P
      generalize hNd : a.ds i j * a.ufn "circular" 0 j * (1 - a.ixfn "circular" 0 j) * a.al = N
      have x1 : at' (1 ≤ i) N + at' (i = 0) N = N := by
        unfold at'; split_ifs <;> first | omega | ring
      have x2 : at' (i < a.ny) P + at' (i = a.ny) P = P := by
        unfold at'; split_ifs <;> first | omega | ring
      have x3 : at' (1 ≤ nextRow a.ny i) P + at' (nextRow a.ny i = 0) P = P := by
        unfold at'; split_ifs <;> first | omega | ring
      have x4 : at' (i < a.ny) N + at' (i = a.ny) N = N := by
        unfold at'; split_ifs <;> first | omega | ring
      linarith
  · rw [at'_neg hy, add_zero]
    have h0 : i = 0 := by omega
    have hn : a.ny = 0 := by omega
    unfold y0 c0
    rw [at'_neg (by omega : ¬ 1 ≤ i), at'_neg (by omega : ¬ i < a.ny), at'_pos h0, at'_pos (by omega : i = a.ny)]
    have q1 := hP (a.ny + 1)
    have q2 := hN 0
    have q3 : a.ds i j = a.ds 0 j := h.dsCol i hi j hj
    rw [q3] at q1 q2
    rw [hds' a.ny le_rfl, q3]
    unfold at'; split_ifs <;> linarith

/-- Off-diagonal entries are non-positive. -/
theorem off_nonpos (a : FV K) (b : Bounds) (h : Setting a b) (D : Diags K)
    (hD : ∀ i j, ¬ a.rowUnit b i → D.A0 i j = (a.form2 b).A0 i j + a.c0 b i j ∧
        D.Am1 i j = (a.form2 b).Am1 i j ∧ D.Ap1 i j = (a.form2 b).Ap1 i j ∧
        D.Amx i j = (a.form2 b).Amx i j + a.cm b i j ∧ D.Apx i j = (a.form2 b).Apx i j + a.cp b i j)
    (hU : ∀ i j, a.rowUnit b i → D.A0 i j = 1 ∧ D.Am1 i j = 0 ∧ D.Ap1 i j = 0 ∧ D.Amx i j = 0 ∧ D.Apx i j = 0)
    {i j : ℕ} (hi : i ≤ a.ny) (hj : j ≤ a.nx) :
    D.Am1 i j ≤ 0 ∧ D.Ap1 i j ≤ 0 ∧ D.Amx i j ≤ 0 ∧ D.Apx i j ≤ 0 := by
  by_cases hr : a.rowUnit b i
  · obtain ⟨_, q1, q2, q3, q4⟩ := hU i j hr
    exact ⟨q1.le, q2.le, q3.le, q4.le⟩
  · obtain ⟨_, q1, q2, q3, q4⟩ := hD i j hr
    have hal := al_nonneg h
    have hS : ∀ j', 0 ≤ a.dn i j * a.ufs i j' * a.ixfs i j' * a.al := fun j' => by
      have := mul_nonneg (mul_nonneg (h.dn i hi j hj) (posS a i j')) hal
      rwa [← mul_assoc] at this
    have hS' : ∀ j', a.dn i j * a.ufs i j' * (1 - a.ixfs i j') * a.al ≤ 0 := fun j' => by
      have := mul_nonpos_of_nonpos_of_nonneg
        (mul_nonpos_of_nonneg_of_nonpos (h.dn i hi j hj) (negS a i j')) hal
      rwa [← mul_assoc] at this
    have hN : ∀ i' ≤ a.ny, ∀ i'', 0 ≤ a.ds i' j * a.ufn b.lat i'' j * a.ixfn b.lat i'' j * a.al :=
      fun i' hi' i'' => by
        have := mul_nonneg (mul_nonneg (h.ds i' hi' j hj) (posN a b.lat i'' j)) hal
        rwa [← mul_assoc] at this
    have hN' : ∀ i' ≤ a.ny, ∀ i'', a.ds i' j * a.ufn b.lat i'' j * (1 - a.ixfn b.lat i'' j) * a.al ≤ 0 :=
      fun i' hi' i'' => by
        have := mul_nonpos_of_nonpos_of_nonneg
          (mul_nonpos_of_nonneg_of_nonpos (h.ds i' hi' j hj) (negN a b.lat i'' j)) hal
        rwa [← mul_assoc] at this
    have k1 := hS j
    have k2 := hS' (j + 1)
    have k3 := hN i hi i
    have k4 := hN' i hi (i + 1)
    have k5 := hN 0 (by omega) 0
    have k6 := hN' a.ny le_rfl (a.ny + 1)
    rw [q1, q2, q3, q4]
    refine ⟨?_, ?_, ?_, ?_⟩
    · simp only [form2]; split_ifs
      · exact le_rfl
      · exact neg_nonpos.mpr (at'_nonneg fun _ => k1)
    · simp only [form2]; split_ifs
      · exact le_rfl
      · exact at'_nonpos fun _ => k2
    · have c : a.cm b i j ≤ 0 := at'_nonpos fun _ => neg_nonpos.mpr (at'_nonneg fun _ => k5)
      have : (a.form2 b).Amx i j ≤ 0 := by
        simp only [form2]; split_ifs
        · exact le_rfl
        · exact neg_nonpos.mpr (at'_nonneg fun _ => k3)
      linarith
    · have c : a.cp b i j ≤ 0 := at'_nonpos fun _ => at'_nonpos fun _ => k6
      have : (a.form2 b).Apx i j ≤ 0 := by
        simp only [form2]; split_ifs
        · exact le_rfl
        · exact at'_nonpos fun _ => k4
      linarith

/-- Columns whose equations involve no other column. -/
def Edge (a : FV K) (b : Bounds) (j : ℕ) : Prop :=
  (j = 0 ∧ b.off ≠ "flux") ∨ (j = a.nx ∧ b.on ≠ "flux")

instance (a : FV K) (b : Bounds) : DecidablePred (a.Edge b) := fun j => by unfold Edge; infer_instance

theorem edge_decoupled (a : FV K) (b : Bounds) (h : Setting a b) {i j : ℕ} (hj : a.Edge b j) :
    (a.form2 b).Am1 i j = 0 ∧ (a.form2 b).Ap1 i j = 0 := by
  by_cases hu : a.colUnit b j
  · simp only [form2, if_pos hu, and_self]
  · simp only [form2, if_neg hu]
    have hnx := h.nx
    rcases hj with ⟨h0, hf⟩ | ⟨h0, hf⟩
    · have hg : b.off = "gradient" := by
        rcases h.ends.1 with q | q | q
        · exact absurd q hf
        · exact absurd (Or.inl ⟨q, h0⟩) hu
        · exact q
      rw [at'_neg (by unfold lowX; omega : ¬ a.lowX b j), at'_neg (fun q => q.2 ⟨hg, h0⟩ : ¬ a.upX b j)]
      simp
    · have hg : b.on = "gradient" := by
        rcases h.ends.2 with q | q | q
        · exact absurd q hf
        · exact absurd (Or.inr ⟨q, h0⟩) hu
        · exact q
      rw [at'_neg (fun q => q.2 ⟨hg, h0⟩ : ¬ a.lowX b j), at'_neg (by unfold upX; omega : ¬ a.upX b j)]
      simp

/-- The couplings along a row within edge columns, or within the other columns, add up to a
non-negative amount. -/
theorem along_sum (a : FV K) (b : Bounds) (h : Setting a b) (Q : ℕ → Prop) [DecidablePred Q]
    (hQ : (∀ j, Q j → a.Edge b j) ∨ (∀ j, Q j → ¬ a.Edge b j)) {i j : ℕ} (hi : i ≤ a.ny) (hj : j ≤ a.nx)
    (hq : Q j) :
    0 ≤ -at' (a.lowX b j) (a.dn i j * a.ufs i j * (1 - a.ixfs i j) * a.al)
      + at' (a.upX b j) (a.dn i j * a.ufs i (j + 1) * a.ixfs i (j + 1) * a.al)
      + at' (j < a.nx ∧ Q (j + 1)) ((a.form2 b).Am1 i (j + 1))
      + at' (1 ≤ j ∧ Q (j - 1)) ((a.form2 b).Ap1 i (j - 1)) := by
  have hal := al_nonneg h
  have hS : ∀ j', 0 ≤ a.dn i j * a.ufs i j' * a.ixfs i j' * a.al := fun j' => by
    have := mul_nonneg (mul_nonneg (h.dn i hi j hj) (posS a i j')) hal
    rwa [← mul_assoc] at this
  have hS' : ∀ j', a.dn i j * a.ufs i j' * (1 - a.ixfs i j') * a.al ≤ 0 := fun j' => by
    have := mul_nonpos_of_nonpos_of_nonneg
      (mul_nonpos_of_nonneg_of_nonpos (h.dn i hi j hj) (negS a i j')) hal
    rwa [← mul_assoc] at this
  have hdn : ∀ j' ≤ a.nx, a.dn i j' = a.dn i j := fun j' hj' => by
    rw [h.dnRow i hi j' hj', h.dnRow i hi j hj]
  have t1 : 0 ≤ at' (a.upX b j) (a.dn i j * a.ufs i (j + 1) * a.ixfs i (j + 1) * a.al)
      + at' (j < a.nx ∧ Q (j + 1)) ((a.form2 b).Am1 i (j + 1)) := by
    by_cases c : j < a.nx ∧ Q (j + 1)
    · rw [at'_pos c]
      rcases hQ with hQ | hQ
      · rw [(edge_decoupled a b h (hQ _ c.2)).1, add_zero]
        exact at'_nonneg fun _ => hS _
      · have hup : a.upX b j := ⟨c.1, fun q => hQ j hq (Or.inl ⟨q.2, by rw [q.1]; decide⟩)⟩
        rw [at'_pos hup]
        simp only [form2]
        split_ifs
        · rw [add_zero]; exact hS _
        · unfold at'; split_ifs
          · rw [hdn (j + 1) (by omega)]; apply le_of_eq; ring
          · rw [neg_zero, add_zero]; exact hS _
    · rw [at'_neg c, add_zero]; exact at'_nonneg fun _ => hS _
  have t2 : 0 ≤ -at' (a.lowX b j) (a.dn i j * a.ufs i j * (1 - a.ixfs i j) * a.al)
      + at' (1 ≤ j ∧ Q (j - 1)) ((a.form2 b).Ap1 i (j - 1)) := by
    have n1 : 0 ≤ -at' (a.lowX b j) (a.dn i j * a.ufs i j * (1 - a.ixfs i j) * a.al) :=
      neg_nonneg.mpr (at'_nonpos fun _ => hS' _)
    by_cases c : 1 ≤ j ∧ Q (j - 1)
    · rw [at'_pos c]
      rcases hQ with hQ | hQ
      · rw [(edge_decoupled a b h (hQ _ c.2)).2, add_zero]; exact n1
      · have hlow : a.lowX b j := ⟨c.1, fun q => hQ j hq (Or.inr ⟨q.2, by rw [q.1]; decide⟩)⟩
        rw [at'_pos hlow]
        simp only [form2]
        have hjj : j - 1 + 1 = j := by omega
        split_ifs
        · rw [add_zero]; linarith [hS' j]
        · unfold at'; split_ifs
          · rw [hjj, hdn (j - 1) (by omega)]; apply le_of_eq; ring
          · rw [add_zero]; linarith [hS' j]
    · rw [at'_neg c, add_zero]; exact n1
  linarith

/-- Solutions for non-negative right hand sides are non-negative. -/
theorem nonneg (a : FV K) (b : Bounds) (h : Setting a b) (D : Diags K) (hD : a.entries b = .ok D)
    (x : ℕ → ℕ → K)
    (hx : ∀ i ≤ a.ny, ∀ j ≤ a.nx, 0 ≤ rowPart D x i j + acrossPart a D x i j) :
    ∀ i ≤ a.ny, ∀ j ≤ a.nx, 0 ≤ x i j := by
  obtain ⟨D', hD', hU, hN⟩ := entries_form a b h
  rw [hD] at hD'
  cases hD'
  have hC := entries_closed a b D h.nx hD
  have hoff : ∀ i ≤ a.ny, ∀ j ≤ a.nx, D.Am1 i j ≤ 0 ∧ D.Ap1 i j ≤ 0 ∧ D.Amx i j ≤ 0 ∧ D.Apx i j ≤ 0 :=
    fun i hi j hj => off_nonpos a b h D hN hU hi hj
  have key : ∀ (Q : ℕ → Prop) [DecidablePred Q],
      ((∀ j, Q j → a.Edge b j) ∨ (∀ j, Q j → ¬ a.Edge b j)) → ∀ i ≤ a.ny, ∀ j ≤ a.nx, Q j →
      (a.rowUnit b i → 0 ≤ x i j) → 0 ≤ x i j ∨ 0 < colSum a D Q i j := by
    intro Q _ hQ i hi j hj hq hru
    by_cases hr : a.rowUnit b i
    · exact Or.inl (hru hr)
    · right
      obtain ⟨f0, f1, f2, f3, f4⟩ := hN i j hr
      have hal := al_nonneg h
      unfold colSum
      have g1 : at' (j < a.nx ∧ Q (j + 1)) (D.Am1 i (j + 1))
          = at' (j < a.nx ∧ Q (j + 1)) ((a.form2 b).Am1 i (j + 1)) := by rw [(hN i (j + 1) hr).2.1]
      have g2 : at' (1 ≤ j ∧ Q (j - 1)) (D.Ap1 i (j - 1))
          = at' (1 ≤ j ∧ Q (j - 1)) ((a.form2 b).Ap1 i (j - 1)) := by rw [(hN i (j - 1) hr).2.2.1]
      rw [f0, f4, g1, g2]
      by_cases hl : b.lat = "constant"
      · -- fixed lateral boundaries
        have hc : ¬ b.lat = "circular" := by rw [hl]; decide
        have hnr : ¬ (i = 0 ∨ i = a.ny) := fun q => hr ⟨hl, q⟩
        have hc0 : a.c0 b i j = 0 := at'_neg hc _
        have hcp : a.cp b i j = 0 := at'_neg hc _
        have hy : 0 < a.ny := by omega
        have hnx : nextRow a.ny i = i + 1 := by unfold nextRow; rw [if_neg (by omega)]
        rw [hc0, hcp, at'_pos hy, hnx, add_zero, add_zero]
        have hw : ∀ i' ≤ a.ny, ∀ j ≤ a.nx, 0 ≤ a.un i' j := by
          rcases h.wind with hw | hw | ⟨hw, _⟩
          · omega
          · exact hw
          · exact absurd hw hc
        have hN1 : ∀ i' ≤ a.ny + 1, a.ixfn b.lat i' j = 1 := fun i' hi' => by
          unfold ixfn; rw [if_pos (ufn_nonneg a b.lat hw hi' hj)]
        have hP : 0 ≤ a.ds i j * a.ufn b.lat (i + 1) j * a.al :=
          mul_nonneg (mul_nonneg (h.ds i hi j hj) (ufn_nonneg a b.lat hw (by omega) hj)) hal
        have hds' : a.ds (i + 1) j = a.ds i j := by
          rw [h.dsCol (i + 1) (by omega) j hj, h.dsCol i hi j hj]
        have halong := along_sum a b h Q hQ hi hj hq
        have hsrc := source_pos h hi hj
        have hAm : at' (a.colUnit b j) 0 = (0 : K) := by unfold at'; split_ifs <;> rfl
        by_cases hu : a.colUnit b j
        · have e1 : (a.form2 b).A0 i j = 1 := by simp only [form2, if_pos hu]
          have e2 : (a.form2 b).Apx i j = 0 := by simp only [form2, if_pos hu]
          have e3 : D.Amx (i + 1) j = 0 := by
            by_cases hr' : a.rowUnit b (i + 1)
            · exact (hU _ j hr').2.2.2.1
            · rw [(hN _ j hr').2.2.2.1]
              have : a.cm b (i + 1) j = 0 := at'_neg hc _
              rw [this]
              simp only [form2, if_pos hu, add_zero]
          have hedge : a.Edge b j := by
            rcases hu with ⟨q, q0⟩ | ⟨q, q0⟩
            · exact Or.inl ⟨q0, by rw [q]; decide⟩
            · exact Or.inr ⟨q0, by rw [q]; decide⟩
          have hQE : ∀ j, Q j → a.Edge b j := by
            rcases hQ with hQ | hQ
            · exact hQ
            · exact absurd hedge (hQ j hq)
          have e4 : at' (j < a.nx ∧ Q (j + 1)) ((a.form2 b).Am1 i (j + 1)) = 0 := by
            by_cases c : j < a.nx ∧ Q (j + 1)
            · rw [at'_pos c, (edge_decoupled a b h (hQE _ c.2)).1]
            · exact at'_neg c _
          have e5 : at' (1 ≤ j ∧ Q (j - 1)) ((a.form2 b).Ap1 i (j - 1)) = 0 := by
            by_cases c : 1 ≤ j ∧ Q (j - 1)
            · rw [at'_pos c, (edge_decoupled a b h (hQE _ c.2)).2]
            · exact at'_neg c _
          rw [e1, e2, e3, e4, e5]; norm_num
        · have e2 : (a.form2 b).Apx i j = 0 := by
            simp only [form2, if_neg hu, hN1 (i + 1) (by omega)]
            unfold at'; split_ifs <;> ring
          have e3 : -(a.ds i j * a.ufn b.lat (i + 1) j * a.al) ≤ D.Amx (i + 1) j := by
            by_cases hr' : a.rowUnit b (i + 1)
            · rw [(hU _ j hr').2.2.2.1]; linarith
            · rw [(hN _ j hr').2.2.2.1]
              have : a.cm b (i + 1) j = 0 := at'_neg hc _
              rw [this]
              simp only [form2, if_neg hu, hN1 (i + 1) (by omega), at'_pos (by omega : 1 ≤ i + 1), hds']
              apply le_of_eq; ring
          have e1 : (a.form2 b).A0 i j = a.dsdn i j * a.invDt + a.dsdn i j / a.T * a.al
              - at' (a.lowX b j) (a.dn i j * a.ufs i j * (1 - a.ixfs i j) * a.al)
              + at' (a.upX b j) (a.dn i j * a.ufs i (j + 1) * a.ixfs i (j + 1) * a.al)
              + a.ds i j * a.ufn b.lat (i + 1) j * a.al := by
            simp only [form2, if_neg hu, hN1 i (by omega), hN1 (i + 1) (by omega),
              at'_pos (by omega : i < a.ny)]
            have : at' (1 ≤ i) (a.ds i j * a.ufn b.lat i j * (1 - 1) * a.al) = 0 := by
              unfold at'; split_ifs <;> ring
            rw [this]; ring
          rw [e1, e2]
          linarith
      · have hnr : ∀ i', ¬ a.rowUnit b i' := fun i' q => hl q.1
        have f3' := (hN (nextRow a.ny i) j (hnr _)).2.2.2.1
        rw [f3']
        by_cases hu : a.colUnit b j
        · -- fixed ends
          have hedge : a.Edge b j := by
            rcases hu with ⟨q, q0⟩ | ⟨q, q0⟩
            · exact Or.inl ⟨q0, by rw [q]; decide⟩
            · exact Or.inr ⟨q0, by rw [q]; decide⟩
          have hQE : ∀ j, Q j → a.Edge b j := by
            rcases hQ with hQ | hQ
            · exact hQ
            · exact absurd hedge (hQ j hq)
          have e4 : at' (j < a.nx ∧ Q (j + 1)) ((a.form2 b).Am1 i (j + 1)) = 0 := by
            by_cases c : j < a.nx ∧ Q (j + 1)
            · rw [at'_pos c, (edge_decoupled a b h (hQE _ c.2)).1]
            · exact at'_neg c _
          have e5 : at' (1 ≤ j ∧ Q (j - 1)) ((a.form2 b).Ap1 i (j - 1)) = 0 := by
            by_cases c : 1 ≤ j ∧ Q (j - 1)
            · rw [at'_pos c, (edge_decoupled a b h (hQE _ c.2)).2]
            · exact at'_neg c _
          have e1 : ∀ i', (a.form2 b).A0 i' j = 1 := fun i' => by simp only [form2, if_pos hu]
          have e2 : ∀ i', (a.form2 b).Apx i' j = 0 := fun i' => by simp only [form2, if_pos hu]
          have e3 : ∀ i', (a.form2 b).Amx i' j = 0 := fun i' => by simp only [form2, if_pos hu]
          rw [e1, e2, e3, e4, e5]
          have hfin : 0 ≤ a.c0 b i j
              + at' (0 < a.ny) (0 + a.cm b (nextRow a.ny i) j + (0 + a.cp b i j)) := by
            by_cases hc : b.lat = "circular"
            · have hPP : 0 ≤ a.ds 0 j * a.ufn b.lat 0 j * a.ixfn b.lat 0 j * a.al := by
                have := mul_nonneg (mul_nonneg (h.ds 0 (by omega) j hj) (posN a b.lat 0 j)) hal
                rwa [← mul_assoc] at this
              have hNN : a.ds 0 j * a.ufn b.lat 0 j * (1 - a.ixfn b.lat 0 j) * a.al ≤ 0 := by
                have := mul_nonpos_of_nonpos_of_nonneg
                  (mul_nonpos_of_nonneg_of_nonpos (h.ds 0 (by omega) j hj) (negN a b.lat 0 j)) hal
                rwa [← mul_assoc] at this
              unfold c0 cm cp
              simp only [at'_pos hc]
              rw [hc] at hPP hNN ⊢
              rw [ufn_last, ixfn_last, h.dsCol a.ny le_rfl j hj]
              by_cases hy : 0 < a.ny
              · rcases h.wind with hw | hw | ⟨_, q1, q2, _⟩
                · omega
                · have h1 : a.ixfn "circular" 0 j = 1 := by
                    unfold ixfn; rw [if_pos (ufn_nonneg a _ hw (by omega) hj)]
                  rw [h1] at hPP ⊢
                  rw [at'_pos hy]
                  by_cases hin : i = a.ny
                  · have hnx : nextRow a.ny i = 0 := by unfold nextRow; rw [if_pos hin]
                    rw [hnx]; simp only [at'_pos hin]
                    unfold at'; split_ifs <;> first | (apply le_of_eq; ring; done) | (exfalso; simp at *; done) | (exfalso; omega)
                  · have hnx : nextRow a.ny i = i + 1 := by unfold nextRow; rw [if_neg hin]
                    rw [hnx]; simp only [at'_neg hin, at'_neg (by omega : ¬ i + 1 = 0)]
                    unfold at'; split_ifs <;> (apply le_of_eq; ring)
                · rcases hu with ⟨q, _⟩ | ⟨q, _⟩
                  · exact absurd q q1
                  · exact absurd q q2
              · rw [at'_neg hy, add_zero, at'_pos (by omega : i = 0), at'_pos (by omega : i = a.ny)]
                linarith
            · unfold c0 cm cp
              simp only [at'_neg hc, add_zero]
              unfold at'; split_ifs <;> simp
          linarith
        · have halong := along_sum a b h Q hQ hi hj hq
          have hacr := across_sum a b h hi hj hl hu
          have hsrc := source_pos h hi hj
          have e1 : (a.form2 b).A0 i j = a.dsdn i j * a.invDt + a.dsdn i j / a.T * a.al
              - at' (a.lowX b j) (a.dn i j * a.ufs i j * (1 - a.ixfs i j) * a.al)
              + at' (a.upX b j) (a.dn i j * a.ufs i (j + 1) * a.ixfs i (j + 1) * a.al) + a.y0 b i j := by
            unfold y0
            simp only [form2, if_neg hu]
            ring
          rw [e1]
          linarith
  have hru : ∀ i ≤ a.ny, ∀ j ≤ a.nx, a.rowUnit b i → 0 ≤ x i j := by
    intro i hi j hj hr
    obtain ⟨u0, u1, u2, u3, _⟩ := hU i j hr
    have hh := hx i hi j hj
    unfold rowPart acrossPart at hh
    rw [u0, u1, u2, u3] at hh
    by_cases hy : 0 < a.ny
    · rw [if_pos hy] at hh
      have hnle := next_le a.ny i hi
      have hap : D.Apx (nextRow a.ny i) j = 0 := by
        by_cases hr' : a.rowUnit b (nextRow a.ny i)
        · exact (hU _ j hr').2.2.2.2
        · have hc : ¬ b.lat = "circular" := by rw [hr.1]; decide
          have hw : ∀ i' ≤ a.ny, ∀ j ≤ a.nx, 0 ≤ a.un i' j := by
            rcases h.wind with hw | hw | ⟨hw, _⟩
            · omega
            · exact hw
            · exact absurd hw hc
          rw [(hN _ j hr').2.2.2.2]
          have : a.cp b (nextRow a.ny i) j = 0 := at'_neg hc _
          rw [this, add_zero]
          simp only [form2]
          have : a.ixfn b.lat (nextRow a.ny i + 1) j = 1 := by
            unfold ixfn; rw [if_pos (ufn_nonneg a b.lat hw (by omega) hj)]
          rw [this]
          unfold at'; split_ifs <;> ring
      rw [hap] at hh; linarith
    · rw [if_neg hy] at hh; linarith
  have edges := grid_nonneg a D x (a.Edge b) hC (fun i hi j hj _ => hx i hi j hj)
    (fun i hi j hj => (hoff i hi j hj).1) (fun i hi j hj => (hoff i hi j hj).2.1)
    (fun _ i hi j hj => (hoff i hi j hj).2.2.1) (fun _ i hi j hj => (hoff i hi j hj).2.2.2)
    (fun i hi j hj hq _ => Or.inl (by
      by_cases hr : a.rowUnit b i
      · exact (hU i j hr).2.1
      · rw [(hN i j hr).2.1]; exact (edge_decoupled a b h hq).1))
    (fun i hi j hj hq _ => Or.inl (by
      by_cases hr : a.rowUnit b i
      · exact (hU i j hr).2.2.1
      · rw [(hN i j hr).2.2.1]; exact (edge_decoupled a b h hq).2))
    (fun i hi j hj hq => key (a.Edge b) (Or.inl fun _ h => h) i hi j hj hq (hru i hi j hj))
  have rest := grid_nonneg a D x (fun j => ¬ a.Edge b j) hC (fun i hi j hj _ => hx i hi j hj)
    (fun i hi j hj => (hoff i hi j hj).1) (fun i hi j hj => (hoff i hi j hj).2.1)
    (fun _ i hi j hj => (hoff i hi j hj).2.2.1) (fun _ i hi j hj => (hoff i hi j hj).2.2.2)
    (fun i hi j hj _ hj1 => Or.inr (by
      by_cases hq : a.Edge b (j - 1)
      · exact Or.inr (edges i hi (j - 1) (by omega) hq)
      · exact Or.inl hq))
    (fun i hi j hj _ hj1 => Or.inr (by
      by_cases hq : a.Edge b (j + 1)
      · exact Or.inr (edges i hi (j + 1) (by omega) hq)
      · exact Or.inl hq))
    (fun i hi j hj hq => key (fun j => ¬ a.Edge b j) (Or.inr fun _ h => h) i hi j hj hq (hru i hi j hj))
  intro i hi j hj
  by_cases hq : a.Edge b j
  · exact edges i hi j hj hq
  · exact rest i hi j hj hq

end Aeolis.Solver.FV
