import Verif.Proofs.SolverFVBudget

/-!
Non-negative concentrations with the implicit finite-volume solvers, and the sums of the fluxes over the
grid.
-/

set_option linter.unusedSectionVars false

namespace Aeolis.Solver.FV

open Finset

variable {K : Type*} [Field K] [LinearOrder K] [IsStrictOrderedRing K]

theorem parts_add (a : FV K) (D : Diags K) (c d : ℕ → ℕ → K) (i j : ℕ) :
    rowPart D (fun i j => c i j + d i j) i j + acrossPart a D (fun i j => c i j + d i j) i j
      = (rowPart D c i j + acrossPart a D c i j) + (rowPart D d i j + acrossPart a D d i j) := by
  unfold rowPart acrossPart; split <;> ring

/-- Value put at a fixed end. -/
def endValue (a : FV K) (b : Bounds) (v : Data K) (j : ℕ) : K :=
  at' (a.steady = true) (if b.on = "constant" ∧ j = a.nx then v.onConst else v.offConst)

/-- The matrix applied to a grid in a fixed column. -/
theorem matrix_unit (a : FV K) (b : Bounds) (h : Setting a b) (D : Diags K) (hD : a.entries b = .ok D)
    (c : ℕ → ℕ → K) {i j : ℕ} (hi : i ≤ a.ny) (hj : j ≤ a.nx) (hl : b.lat ≠ "constant")
    (hu : a.colUnit b j) :
    rowPart D c i j + acrossPart a D c i j = c i j
      + a.al * (a.leak b c j + at' (0 < a.ny ∧ b.lat = "circular")
        (at' (i = a.ny) (a.ds a.ny j * a.ufn b.lat 0 j * a.fN b.lat c 0 j)
          - at' (i = 0) (a.ds 0 j * a.ufn b.lat 0 j * a.fN b.lat c 0 j))) := by
  obtain ⟨D', hD', hU, hN⟩ := entries_form a b h
  rw [hD] at hD'
  cases hD'
  have hnr : ∀ i', ¬ a.rowUnit b i' := fun i' q => hl q.1
  obtain ⟨f0, f1, f2, f3, _⟩ := hN i j (hnr i)
  obtain ⟨_, _, _, _, f4⟩ := hN (nextRow a.ny i) j (hnr _)
  have g0 : (a.form2 b).A0 i j = 1 := by simp only [form2, if_pos hu]
  have g1 : (a.form2 b).Am1 i j = 0 := by simp only [form2, if_pos hu]
  have g2 : (a.form2 b).Ap1 i j = 0 := by simp only [form2, if_pos hu]
  have g3 : (a.form2 b).Amx i j = 0 := by simp only [form2, if_pos hu]
  have g4 : (a.form2 b).Apx (nextRow a.ny i) j = 0 := by simp only [form2, if_pos hu]
  unfold rowPart acrossPart
  rw [f0, f1, f2, f3, f4, g0, g1, g2, g3, g4]
  unfold c0 cm cp leak fN
  rw [if_pos (Or.inl rfl)]
  by_cases hc : b.lat = "circular"
  · rw [hc, ufn_last, ixfn_last, at'_pos (P := "circular" = "circular") rfl,
      at'_pos (P := "circular" = "circular") rfl, at'_pos (P := "circular" = "circular") rfl]
    by_cases hy : 0 < a.ny
    · have hw : ∀ i' ≤ a.ny, ∀ j ≤ a.nx, 0 ≤ a.un i' j := by
        rcases h.wind with hw | hw | ⟨_, hw1, hw2, _⟩
        · omega
        · exact hw
        · exfalso
          rcases hu with hu | hu
          · exact hw1 hu.1
          · exact hw2 hu.1
      have hN1 : a.ixfn "circular" 0 j = 1 := by
        unfold ixfn; rw [if_pos (ufn_nonneg a "circular" hw (by omega) hj)]
      rw [if_pos hy, hN1, at'_neg (P := a.ny = 0 ∧ "circular" = "circular") (by omega),
        at'_pos (P := 0 < a.ny ∧ "circular" = "circular") ⟨hy, rfl⟩]
      by_cases h0 : i = 0
      · have hp : prevRow a.ny i = a.ny := by unfold prevRow; rw [if_pos h0]
        rw [hp, at'_pos (P := i = 0) h0, at'_pos (P := i = 0) h0, at'_pos (P := i = 0) h0,
          at'_neg (P := i = a.ny) (by omega), at'_neg (P := i = a.ny) (by omega)]
        unfold at'; split_ifs <;> ring
      · rw [at'_neg (P := i = 0) h0, at'_neg (P := i = 0) h0, at'_neg (P := i = 0) h0]
        by_cases hn : i = a.ny
        · rw [at'_pos (P := i = a.ny) hn, at'_pos (P := i = a.ny) hn, hn]
          unfold at'; split_ifs <;> ring
        · rw [at'_neg (P := i = a.ny) hn, at'_neg (P := i = a.ny) hn]
          unfold at'; split_ifs <;> ring
    · have h0 : i = 0 := by omega
      have hn : i = a.ny := by omega
      have h00 : a.ny = 0 := by omega
      rw [if_neg hy, at'_pos (P := a.ny = 0 ∧ "circular" = "circular") ⟨h00, rfl⟩,
        at'_neg (P := 0 < a.ny ∧ "circular" = "circular") (fun q => hy q.1),
        at'_pos (P := i = a.ny) hn, at'_pos (P := i = 0) h0, h00, h0, ← abs_split a "circular" 0 j]
      ring
  · rw [at'_neg hc, at'_neg hc, at'_neg hc, at'_neg (P := a.ny = 0 ∧ b.lat = "circular") (fun q => hc q.2),
      at'_neg (P := 0 < a.ny ∧ b.lat = "circular") (fun q => hc q.2)]
    split <;> ring

/-- The right hand side in a fixed column. -/
theorem rhs_unit (a : FV K) (b : Bounds) (h : Setting a b) (v : Data K) (C w : ℕ → ℕ → K) {i j : ℕ}
    (hi : i ≤ a.ny) (hj : j ≤ a.nx) (hl : b.lat ≠ "constant") (hu : a.colUnit b j) :
    a.rhs v b C w i j = a.endValue b v j + a.sideFlux b v i j + a.forgotten b v C i j
      - at' (0 < a.ny ∧ b.lat = "circular")
        (at' (i = a.ny) (a.ds a.ny j * a.ufn b.lat 0 j * a.fN b.lat (a.cbar v C) 0 j)
          - at' (i = 0) (a.ds 0 j * a.ufn b.lat 0 j * a.fN b.lat (a.cbar v C) 0 j)) := by
  have hnx := h.nx
  have hX : a.onshoreRhs v b.on C (a.offshoreRhs v b.off C (a.rhsCore v b.lat C w)) i j
      = a.endValue b v j := by
    unfold endValue at'
    by_cases hon : b.on = "constant" ∧ j = a.nx
    · unfold onshoreRhs
      rw [if_neg (by rw [hon.1]; decide), if_pos hon.1, if_pos hon.2, if_pos hon]
    · rw [if_neg hon]
      rcases hu with hu | hu
      · have : a.offshoreRhs v b.off C (a.rhsCore v b.lat C w) i j
            = if a.steady = true then v.offConst else 0 := by
          unfold offshoreRhs
          rw [if_neg (by rw [hu.1]; decide), if_pos hu.1, if_pos hu.2]
        rw [← this]
        have hjn : ¬ j = a.nx := by omega
        unfold onshoreRhs
        rw [if_neg hjn]
        split_ifs
        · rw [at'_neg hjn, add_zero]
        · rfl
        · rw [at'_neg hjn, sub_zero]
      · exact absurd hu hon
  unfold rhs lateralRhs sideFlux forgotten
  rw [hX]
  rcases h.lat with q | q | q
  · have n1 : ¬ b.lat = "circular" := by rw [q]; decide
    rw [if_pos q, at'_pos (P := b.lat = "flux") q,
      at'_neg (P := b.lat = "circular" ∧ a.steady = true) (fun hh => n1 hh.1),
      at'_neg (P := 0 < a.ny ∧ b.lat = "circular") (fun hh => n1 hh.2)]
    ring
  · exact absurd q hl
  · have n1 : ¬ b.lat = "flux" := by rw [q]; decide
    have n2 : ¬ b.lat = "constant" := by rw [q]; decide
    have n3 : ¬ b.lat = "gradient" := by rw [q]; decide
    rw [if_neg n1, if_neg n2, if_neg n3, at'_neg (P := b.lat = "flux") n1]
    have f0 : a.faceN v b.lat C 0 j = a.fN b.lat (a.cbar v C) 0 j := by
      unfold faceN fN
      rw [if_pos (Or.inl rfl), if_pos (Or.inl rfl), if_pos ⟨q, Or.inl rfl⟩]
    have f1 : a.faceN v b.lat C (a.ny + 1) j
        = a.fN b.lat (a.cbar v C) 0 j - at' (a.steady = true) (a.fN b.lat (a.cbar v C) 0 j) := by
      unfold faceN fN
      rw [if_pos (Or.inr rfl), if_pos (Or.inl rfl)]
      by_cases hs : a.steady = true
      · rw [if_neg (by rintro ⟨_, hh⟩; rcases hh with hh | hh; exacts [by omega, by rw [hs] at hh; cases hh]),
          at'_pos hs, sub_self]
      · rw [if_pos ⟨q, Or.inr (by simpa using hs)⟩, at'_neg hs, sub_zero]
    have f3 : a.ufn b.lat (a.ny + 1) j = a.ufn b.lat 0 j := by rw [q, ufn_last]
    rw [f0, f1, f3]
    by_cases hs : a.steady = true
    · rw [at'_pos (P := a.steady = true) hs, at'_pos (P := b.lat = "circular" ∧ a.steady = true) ⟨q, hs⟩]
      by_cases hy : 0 < a.ny
      · rw [at'_pos (P := 0 < a.ny ∧ b.lat = "circular") ⟨hy, q⟩, sub_self, mul_zero]
        unfold at'; split_ifs <;> ring
      · rw [at'_neg (P := 0 < a.ny ∧ b.lat = "circular") (fun hh => hy hh.1), at'_pos (by omega : i = a.ny),
          at'_pos (by omega : i = 0), at'_pos (by omega : i = a.ny), show a.ny = 0 by omega]
        ring
    · rw [at'_neg (P := a.steady = true) hs,
        at'_neg (P := b.lat = "circular" ∧ a.steady = true) (fun hh => hs hh.2), sub_zero]
      by_cases hy : 0 < a.ny
      · rw [at'_pos (P := 0 < a.ny ∧ b.lat = "circular") ⟨hy, q⟩]
        ring
      · rw [at'_neg (P := 0 < a.ny ∧ b.lat = "circular") (fun hh => hy hh.1), at'_pos (by omega : i = a.ny),
          at'_pos (by omega : i = 0), show a.ny = 0 by omega]
        ring

/-- With a fully implicit scheme the matrix times the new concentrations is a sum of supplies. -/
theorem implicit_rhs (a : FV K) (b : Bounds) (h : Setting a b) (D : Diags K) (hD : a.entries b = .ok D)
    (v : Data K) (C w dC : ℕ → ℕ → K) {i j : ℕ} (hi : i ≤ a.ny) (hj : j ≤ a.nx)
    (hl : b.lat ≠ "constant") (hal : a.al = 1)
    (hs : rowPart D dC i j + acrossPart a D dC i j = a.rhs v b C w i j) :
    rowPart D (fun i j => C i j + dC i j) i j + acrossPart a D (fun i j => C i j + dC i j) i j
      = (if a.colUnit b j then C i j + a.endValue b v j
          else a.dsdn i j * a.invDt * v.lCt i j + a.entrain v C w i j + a.endFlux b v i j)
        + a.leak b C j + a.sideFlux b v i j + a.forgotten b v C i j := by
  have hcb : a.cbar v C = C := by
    funext i j; unfold cbar; rw [hal]; ring
  rw [parts_add, hs]
  by_cases hu : a.colUnit b j
  · rw [matrix_unit a b h D hD C hi hj hl hu, rhs_unit a b h v C w hi hj hl hu, if_pos hu, hal, hcb]
    ring
  · rw [matrix_cell a b h D hD C hi hj hl hu, rhs_cell a b h v C w hi hj hl hu, if_neg hu, hal, hcb]
    ring

/-! ### Sums of the fluxes -/

theorem sum_at'_first (n : ℕ) (P : Prop) [Decidable P] (F : ℕ → K) :
    ∑ j ∈ range (n + 1), at' (P ∧ j = 0) (F j) = at' P (F 0) := by
  rw [sum_range_succ', sum_eq_zero fun j _ => at'_neg (by omega) _, zero_add]
  by_cases h : P
  · rw [at'_pos ⟨h, rfl⟩, at'_pos h]
  · rw [at'_neg (fun q => h q.1), at'_neg h]

theorem sum_at'_last (n : ℕ) (P : Prop) [Decidable P] (F : ℕ → K) :
    ∑ j ∈ range (n + 1), at' (P ∧ j = n) (F j) = at' P (F n) := by
  rw [sum_range_succ, sum_eq_zero fun j hj => at'_neg (by have := mem_range.mp hj; omega) _, zero_add]
  by_cases h : P
  · rw [at'_pos ⟨h, rfl⟩, at'_pos h]
  · rw [at'_neg (fun q => h q.1), at'_neg h]

theorem sum_at'_shift (n : ℕ) (F : ℕ → K) :
    ∑ j ∈ range (n + 1), at' (1 ≤ j) (F j) = ∑ j ∈ range (n + 1), at' (j < n) (F (j + 1)) := by
  rw [sum_range_succ', sum_range_succ, at'_neg (by omega : ¬ 1 ≤ 0), at'_neg (lt_irrefl n)]
  congr 1
  refine sum_congr rfl fun j hj => ?_
  rw [at'_pos (by omega), at'_pos (mem_range.mp hj)]

/-- Net flux out of a row through its ends. -/
theorem sum_outX (a : FV K) (b : Bounds) (h : Setting a b) (c : ℕ → ℕ → K) {i : ℕ} (hi : i ≤ a.ny) :
    ∑ j ∈ range (a.nx + 1), a.outX b c i j
      = at' (b.on = "gradient") (a.dn i 0 * a.ufs i a.nx * a.fS c i a.nx)
        - at' (b.off = "gradient") (a.dn i 0 * a.ufs i 1 * a.fS c i 1) := by
  have hnx := h.nx
  have e : ∀ j ∈ range (a.nx + 1), a.outX b c i j
      = -(at' (1 ≤ j) (a.dn i 0 * a.ufs i j * a.fS c i j)
        - at' (j < a.nx) (a.dn i 0 * a.ufs i (j + 1) * a.fS c i (j + 1))
        + at' (b.off = "gradient" ∧ j = 0) (a.dn i 0 * a.ufs i (j + 1) * a.fS c i (j + 1))
        - at' (b.on = "gradient" ∧ j = a.nx) (a.dn i 0 * a.ufs i j * a.fS c i j)) := by
    intro j hj
    have l1 : a.lowX b j ↔ 1 ≤ j ∧ ¬(b.on = "gradient" ∧ j = a.nx) := Iff.rfl
    have l2 : a.upX b j ↔ j < a.nx ∧ ¬(b.off = "gradient" ∧ j = 0) := Iff.rfl
    rw [at'_combine l1 l2 (fun q => by omega) (fun q => by omega)]
    unfold outX
    rw [h.dnRow i hi j (by have := mem_range.mp hj; omega)]
    ring
  rw [sum_congr rfl e, sum_neg_distrib, sum_sub_distrib, sum_add_distrib, sum_sub_distrib,
    sum_at'_first a.nx (b.off = "gradient") (fun j => a.dn i 0 * a.ufs i (j + 1) * a.fS c i (j + 1)),
    sum_at'_last a.nx (b.on = "gradient") (fun j => a.dn i 0 * a.ufs i j * a.fS c i j),
    sum_at'_shift a.nx (fun j => a.dn i 0 * a.ufs i j * a.fS c i j)]
  ring

/-- No net flux across the rows. -/
theorem sum_outY (a : FV K) (b : Bounds) (h : Setting a b) (c : ℕ → ℕ → K) {j : ℕ} (hj : j ≤ a.nx) :
    ∑ i ∈ range (a.ny + 1), a.outY b c i j = 0 := by
  by_cases hy : 0 < a.ny
  · have hds : ∀ i ∈ range (a.ny + 1), a.ds i j = a.ds 0 j := fun i hi =>
      h.dsCol i (by have := mem_range.mp hi; omega) j hj
    by_cases hc : b.lat = "circular"
    · have e : ∀ i ∈ range (a.ny + 1), a.outY b c i j
          = a.ds 0 j * a.ufn b.lat (i + 1) j * a.fN b.lat c (i + 1) j
            - a.ds 0 j * a.ufn b.lat i j * a.fN b.lat c i j := fun i hi => by
        unfold outY
        rw [at'_pos hy, at'_pos (Or.inr hc), at'_pos (Or.inr hc), hds i hi]
      rw [sum_congr rfl e, sum_range_sub (fun i => a.ds 0 j * a.ufn b.lat i j * a.fN b.lat c i j)]
      have f2 : a.fN b.lat c (a.ny + 1) j = a.fN b.lat c 0 j := by
        unfold fN; rw [if_pos (Or.inr rfl), if_pos (Or.inl rfl)]
      rw [f2, hc, ufn_last, sub_self]
    · have e : ∀ i ∈ range (a.ny + 1), a.outY b c i j
          = at' (i < a.ny) (a.ds 0 j * a.ufn b.lat (i + 1) j * a.fN b.lat c (i + 1) j)
            - at' (1 ≤ i) (a.ds 0 j * a.ufn b.lat i j * a.fN b.lat c i j) := fun i hi => by
        unfold outY
        rw [at'_pos hy, hds i hi]
        simp only [hc, or_false]
      rw [sum_congr rfl e, sum_sub_distrib,
        sum_at'_shift a.ny (fun i => a.ds 0 j * a.ufn b.lat i j * a.fN b.lat c i j), sub_self]
  · exact sum_eq_zero fun i _ => at'_neg hy _

/-- The budget of the grid, for ends without fixed concentration. -/
theorem budget (a : FV K) (b : Bounds) (h : Setting a b) (D : Diags K) (hD : a.entries b = .ok D)
    (v : Data K) (C w dC : ℕ → ℕ → K) (hl : b.lat ≠ "constant") (h1 : b.off ≠ "constant")
    (h2 : b.on ≠ "constant")
    (hs : ∀ i ≤ a.ny, ∀ j ≤ a.nx, rowPart D dC i j + acrossPart a D dC i j = a.rhs v b C w i j) :
    a.total (fun i j => a.dsdn i j * a.invDt * (C i j + dC i j - v.lCt i j))
      = a.total (fun i j => a.entrain v C w i j
          - a.dsdn i j / a.T * a.cbar v (fun i j => C i j + dC i j) i j)
        + ∑ i ∈ range (a.ny + 1),
          (at' (b.off = "flux") (a.dn i 0 * a.us i 0 * v.Cu0 i 0 * v.offFlux)
            + at' (b.on = "flux") (a.dn i 0 * a.us i a.nx * v.Cu0 i a.nx * v.onFlux)
            + at' (b.off = "gradient")
              (a.dn i 0 * a.ufs i 1 * a.fS (a.cbar v fun i j => C i j + dC i j) i 1)
            - at' (b.on = "gradient")
              (a.dn i 0 * a.ufs i a.nx * a.fS (a.cbar v fun i j => C i j + dC i j) i a.nx))
        + ∑ j ∈ range (a.nx + 1),
          (at' (b.lat = "flux") (a.ds 0 j * a.un 0 j * v.Cu0 0 j * v.latFlux
              - a.ds 0 j * a.un a.ny j * v.Cu0 a.ny j * v.latFlux)
            - a.al * a.leak b dC j
            + at' (b.lat = "circular" ∧ a.steady = true)
              (a.ds 0 j * a.ufn b.lat 0 j * a.fN b.lat (a.cbar v C) 0 j)) := by
  have hnx := h.nx
  have hu : ∀ j, ¬ a.colUnit b j := by
    rintro j (q | q)
    · exact h1 q.1
    · exact h2 q.1
  have e : a.total (fun i j => a.dsdn i j * a.invDt * (C i j + dC i j - v.lCt i j))
      = ∑ i ∈ range (a.ny + 1), ∑ j ∈ range (a.nx + 1),
        (((a.entrain v C w i j - a.dsdn i j / a.T * a.cbar v (fun i j => C i j + dC i j) i j)
          + (a.endFlux b v i j - a.outX b (a.cbar v fun i j => C i j + dC i j) i j))
        + (a.sideFlux b v i j - a.al * a.leak b dC j * at' (i = 0) 1 + a.forgotten b v C i j
          - a.outY b (a.cbar v fun i j => C i j + dC i j) i j)) := by
    unfold total
    refine sum_congr rfl fun i hi => sum_congr rfl fun j hj => ?_
    have hi' : i ≤ a.ny := by have := mem_range.mp hi; omega
    have hj' : j ≤ a.nx := by have := mem_range.mp hj; omega
    beta_reduce
    rw [cell_equation a b h D hD v C w dC hi' hj' hl (hu j) (hs i hi' j hj')]
    have hlk : a.al * a.leak b dC j * at' (i = 0) 1 = a.al * a.leak b dC j := by
      by_cases hy : a.ny = 0
      · rw [at'_pos (by omega), mul_one]
      · have : a.leak b dC j = 0 := at'_neg (fun q => hy q.1) _
        rw [this, mul_zero, zero_mul]
    rw [hlk]; ring
  rw [e]
  simp only [sum_add_distrib (f := fun j => ((a.entrain v C w _ j - _) + _))]
  rw [sum_add_distrib]
  have eX : ∀ i ∈ range (a.ny + 1), ∑ j ∈ range (a.nx + 1),
        ((a.entrain v C w i j - a.dsdn i j / a.T * a.cbar v (fun i j => C i j + dC i j) i j)
          + (a.endFlux b v i j - a.outX b (a.cbar v fun i j => C i j + dC i j) i j))
      = ∑ j ∈ range (a.nx + 1),
          (a.entrain v C w i j - a.dsdn i j / a.T * a.cbar v (fun i j => C i j + dC i j) i j)
        + (at' (b.off = "flux") (a.dn i 0 * a.us i 0 * v.Cu0 i 0 * v.offFlux)
            + at' (b.on = "flux") (a.dn i 0 * a.us i a.nx * v.Cu0 i a.nx * v.onFlux)
            + at' (b.off = "gradient")
              (a.dn i 0 * a.ufs i 1 * a.fS (a.cbar v fun i j => C i j + dC i j) i 1)
            - at' (b.on = "gradient")
              (a.dn i 0 * a.ufs i a.nx * a.fS (a.cbar v fun i j => C i j + dC i j) i a.nx)) := by
    intro i hi
    have hi' : i ≤ a.ny := by have := mem_range.mp hi; omega
    have hf : ∑ j ∈ range (a.nx + 1), a.endFlux b v i j
        = at' (b.off = "flux") (a.dn i 0 * a.us i 0 * v.Cu0 i 0 * v.offFlux)
          + at' (b.on = "flux") (a.dn i 0 * a.us i a.nx * v.Cu0 i a.nx * v.onFlux) := by
      unfold endFlux
      rw [sum_add_distrib, sum_at'_first a.nx (b.off = "flux")
          (fun _ => a.dn i 0 * a.ufs i 0 * v.Cu0 i 0 * v.offFlux),
        sum_at'_last a.nx (b.on = "flux")
          (fun _ => a.dn i a.nx * a.ufs i (a.nx + 1) * v.Cu0 i a.nx * v.onFlux)]
      have u0 : a.ufs i 0 = a.us i 0 := by unfold ufs; rw [if_pos rfl]
      have u1 : a.ufs i (a.nx + 1) = a.us i a.nx := by
        unfold ufs; rw [if_neg (by omega), if_pos rfl]
      rw [u0, u1, h.dnRow i hi' a.nx le_rfl]
    rw [sum_add_distrib, sum_sub_distrib (f := fun j => a.endFlux b v i j), hf, sum_outX a b h _ hi']
    ring
  rw [sum_congr rfl eX, sum_add_distrib]
  have eY : ∑ i ∈ range (a.ny + 1), ∑ j ∈ range (a.nx + 1),
        (a.sideFlux b v i j - a.al * a.leak b dC j * at' (i = 0) 1 + a.forgotten b v C i j
          - a.outY b (a.cbar v fun i j => C i j + dC i j) i j)
      = ∑ j ∈ range (a.nx + 1),
          (at' (b.lat = "flux") (a.ds 0 j * a.un 0 j * v.Cu0 0 j * v.latFlux
              - a.ds 0 j * a.un a.ny j * v.Cu0 a.ny j * v.latFlux)
            - a.al * a.leak b dC j
            + at' (b.lat = "circular" ∧ a.steady = true)
              (a.ds 0 j * a.ufn b.lat 0 j * a.fN b.lat (a.cbar v C) 0 j)) := by
    rw [sum_comm]
    refine sum_congr rfl fun j hj => ?_
    have hj' : j ≤ a.nx := by have := mem_range.mp hj; omega
    have s1 : ∑ i ∈ range (a.ny + 1), a.sideFlux b v i j
        = at' (b.lat = "flux") (a.ds 0 j * a.un 0 j * v.Cu0 0 j * v.latFlux
              - a.ds 0 j * a.un a.ny j * v.Cu0 a.ny j * v.latFlux) := by
      unfold sideFlux
      by_cases q : b.lat = "flux"
      · simp only [at'_pos q]
        have t1 := sum_at'_first a.ny True (fun _ => a.ds 0 j * a.ufn b.lat 0 j * v.Cu0 0 j * v.latFlux)
        have t2 := sum_at'_last a.ny True
          (fun _ => a.ds a.ny j * a.ufn b.lat (a.ny + 1) j * v.Cu0 a.ny j * v.latFlux)
        simp only [true_and, at'_pos trivial] at t1 t2
        rw [sum_sub_distrib, t1, t2]
        have hc : ¬ b.lat = "circular" := by rw [q]; decide
        have u0 : a.ufn b.lat 0 j = a.un 0 j := by
          unfold ufn; rw [if_pos (Or.inl rfl), if_neg hc, if_pos rfl]
        have u1 : a.ufn b.lat (a.ny + 1) j = a.un a.ny j := by
          unfold ufn; rw [if_pos (Or.inr rfl), if_neg hc, if_neg (by omega)]
        rw [u0, u1, h.dsCol a.ny le_rfl j hj']
      · simp only [at'_neg q, sum_const_zero]
    have s2 : ∑ i ∈ range (a.ny + 1), a.al * a.leak b dC j * at' (i = 0) 1 = a.al * a.leak b dC j := by
      have t1 := sum_at'_first a.ny True (fun _ => (1 : K))
      simp only [true_and, at'_pos trivial] at t1
      rw [← mul_sum, t1, mul_one]
    have s3 : ∑ i ∈ range (a.ny + 1), a.forgotten b v C i j
        = at' (b.lat = "circular" ∧ a.steady = true)
            (a.ds 0 j * a.ufn b.lat 0 j * a.fN b.lat (a.cbar v C) 0 j) := by
      unfold forgotten
      by_cases q : b.lat = "circular" ∧ a.steady = true
      · simp only [at'_pos q]
        have t2 := sum_at'_last a.ny True
          (fun _ => a.ds a.ny j * a.ufn b.lat 0 j * a.fN b.lat (a.cbar v C) 0 j)
        simp only [true_and, at'_pos trivial] at t2
        rw [t2, h.dsCol a.ny le_rfl j hj']
      · simp only [at'_neg q, sum_const_zero]
    rw [sum_sub_distrib, sum_add_distrib, sum_sub_distrib, s1, s2, s3, sum_outY a b h _ hj']
    ring
  rw [eY]
  rfl

end Aeolis.Solver.FV
