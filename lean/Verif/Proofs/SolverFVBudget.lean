import Verif.Proofs.SolverFVUnique
import Mathlib.Tactic.LinearCombination

/-!
The equation of one cell of the finite-volume solvers as a balance of fluxes, and its sum over the grid.
-/

set_option linter.unusedSectionVars false

namespace Aeolis.Solver.FV

open Finset

variable {K : Type*} [Field K] [LinearOrder K] [IsStrictOrderedRing K]

/-- Value upwind of a face along a row. -/
def fS (a : FV K) (c : ℕ → ℕ → K) (i j : ℕ) : K :=
  a.ixfs i j * c i (j - 1) + (1 - a.ixfs i j) * c i j

/-- Value upwind of a face across the rows, cyclically. -/
def fN (a : FV K) (l : String) (c : ℕ → ℕ → K) (i j : ℕ) : K :=
  if i = 0 ∨ i = a.ny + 1 then a.ixfn l 0 j * c a.ny j + (1 - a.ixfn l 0 j) * c 0 j
  else a.ixfn l i j * c (i - 1) j + (1 - a.ixfn l i j) * c i j

/-- Net flux out of a cell along the row. -/
def outX (a : FV K) (b : Bounds) (c : ℕ → ℕ → K) (i j : ℕ) : K :=
  at' (a.upX b j) (a.dn i j * a.ufs i (j + 1) * a.fS c i (j + 1))
    - at' (a.lowX b j) (a.dn i j * a.ufs i j * a.fS c i j)

/-- Net flux out of a cell across the rows. -/
def outY (a : FV K) (b : Bounds) (c : ℕ → ℕ → K) (i j : ℕ) : K :=
  at' (0 < a.ny) (at' (i < a.ny ∨ b.lat = "circular") (a.ds i j * a.ufn b.lat (i + 1) j * a.fN b.lat c (i + 1) j)
    - at' (1 ≤ i ∨ b.lat = "circular") (a.ds i j * a.ufn b.lat i j * a.fN b.lat c i j))

/-- Outflow put into the matrix by a circular condition on a transect. -/
def leak (a : FV K) (b : Bounds) (c : ℕ → ℕ → K) (j : ℕ) : K :=
  at' (a.ny = 0 ∧ b.lat = "circular") (a.ds 0 j * |a.ufn b.lat 0 j| * c 0 j)

theorem fS_lin (a : FV K) (c d : ℕ → ℕ → K) (s t : K) (i j : ℕ) :
    a.fS (fun i j => s * c i j + t * d i j) i j = s * a.fS c i j + t * a.fS d i j := by
  unfold fS; ring
theorem fN_lin (a : FV K) (l : String) (c d : ℕ → ℕ → K) (s t : K) (i j : ℕ) :
    a.fN l (fun i j => s * c i j + t * d i j) i j = s * a.fN l c i j + t * a.fN l d i j := by
  unfold fN; split <;> ring
theorem outX_lin (a : FV K) (b : Bounds) (c d : ℕ → ℕ → K) (s t : K) (i j : ℕ) :
    a.outX b (fun i j => s * c i j + t * d i j) i j = s * a.outX b c i j + t * a.outX b d i j := by
  unfold outX at'; rw [fS_lin, fS_lin]; split_ifs <;> ring
theorem outY_lin (a : FV K) (b : Bounds) (c d : ℕ → ℕ → K) (s t : K) (i j : ℕ) :
    a.outY b (fun i j => s * c i j + t * d i j) i j = s * a.outY b c i j + t * a.outY b d i j := by
  unfold outY at'; rw [fN_lin, fN_lin]; split_ifs <;> ring

/-- `|u|` from the upwind indicator. -/
theorem abs_split (a : FV K) (l : String) (i j : ℕ) :
    a.ufn l i j * a.ixfn l i j - a.ufn l i j * (1 - a.ixfn l i j) = |a.ufn l i j| := by
  unfold ixfn; split
  · rename_i h; rw [abs_of_nonneg h]; ring
  · rename_i h; rw [abs_of_neg (not_le.mp h)]; ring

/-- The matrix applied to a grid, in a cell with a full equation. -/
theorem matrix_cell (a : FV K) (b : Bounds) (h : Setting a b) (D : Diags K) (hD : a.entries b = .ok D)
    (c : ℕ → ℕ → K) {i j : ℕ} (hi : i ≤ a.ny) (hj : j ≤ a.nx) (hl : b.lat ≠ "constant")
    (hu : ¬ a.colUnit b j) :
    rowPart D c i j + acrossPart a D c i j =
      a.dsdn i j * a.invDt * c i j
        + a.al * (a.dsdn i j / a.T * c i j + a.outX b c i j + a.outY b c i j + a.leak b c j) := by
  obtain ⟨D', hD', hU, hN⟩ := entries_form a b h
  rw [hD] at hD'
  cases hD'
  have hnr : ∀ i', ¬ a.rowUnit b i' := fun i' q => hl q.1
  obtain ⟨f0, f1, f2, f3, _⟩ := hN i j (hnr i)
  obtain ⟨_, _, _, _, f4⟩ := hN (nextRow a.ny i) j (hnr _)
  have e1 : (a.form2 b).A0 i j = a.dsdn i j * a.invDt + a.dsdn i j / a.T * a.al
      - at' (a.lowX b j) (a.dn i j * a.ufs i j * (1 - a.ixfs i j) * a.al)
      + at' (a.upX b j) (a.dn i j * a.ufs i (j + 1) * a.ixfs i (j + 1) * a.al) + a.y0 b i j := by
    unfold y0
    simp only [form2, if_neg hu]
    ring
  have hX : (-at' (a.lowX b j) (a.dn i j * a.ufs i j * (1 - a.ixfs i j) * a.al)
      + at' (a.upX b j) (a.dn i j * a.ufs i (j + 1) * a.ixfs i (j + 1) * a.al)) * c i j
      + (a.form2 b).Am1 i j * c i (j - 1) + (a.form2 b).Ap1 i j * c i (j + 1) = a.al * a.outX b c i j := by
    simp only [form2, if_neg hu]
    unfold outX fS at'
    rw [Nat.add_sub_cancel]
    split_ifs <;> ring
  have hY : (a.y0 b i j + a.c0 b i j) * c i j + acrossPart a D c i j
      = a.al * (a.outY b c i j + a.leak b c j) := by
    unfold acrossPart
    by_cases hy : 0 < a.ny
    · rw [if_pos hy, f3, f4]
      have hlk : a.leak b c j = 0 := at'_neg (by omega) _
      rw [hlk, add_zero]
      unfold outY
      rw [at'_pos hy]
      have hds' : ∀ i' ≤ a.ny, a.ds i' j = a.ds i j := fun i' hi' => by
        rw [h.dsCol i' hi' j hj, h.dsCol i hi j hj]
      rcases h.wind with hw | hw | ⟨hc, _, _, hw⟩
      · omega
      · have hN1 : ∀ i' ≤ a.ny + 1, a.ixfn b.lat i' j = 1 := fun i' hi' => by
          unfold ixfn; rw [if_pos (ufn_nonneg a b.lat hw hi' hj)]
        have z1 : (a.form2 b).Apx (nextRow a.ny i) j + a.cp b (nextRow a.ny i) j = 0 := by
          have hnl := next_le a.ny i hi
          unfold cp
          simp only [form2, if_neg hu, hN1 (nextRow a.ny i + 1) (by omega), hN1 (a.ny + 1) le_rfl]
          unfold at'; split_ifs <;> ring
        rw [z1]
        simp only [form2, if_neg hu]
        unfold y0 c0 cm fN
        rw [hN1 i (by omega), hN1 (i + 1) (by omega), hN1 0 (by omega), hN1 (a.ny + 1) le_rfl]
        unfold prevRow at'
        rw [Nat.add_sub_cancel]
        rcases h.lat with hc | hc | hc
        · have hcc : ¬ b.lat = "circular" := by rw [hc]; decide
          by_cases h0 : i = 0 <;> by_cases hny : i = a.ny
          · omega
          · simp only [if_pos h0, if_neg (by omega : ¬ 1 ≤ i), if_pos (by omega : i < a.ny), if_neg hcc,
              if_neg (by omega : ¬ (i + 1 = 0 ∨ i + 1 = a.ny + 1)),
              if_pos (Or.inl (by omega) : i < a.ny ∨ b.lat = "circular"),
              if_neg (by rintro (q | q); exacts [by omega, hcc q] : ¬ (1 ≤ i ∨ b.lat = "circular"))]
            ring
          · simp only [if_neg h0, if_pos (by omega : 1 ≤ i), if_neg (by omega : ¬ i < a.ny), if_neg hcc,
              if_neg (by omega : ¬ (i = 0 ∨ i = a.ny + 1)),
              if_pos (Or.inl (by omega) : 1 ≤ i ∨ b.lat = "circular"),
              if_neg (by rintro (q | q); exacts [by omega, hcc q] : ¬ (i < a.ny ∨ b.lat = "circular"))]
            ring
          · simp only [if_neg h0, if_pos (by omega : 1 ≤ i), if_pos (by omega : i < a.ny), if_neg hcc,
              if_neg (by omega : ¬ (i = 0 ∨ i = a.ny + 1)), if_neg (by omega : ¬ (i + 1 = 0 ∨ i + 1 = a.ny + 1)),
              if_pos (Or.inl (by omega) : 1 ≤ i ∨ b.lat = "circular"),
              if_pos (Or.inl (by omega) : i < a.ny ∨ b.lat = "circular")]
            ring
        · exact absurd hc hl
        · rw [hc]
          rw [ufn_last, hds' 0 (by omega), hds' a.ny le_rfl]
          simp only [or_true, if_true]
          by_cases h0 : i = 0 <;> by_cases hny : i = a.ny
          · omega
          · simp only [if_neg (by omega : ¬ 1 ≤ i), if_pos (by omega : i < a.ny),
              if_neg (by omega : ¬ (i + 1 = 0 ∨ i + 1 = a.ny + 1)), if_neg hny,
              if_pos (by omega : (i = 0 ∨ i = a.ny + 1)), if_pos h0]
            simp only [h0]; ring
          · simp only [if_pos (by omega : 1 ≤ i), if_neg (by omega : ¬ i < a.ny),
              if_pos (by omega : (i + 1 = 0 ∨ i + 1 = a.ny + 1)), if_pos hny,
              if_neg (by omega : ¬ (i = 0 ∨ i = a.ny + 1)), if_neg h0]
            have e : a.ufn "circular" (i + 1) j = a.ufn "circular" 0 j := by rw [hny, ufn_last]
            rw [e, ← hny]; ring
          · simp only [if_pos (by omega : 1 ≤ i), if_pos (by omega : i < a.ny),
              if_neg (by omega : ¬ (i + 1 = 0 ∨ i + 1 = a.ny + 1)), if_neg hny,
              if_neg (by omega : ¬ (i = 0 ∨ i = a.ny + 1)), if_neg h0]
            ring
      · have hu' : ∀ i' ≤ a.ny + 1, a.ufn "circular" i' j = a.ufn "circular" 0 j :=
          fun i' hi' => ufn_uniform a hw hi' hj
        have hi' : ∀ i' ≤ a.ny + 1, a.ixfn "circular" i' j = a.ixfn "circular" 0 j := fun i' h' => by
          unfold ixfn; rw [hu' i' h']
        have nle := next_le a.ny i hi
        unfold y0 c0 cm cp fN
        simp only [at'_pos hc, form2, if_neg hu]
        rw [hc]
        rw [hu' i (by omega), hu' (i + 1) (by omega), hu' (a.ny + 1) le_rfl,
          hu' (nextRow a.ny i + 1) (by omega), hi' i (by omega), hi' (i + 1) (by omega),
          hi' (a.ny + 1) le_rfl, hi' (nextRow a.ny i + 1) (by omega),
          hds' (nextRow a.ny i) nle, hds' 0 (by omega), hds' a.ny le_rfl]
        unfold prevRow nextRow at'
        by_cases h0 : i = 0 <;> by_cases hny : i = a.ny
        · omega
        · have t1 : ¬ 1 ≤ i := by omega
          have t2 : i < a.ny := by omega
          have t3 : ¬ (i + 1 = 0 ∨ i + 1 = a.ny + 1) := by omega
          have t4 : (i = 0 ∨ i = a.ny + 1) := by omega
          simp only [if_neg t1, if_pos t2, if_neg t3, if_pos t4, or_true, if_true, if_neg hny, if_pos h0,
            Nat.add_sub_cancel]
          by_cases s1 : i + 1 = a.ny
          · simp only [if_neg (by omega : ¬ i + 1 < a.ny), if_pos s1]
            simp only [h0]; ring
          · simp only [if_pos (by omega : i + 1 < a.ny), if_neg s1]
            simp only [h0]; ring
        · have t1 : 1 ≤ i := by omega
          have t2 : ¬ i < a.ny := by omega
          have t3 : (i + 1 = 0 ∨ i + 1 = a.ny + 1) := by omega
          have t4 : ¬ (i = 0 ∨ i = a.ny + 1) := by omega
          simp only [if_pos t1, if_neg t2, if_pos t3, if_neg t4, or_true, if_true, if_pos hny, if_neg h0,
            if_pos hy, if_neg (by omega : ¬ 0 = a.ny)]
          simp only [← hny]; ring
        · have t1 : 1 ≤ i := by omega
          have t2 : i < a.ny := by omega
          have t3 : ¬ (i + 1 = 0 ∨ i + 1 = a.ny + 1) := by omega
          have t4 : ¬ (i = 0 ∨ i = a.ny + 1) := by omega
          simp only [if_pos t1, if_pos t2, if_neg t3, if_neg t4, or_true, if_true, if_neg hny, if_neg h0,
            Nat.add_sub_cancel]
          by_cases s1 : i + 1 = a.ny
          · simp only [if_neg (by omega : ¬ i + 1 < a.ny), if_pos s1]
            ring
          · simp only [if_pos (by omega : i + 1 < a.ny), if_neg s1]
            ring
    · rw [if_neg hy]
      have h0 : i = 0 := by omega
      have hn : a.ny = 0 := by omega
      unfold y0 c0 outY leak
      rw [at'_neg (by omega : ¬ 1 ≤ i), at'_neg (by omega : ¬ i < a.ny), at'_neg hy, at'_pos h0,
        at'_pos (by omega : i = a.ny)]
      by_cases hc : b.lat = "circular"
      · rw [at'_pos hc, at'_pos ⟨hn, hc⟩, ← abs_split, hc, ufn_last, ixfn_last, hn, h0]
        ring
      · rw [at'_neg hc, at'_neg (fun q => hc q.2)]
        ring
  unfold rowPart
  rw [f0, f1, f2, e1]
  linear_combination hX + hY

/-- Flux through the ends of the rows under a flux condition. -/
def endFlux (a : FV K) (b : Bounds) (v : Data K) (i j : ℕ) : K :=
  at' (b.off = "flux" ∧ j = 0) (a.dn i 0 * a.ufs i 0 * v.Cu0 i 0 * v.offFlux)
    + at' (b.on = "flux" ∧ j = a.nx) (a.dn i a.nx * a.ufs i (a.nx + 1) * v.Cu0 i a.nx * v.onFlux)

/-- Flux through the lateral boundaries under a flux condition. -/
def sideFlux (a : FV K) (b : Bounds) (v : Data K) (i j : ℕ) : K :=
  at' (b.lat = "flux") (at' (i = 0) (a.ds 0 j * a.ufn b.lat 0 j * v.Cu0 0 j * v.latFlux)
    - at' (i = a.ny) (a.ds a.ny j * a.ufn b.lat (a.ny + 1) j * v.Cu0 a.ny j * v.latFlux))

/-- Outflow at the last row that the steady version forgets. -/
def forgotten (a : FV K) (b : Bounds) (v : Data K) (C : ℕ → ℕ → K) (i j : ℕ) : K :=
  at' (b.lat = "circular" ∧ a.steady = true)
    (at' (i = a.ny) (a.ds a.ny j * a.ufn b.lat 0 j * a.fN b.lat (a.cbar v C) 0 j))

theorem at'_combine {A B P Q L U : Prop} [Decidable A] [Decidable B] [Decidable P] [Decidable Q]
    [Decidable L] [Decidable U] (hL : L ↔ A ∧ ¬ Q) (hU : U ↔ B ∧ ¬ P) (hP : P → B) (hQ : Q → A) (x y : K) :
    at' A x - at' B y + at' P y - at' Q x = -(at' U y - at' L x) := by
  have e1 : at' L x = at' A x - at' Q x := by
    by_cases q : Q
    · rw [at'_neg (fun l => (hL.mp l).2 q), at'_pos q, at'_pos (hQ q), sub_self]
    · by_cases h : A
      · rw [at'_pos (hL.mpr ⟨h, q⟩), at'_pos h, at'_neg q, sub_zero]
      · rw [at'_neg (fun l => h (hL.mp l).1), at'_neg h, at'_neg q, sub_zero]
  have e2 : at' U y = at' B y - at' P y := by
    by_cases q : P
    · rw [at'_neg (fun l => (hU.mp l).2 q), at'_pos q, at'_pos (hP q), sub_self]
    · by_cases h : B
      · rw [at'_pos (hU.mpr ⟨h, q⟩), at'_pos h, at'_neg q, sub_zero]
      · rw [at'_neg (fun l => h (hU.mp l).1), at'_neg h, at'_neg q, sub_zero]
  rw [e1, e2]; ring

/-- The right hand side in a cell with a full equation. -/
theorem rhs_cell (a : FV K) (b : Bounds) (h : Setting a b) (v : Data K) (C w : ℕ → ℕ → K) {i j : ℕ}
    (hi : i ≤ a.ny) (hj : j ≤ a.nx) (hl : b.lat ≠ "constant") (hu : ¬ a.colUnit b j) :
    a.rhs v b C w i j = -(a.dsdn i j * a.invDt * (C i j - v.lCt i j))
      + (a.entrain v C w i j - a.dsdn i j / a.T * a.cbar v C i j)
      - a.outX b (a.cbar v C) i j - a.outY b (a.cbar v C) i j
      + a.endFlux b v i j + a.sideFlux b v i j + a.forgotten b v C i j := by
  have hnx := h.nx
  have hS : ∀ j', a.faceS v C i j' = a.fS (a.cbar v C) i j' := fun _ => rfl
  -- along the row
  have hX : ∀ y : ℕ → ℕ → K, a.onshoreRhs v b.on C (a.offshoreRhs v b.off C y) i j
      = y i j + a.endFlux b v i j
        + at' (b.off = "gradient" ∧ j = 0) (a.dn i j * a.ufs i (j + 1) * a.fS (a.cbar v C) i (j + 1))
        - at' (b.on = "gradient" ∧ j = a.nx) (a.dn i j * a.ufs i j * a.fS (a.cbar v C) i j) := by
    intro y
    have h0 : a.offshoreRhs v b.off C y i j = y i j
        + at' (b.off = "flux" ∧ j = 0) (a.dn i 0 * a.ufs i 0 * v.Cu0 i 0 * v.offFlux)
        + at' (b.off = "gradient" ∧ j = 0) (a.dn i j * a.ufs i (j + 1) * a.fS (a.cbar v C) i (j + 1)) := by
      unfold offshoreRhs
      rcases h.ends.1 with q | q | q
      · have n1 : ¬ b.off = "gradient" := by rw [q]; decide
        rw [if_pos q, at'_neg (P := b.off = "gradient" ∧ j = 0) (fun hh => n1 hh.1)]
        by_cases hj0 : j = 0
        · rw [at'_pos (P := j = 0) hj0, at'_pos (P := b.off = "flux" ∧ j = 0) ⟨q, hj0⟩, add_zero]
        · rw [at'_neg (P := j = 0) hj0, at'_neg (P := b.off = "flux" ∧ j = 0) (fun hh => hj0 hh.2)]; ring
      · have n1 : ¬ b.off = "gradient" := by rw [q]; decide
        have n2 : ¬ b.off = "flux" := by rw [q]; decide
        have hj0 : ¬ j = 0 := fun hh => hu (Or.inl ⟨q, hh⟩)
        rw [if_neg n2, if_pos q, if_neg hj0, at'_neg (P := b.off = "gradient" ∧ j = 0) (fun hh => n1 hh.1), at'_neg (P := b.off = "flux" ∧ j = 0) (fun hh => n2 hh.1)]
        ring
      · have n1 : ¬ b.off = "constant" := by rw [q]; decide
        have n2 : ¬ b.off = "flux" := by rw [q]; decide
        rw [if_neg n2, if_neg n1, at'_neg (P := b.off = "flux" ∧ j = 0) (fun hh => n2 hh.1)]
        by_cases hj0 : j = 0
        · rw [at'_pos (P := j = 0) hj0, at'_pos (P := b.off = "gradient" ∧ j = 0) ⟨q, hj0⟩, hS, h.dnRow i hi 1 (by omega), hj0]; ring
        · rw [at'_neg (P := j = 0) hj0, at'_neg (P := b.off = "gradient" ∧ j = 0) (fun hh => hj0 hh.2)]; ring
    unfold onshoreRhs endFlux
    rcases h.ends.2 with q | q | q
    · have n1 : ¬ b.on = "gradient" := by rw [q]; decide
      rw [if_pos q, at'_neg (P := b.on = "gradient" ∧ j = a.nx) (fun hh => n1 hh.1), h0]
      by_cases hj0 : j = a.nx
      · rw [at'_pos (P := j = a.nx) hj0, at'_pos (P := b.on = "flux" ∧ j = a.nx) ⟨q, hj0⟩]; ring
      · rw [at'_neg (P := j = a.nx) hj0, at'_neg (P := b.on = "flux" ∧ j = a.nx) (fun hh => hj0 hh.2)]; ring
    · have n1 : ¬ b.on = "gradient" := by rw [q]; decide
      have n2 : ¬ b.on = "flux" := by rw [q]; decide
      have hj0 : ¬ j = a.nx := fun hh => hu (Or.inr ⟨q, hh⟩)
      rw [if_neg n2, if_pos q, if_neg hj0, at'_neg (P := b.on = "gradient" ∧ j = a.nx) (fun hh => n1 hh.1),
        at'_neg (P := b.on = "flux" ∧ j = a.nx) (fun hh => n2 hh.1), h0]
      ring
    · have n1 : ¬ b.on = "constant" := by rw [q]; decide
      have n2 : ¬ b.on = "flux" := by rw [q]; decide
      rw [if_neg n2, if_neg n1, at'_neg (P := b.on = "flux" ∧ j = a.nx) (fun hh => n2 hh.1), h0]
      by_cases hj0 : j = a.nx
      · rw [at'_pos (P := j = a.nx) hj0, at'_pos (P := b.on = "gradient" ∧ j = a.nx) ⟨q, hj0⟩, hS,
          h.dnRow i hi (a.nx - 1) (by omega), h.dnRow i hi j hj, hj0]; ring
      · rw [at'_neg (P := j = a.nx) hj0, at'_neg (P := b.on = "gradient" ∧ j = a.nx) (fun hh => hj0 hh.2)]; ring
  have hX2 : at' (1 ≤ j) (a.dn i j * a.ufs i j * a.faceS v C i j)
      - at' (j < a.nx) (a.dn i j * a.ufs i (j + 1) * a.faceS v C i (j + 1))
      + at' (b.off = "gradient" ∧ j = 0) (a.dn i j * a.ufs i (j + 1) * a.fS (a.cbar v C) i (j + 1))
      - at' (b.on = "gradient" ∧ j = a.nx) (a.dn i j * a.ufs i j * a.fS (a.cbar v C) i j)
      = -a.outX b (a.cbar v C) i j := by
    rw [hS, hS]
    have hz : (b.off = "gradient" ∧ j = 0) → j < a.nx := fun q => by omega
    have hz' : (b.on = "gradient" ∧ j = a.nx) → 1 ≤ j := fun q => by omega
    have l1 : a.lowX b j ↔ 1 ≤ j ∧ ¬(b.on = "gradient" ∧ j = a.nx) := Iff.rfl
    have l2 : a.upX b j ↔ j < a.nx ∧ ¬(b.off = "gradient" ∧ j = 0) := Iff.rfl
    exact at'_combine l1 l2 hz hz' _ _
  -- across the rows
  have hY : ∀ y : ℕ → ℕ → K, a.lateralRhs v b.lat C y i j
      + (at' (1 ≤ i) (a.ds i j * a.ufn b.lat i j * a.faceN v b.lat C i j)
        - at' (i < a.ny) (a.ds i j * a.ufn b.lat (i + 1) j * a.faceN v b.lat C (i + 1) j))
      = y i j - a.outY b (a.cbar v C) i j + a.sideFlux b v i j + a.forgotten b v C i j := by
    intro y
    have hN : ∀ i', ¬ (i' = 0 ∨ i' = a.ny + 1) →
        a.faceN v b.lat C i' j = a.fN b.lat (a.cbar v C) i' j := fun i' hi' => by
      unfold faceN fN; rw [if_neg hi', if_neg hi']
    have e1 : at' (1 ≤ i) (a.ds i j * a.ufn b.lat i j * a.faceN v b.lat C i j)
        = at' (1 ≤ i) (a.ds i j * a.ufn b.lat i j * a.fN b.lat (a.cbar v C) i j) := by
      by_cases q : 1 ≤ i
      · rw [hN i (by omega)]
      · rw [at'_neg q, at'_neg q]
    have e2 : at' (i < a.ny) (a.ds i j * a.ufn b.lat (i + 1) j * a.faceN v b.lat C (i + 1) j)
        = at' (i < a.ny) (a.ds i j * a.ufn b.lat (i + 1) j * a.fN b.lat (a.cbar v C) (i + 1) j) := by
      by_cases q : i < a.ny
      · rw [hN (i + 1) (by omega)]
      · rw [at'_neg q, at'_neg q]
    rw [e1, e2]
    unfold lateralRhs sideFlux forgotten
    rcases h.lat with q | q | q
    · have n1 : ¬ b.lat = "circular" := by rw [q]; decide
      rw [if_pos q, at'_pos (P := b.lat = "flux") q, at'_neg (P := b.lat = "circular" ∧ a.steady = true) (fun hh => n1 hh.1)]
      have : a.outY b (a.cbar v C) i j
          = at' (i < a.ny) (a.ds i j * a.ufn b.lat (i + 1) j * a.fN b.lat (a.cbar v C) (i + 1) j)
            - at' (1 ≤ i) (a.ds i j * a.ufn b.lat i j * a.fN b.lat (a.cbar v C) i j) := by
        unfold outY at'
        simp only [n1, or_false]
        split_ifs <;> first | rfl | omega | ring
      rw [this]; ring
    · exact absurd q hl
    · have n1 : ¬ b.lat = "flux" := by rw [q]; decide
      have n2 : ¬ b.lat = "constant" := by rw [q]; decide
      have n3 : ¬ b.lat = "gradient" := by rw [q]; decide
      rw [if_neg n1, if_neg n2, if_neg n3, at'_neg n1]
      have f0 : a.faceN v b.lat C 0 j = a.fN b.lat (a.cbar v C) 0 j := by
        unfold faceN fN
        rw [if_pos (Or.inl rfl), if_pos (Or.inl rfl), if_pos ⟨q, Or.inl rfl⟩]
      have f1 : a.faceN v b.lat C (a.ny + 1) j
          = a.fN b.lat (a.cbar v C) 0 j - at' (a.steady = true) (a.fN b.lat (a.cbar v C) 0 j) := by
        unfold faceN fN
        rw [if_pos (Or.inr rfl), if_pos (Or.inl rfl)]
        by_cases hs : a.steady = true
        · rw [if_neg (by rintro ⟨_, hh⟩; rcases hh with hh | hh; exacts [by omega, by rw [hs] at hh; cases hh]),
            at'_pos (P := a.steady = true) hs, sub_self]
        · rw [if_pos ⟨q, Or.inr (by simpa using hs)⟩, at'_neg (P := a.steady = true) hs, sub_zero]
      have f2 : a.fN b.lat (a.cbar v C) (a.ny + 1) j = a.fN b.lat (a.cbar v C) 0 j := by
        unfold fN; rw [if_pos (Or.inr rfl), if_pos (Or.inl rfl)]
      have f3 : a.ufn b.lat (a.ny + 1) j = a.ufn b.lat 0 j := by rw [q, ufn_last]
      rw [f0, f1, f3]
      have hds' : ∀ i' ≤ a.ny, a.ds i' j = a.ds i j := fun i' hi' => by
        rw [h.dsCol i' hi' j hj, h.dsCol i hi j hj]
      rw [hds' 0 (by omega), hds' a.ny le_rfl]
      unfold outY
      by_cases hy : 0 < a.ny
      · rw [at'_pos hy, at'_pos (Or.inr q), at'_pos (Or.inr q)]
        by_cases hny : i = a.ny
        · have : a.fN b.lat (a.cbar v C) (i + 1) j = a.fN b.lat (a.cbar v C) 0 j := by rw [hny, f2]
          have h3 : a.ufn b.lat (i + 1) j = a.ufn b.lat 0 j := by rw [hny, f3]
          rw [this, h3, at'_pos hny, at'_pos hny, at'_neg (by omega : ¬ i = 0), at'_pos (by omega : 1 ≤ i),
            at'_neg (by omega : ¬ i < a.ny)]
          by_cases hs : a.steady = true
          · rw [at'_pos (P := a.steady = true) hs, at'_pos (P := b.lat = "circular" ∧ a.steady = true) ⟨q, hs⟩]; ring
          · rw [at'_neg (P := a.steady = true) hs, at'_neg (P := b.lat = "circular" ∧ a.steady = true) (fun hh => hs hh.2)]; ring
        · have z : at' (b.lat = "circular" ∧ a.steady = true)
              (at' (i = a.ny) (a.ds i j * a.ufn b.lat 0 j * a.fN b.lat (a.cbar v C) 0 j)) = 0 := by
            rw [at'_neg hny]; unfold at'; split_ifs <;> rfl
          rw [z, at'_neg hny, at'_pos (by omega : i < a.ny)]
          by_cases h0 : i = 0
          · rw [at'_pos h0, at'_neg (by omega : ¬ 1 ≤ i), h0]; ring
          · rw [at'_neg h0, at'_pos (by omega : 1 ≤ i)]; ring
      · have h0 : i = 0 := by omega
        have hny : i = a.ny := by omega
        rw [at'_neg hy, at'_pos h0, at'_pos hny, at'_pos hny, at'_neg (by omega : ¬ 1 ≤ i),
          at'_neg (by omega : ¬ i < a.ny)]
        by_cases hs : a.steady = true
        · rw [at'_pos (P := a.steady = true) hs, at'_pos (P := b.lat = "circular" ∧ a.steady = true) ⟨q, hs⟩]; ring
        · rw [at'_neg (P := a.steady = true) hs, at'_neg (P := b.lat = "circular" ∧ a.steady = true) (fun hh => hs hh.2)]; ring
  have hY' := hY (a.onshoreRhs v b.on C (a.offshoreRhs v b.off C (a.rhsCore v b.lat C w)))
  have hXc := hX (a.rhsCore v b.lat C w)
  unfold rhs
  rw [hXc] at hY'
  have hcore : a.rhsCore v b.lat C w i j = -(a.dsdn i j * a.invDt * (C i j - v.lCt i j))
      + (a.entrain v C w i j - a.dsdn i j / a.T * a.cbar v C i j)
      + at' (1 ≤ j) (a.dn i j * a.ufs i j * a.faceS v C i j)
      - at' (j < a.nx) (a.dn i j * a.ufs i (j + 1) * a.faceS v C i (j + 1))
      + at' (1 ≤ i) (a.ds i j * a.ufn b.lat i j * a.faceN v b.lat C i j)
      - at' (i < a.ny) (a.ds i j * a.ufn b.lat (i + 1) j * a.faceN v b.lat C (i + 1) j) := rfl
  rw [hcore] at hY'
  linear_combination hY' + hX2

/-- The equation of a full cell, for the new concentrations. -/
theorem cell_equation (a : FV K) (b : Bounds) (h : Setting a b) (D : Diags K) (hD : a.entries b = .ok D)
    (v : Data K) (C w dC : ℕ → ℕ → K) {i j : ℕ} (hi : i ≤ a.ny) (hj : j ≤ a.nx)
    (hl : b.lat ≠ "constant") (hu : ¬ a.colUnit b j)
    (hs : rowPart D dC i j + acrossPart a D dC i j = a.rhs v b C w i j) :
    a.dsdn i j * a.invDt * (C i j + dC i j - v.lCt i j)
      = a.entrain v C w i j - a.dsdn i j / a.T * a.cbar v (fun i j => C i j + dC i j) i j
        - a.outX b (a.cbar v fun i j => C i j + dC i j) i j
        - a.outY b (a.cbar v fun i j => C i j + dC i j) i j
        - a.al * a.leak b dC j
        + a.endFlux b v i j + a.sideFlux b v i j + a.forgotten b v C i j := by
  rw [matrix_cell a b h D hD dC hi hj hl hu, rhs_cell a b h v C w hi hj hl hu] at hs
  have x1 : a.outX b (a.cbar v C) i j = a.al * a.outX b C i j + (1 - a.al) * a.outX b v.lCt i j :=
    outX_lin a b C v.lCt _ _ i j
  have y1 : a.outY b (a.cbar v C) i j = a.al * a.outY b C i j + (1 - a.al) * a.outY b v.lCt i j :=
    outY_lin a b C v.lCt _ _ i j
  have x2 : a.outX b (a.cbar v fun i j => C i j + dC i j) i j
      = a.al * (a.outX b C i j + a.outX b dC i j) + (1 - a.al) * a.outX b v.lCt i j := by
    have := outX_lin a b (fun i j => C i j + dC i j) v.lCt a.al (1 - a.al) i j
    have q := outX_lin a b C dC 1 1 i j
    simp only [one_mul] at q
    rw [← q]; exact this
  have y2 : a.outY b (a.cbar v fun i j => C i j + dC i j) i j
      = a.al * (a.outY b C i j + a.outY b dC i j) + (1 - a.al) * a.outY b v.lCt i j := by
    have := outY_lin a b (fun i j => C i j + dC i j) v.lCt a.al (1 - a.al) i j
    have q := outY_lin a b C dC 1 1 i j
    simp only [one_mul] at q
    rw [← q]; exact this
  rw [x1, y1] at hs
  rw [x2, y2]
  unfold cbar at hs ⊢
  linear_combination hs

end Aeolis.Solver.FV
