import Verif.Proofs.SolverFVMatrix
import Verif.Spec.SolverFV

/-!
Closed form of the matrix entries of the finite-volume solvers with their boundary conditions.
-/

set_option linter.unusedSectionVars false

namespace Aeolis.Solver.FV

open Finset

variable {K : Type*} [Field K] [LinearOrder K] [IsStrictOrderedRing K]

/-- Columns replaced by unit columns of equations. -/
def colUnit (a : FV K) (b : Bounds) (j : ℕ) : Prop :=
  (b.off = "constant" ∧ j = 0) ∨ (b.on = "constant" ∧ j = a.nx)

/-- Rows of the grid replaced by unit equations. -/
def rowUnit (a : FV K) (b : Bounds) (i : ℕ) : Prop := b.lat = "constant" ∧ (i = 0 ∨ i = a.ny)

/-- The lower face takes part in the equation of the cell. -/
def lowX (a : FV K) (b : Bounds) (j : ℕ) : Prop := 1 ≤ j ∧ ¬(b.on = "gradient" ∧ j = a.nx)

/-- The upper face takes part in the equation of the cell. -/
def upX (a : FV K) (b : Bounds) (j : ℕ) : Prop := j < a.nx ∧ ¬(b.off = "gradient" ∧ j = 0)

instance (a : FV K) (b : Bounds) (j : ℕ) : Decidable (a.colUnit b j) := by
  unfold colUnit; infer_instance
instance (a : FV K) (b : Bounds) (j : ℕ) : Decidable (a.rowUnit b j) := by
  unfold rowUnit; infer_instance
instance (a : FV K) (b : Bounds) (j : ℕ) : Decidable (a.lowX b j) := by
  unfold lowX; infer_instance
instance (a : FV K) (b : Bounds) (j : ℕ) : Decidable (a.upX b j) := by
  unfold upX; infer_instance

/-- Entries with the conditions at both ends of the rows. -/
def form2 (a : FV K) (b : Bounds) : Diags K :=
  { A0 := fun i j => if a.colUnit b j then 1 else a.dsdn i j * a.invDt + a.dsdn i j / a.T * a.al
      - at' (a.lowX b j) (a.dn i j * a.ufs i j * (1 - a.ixfs i j) * a.al)
      + at' (a.upX b j) (a.dn i j * a.ufs i (j + 1) * a.ixfs i (j + 1) * a.al)
      - at' (1 ≤ i) (a.ds i j * a.ufn b.lat i j * (1 - a.ixfn b.lat i j) * a.al)
      + at' (i < a.ny) (a.ds i j * a.ufn b.lat (i + 1) j * a.ixfn b.lat (i + 1) j * a.al)
    Apx := fun i j => if a.colUnit b j then 0 else
      at' (i < a.ny) (a.ds i j * a.ufn b.lat (i + 1) j * (1 - a.ixfn b.lat (i + 1) j) * a.al)
    Ap1 := fun i j => if a.colUnit b j then 0 else
      at' (a.upX b j) (a.dn i j * a.ufs i (j + 1) * (1 - a.ixfs i (j + 1)) * a.al)
    Amx := fun i j => if a.colUnit b j then 0 else
      -at' (1 ≤ i) (a.ds i j * a.ufn b.lat i j * a.ixfn b.lat i j * a.al)
    Am1 := fun i j => if a.colUnit b j then 0 else
      -at' (a.lowX b j) (a.dn i j * a.ufs i j * a.ixfs i j * a.al) }

theorem Diags.eq_of (D E : Diags K) (h0 : ∀ i j, D.A0 i j = E.A0 i j)
    (h1 : ∀ i j, D.Apx i j = E.Apx i j) (h2 : ∀ i j, D.Ap1 i j = E.Ap1 i j)
    (h3 : ∀ i j, D.Amx i j = E.Amx i j) (h4 : ∀ i j, D.Am1 i j = E.Am1 i j) : D = E := by
  cases D; cases E
  simp only [Diags.mk.injEq]
  exact ⟨funext fun i => funext (h0 i), funext fun i => funext (h1 i), funext fun i => funext (h2 i),
    funext fun i => funext (h3 i), funext fun i => funext (h4 i)⟩

theorem offshore_form (a : FV K) (b : Bounds) (hn : 1 ≤ a.nx)
    (h1 : b.off = "flux" ∨ b.off = "constant" ∨ b.off = "gradient") :
    a.offshoreRows b.off (a.core b.lat) = .ok (a.form2 { b with on := "flux" }) := by
  have hne : a.nx ≠ 0 := by omega
  rcases h1 with h1 | h1 | h1
  · rw [offshoreRows, if_pos h1]
    congr 1
    refine Diags.eq_of _ _ ?_ ?_ ?_ ?_ ?_ <;> intro i j <;>
      simp [form2, colUnit, lowX, upX, core, at', h1]
  · rw [offshoreRows, if_neg (by rw [h1]; decide), if_pos h1]
    congr 1
    refine Diags.eq_of _ _ ?_ ?_ ?_ ?_ ?_ <;> intro i j <;>
      simp [form2, colUnit, lowX, upX, core, at', h1, Diags.unit]
  · rw [offshoreRows, if_neg (by rw [h1]; decide), if_neg (by rw [h1]; decide), if_pos h1]
    congr 1
    refine Diags.eq_of _ _ ?_ ?_ ?_ ?_ ?_ <;> intro i j <;> by_cases hj : j = 0
    · subst hj
      simp only [form2, colUnit, lowX, upX, core, at', h1, hne]
      simp only [String.reduceEq, false_and, or_self, and_self, and_true, not_true, and_false, if_true,
        if_false, zero_add, show 0 < a.nx from hn, show ¬ (1 ≤ 0) by omega]
      ring
    · simp [form2, colUnit, lowX, upX, core, at', h1, hj]
    all_goals first
      | (subst hj; simp [form2, colUnit, lowX, upX, core, at', h1, show 0 < a.nx from hn])
      | simp [form2, colUnit, lowX, upX, core, at', h1, hj]

theorem onshore_form (a : FV K) (b : Bounds) (hn : 1 ≤ a.nx)
    (h2 : b.on = "flux" ∨ b.on = "constant" ∨ b.on = "gradient") :
    a.onshoreRows b.on (a.form2 { b with on := "flux" }) = .ok (a.form2 b) := by
  have hne : a.nx ≠ 0 := by omega
  rcases h2 with h2 | h2 | h2
  · rw [onshoreRows, if_pos h2]
    congr 2
    rw [← h2]
  · rw [onshoreRows, if_neg (by rw [h2]; decide), if_pos h2]
    congr 1
    refine Diags.eq_of _ _ ?_ ?_ ?_ ?_ ?_ <;> intro i j <;> by_cases hj : j = a.nx <;>
      simp [form2, colUnit, lowX, upX, at', h2, Diags.unit, hj]
  · rw [onshoreRows, if_neg (by rw [h2]; decide), if_neg (by rw [h2]; decide), if_pos h2]
    congr 1
    refine Diags.eq_of _ _ ?_ ?_ ?_ ?_ ?_ <;> intro i j <;> by_cases hj : j = a.nx
    · subst hj
      simp only [form2, colUnit, lowX, upX, at', h2, hne]
      simp only [String.reduceEq, false_and, or_self, and_self, and_true, not_true, and_false, if_true,
        if_false, hn, not_false_eq_true]
      ring
    · simp [form2, colUnit, lowX, upX, at', h2, hj]
    all_goals first
      | (subst hj; simp [form2, colUnit, lowX, upX, at', h2, hne, show 1 ≤ a.nx from hn])
      | simp [form2, colUnit, lowX, upX, at', h2, hj]

end Aeolis.Solver.FV
