import Verif.Proofs.SolverFVLoop
import Verif.Props.Weights
import Mathlib.LinearAlgebra.Matrix.NonsingularInverse
import Mathlib.LinearAlgebra.Matrix.ToLin

/-!
The finite-volume solvers: C97 (solutions of the linear system), C98 (sediment budget), C99 (a call of
the solver), C100 (settings and fixed ends).
-/

set_option linter.unusedSectionVars false

namespace Aeolis.Props

open Aeolis.Solver Finset

variable {K : Type*} [Field K] [LinearOrder K] [IsStrictOrderedRing K]

/-! ### Links between specification and model -/

theorem fv_vec_cells (a : FV K) (D : Diags K) (hD : FV.Closed a D) (x : ℕ → ℕ → K) {i j : ℕ}
    (hi : i ≤ a.ny) (hj : j ≤ a.nx) :
    (FV.assembled a D).mulVec (fun c => vec a.nx x c) ⟨i * (a.nx + 1) + j, FV.index_lt a hi hj⟩
      = FV.rowPart D x i j + FV.acrossPart a D x i j := by
  rw [← FV.matrix_apply a D x i j hD hi hj, ← Fin.sum_univ_eq_sum_range
    (fun c => diagsEntry (a.diagonals D) (i * (a.nx + 1) + j) c * vec a.nx x c)]
  rfl

/-- The equations of the cells of a solved system. -/
theorem fv_cells (a : FV K) (b : Bounds) (hn : 1 ≤ a.nx) (A : Matrix (Fin a.cells) (Fin a.cells) K)
    (hA : a.matrix b = .ok A) (dC y : ℕ → ℕ → K)
    (hs : a.Solves A dC y) :
    ∃ D, a.entries b = .ok D ∧
      ∀ i ≤ a.ny, ∀ j ≤ a.nx, FV.rowPart D dC i j + FV.acrossPart a D dC i j = y i j := by
  obtain ⟨D, hD, rfl⟩ := FV.matrix_entries a b A hA
  refine ⟨D, hD, fun i hi j hj => ?_⟩
  rw [← fv_vec_cells a D (FV.entries_closed a b D hn hD) dC hi hj]
  exact (hs _).trans (FV.flat_at a y i j hj)

theorem fv_weight (a : FV K) : a.al = a.weight := rfl

theorem fv_cbar (a : FV K) (v : FV.Data K) (C : ℕ → ℕ → K) : a.cbar v C = a.between v.lCt C := rfl

theorem fv_entrain (a : FV K) (b : Bounds) (h : FV.Setting a b) (v : FV.Data K) (C w : ℕ → ℕ → K)
    {i j : ℕ} (hi : i ≤ a.ny) (hj : j ≤ a.nx) : a.entrain v C w i j = a.uptake v C w i j := by
  have hd := (div_pos (h.dsdn i hi j hj) h.T).le
  unfold FV.entrain FV.uptake FV.demand FV.depos
  rw [fv_cbar, ← mul_add, ← mul_min_of_nonneg _ _ hd]
  congr 2
  unfold FV.between
  rw [fv_weight]; ring

theorem fv_carried (u l r : K) :
    u * ((if 0 ≤ u then 1 else 0) * l + (1 - (if 0 ≤ u then 1 else 0)) * r) = FV.carried u l r := by
  unfold FV.carried; split <;> ring

theorem fv_rowFlux (a : FV K) (c : ℕ → ℕ → K) (i : ℕ) {j : ℕ} (h1 : 1 ≤ j) (hj : j ≤ a.nx) :
    a.ufs i j * a.fS c i j = a.rowFlux c i j := by
  have e : a.ufs i j = (a.us i (j - 1) + a.us i j) / 2 := by
    unfold FV.ufs; rw [if_neg (by omega), if_neg (by omega)]; ring
  unfold FV.fS FV.ixfs FV.rowFlux
  rw [e, fv_carried]

theorem fv_wrapFlux (a : FV K) (c : ℕ → ℕ → K) (j : ℕ) :
    a.ufn "circular" 0 j * a.fN "circular" c 0 j = a.wrapFlux c j := by
  have e : a.ufn "circular" 0 j = (a.un a.ny j + a.un 0 j) / 2 := by
    unfold FV.ufn; rw [if_pos (Or.inl rfl), if_pos rfl]; ring
  unfold FV.fN FV.ixfn FV.wrapFlux
  rw [if_pos (Or.inl rfl), e, fv_carried]

/-! ### C97: solutions of the linear system -/

/-- C97: in every setting the matrix is accepted and the system has exactly one solution, for every
implicitness, time step, grid size, direction of the wind along the rows and right hand side. -/
theorem C97_unique_solution (a : FV K) (b : Bounds) (h : FV.Setting a b) :
    ∃ A, a.matrix b = .ok A ∧ ∀ y : Fin a.cells → K, ∃! x, A.mulVec x = y := by
  obtain ⟨D, hD, _⟩ := FV.entries_form a b h
  have hC := FV.entries_closed a b D h.nx hD
  refine ⟨_, FV.matrix_of_entries a b D h.nx h.ny hD, ?_⟩
  have hpos : ∀ x : Fin a.cells → K, (∀ c, 0 ≤ (FV.assembled a D).mulVec x c) → ∀ c, 0 ≤ x c := by
    intro x hx c
    obtain ⟨i, j, hi, hj, rfl⟩ := FV.index_cases a c
    rw [← FV.gridOf_at a x hi hj]
    refine FV.nonneg a b h D hD _ (fun i hi j hj => ?_) i hi j hj
    rw [← FV.mulVec_gridOf a D hC x hi hj]
    exact hx _
  have hinj : Function.Injective (FV.assembled a D).mulVec := by
    intro x x' he
    have hd : (FV.assembled a D).mulVec (x - x') = 0 := by
      rw [Matrix.mulVec_sub]; exact sub_eq_zero.mpr he
    have hd' : (FV.assembled a D).mulVec (x' - x) = 0 := by
      rw [Matrix.mulVec_sub]; exact sub_eq_zero.mpr he.symm
    funext c
    have p1 := hpos _ (fun c => by rw [hd]; exact le_rfl) c
    have p2 := hpos _ (fun c => by rw [hd']; exact le_rfl) c
    simp only [Pi.sub_apply] at p1 p2
    linarith
  intro y
  have hu : IsUnit (FV.assembled a D) := Matrix.mulVec_injective_iff_isUnit.mp hinj
  obtain ⟨x, hx⟩ := (Matrix.mulVec_surjective_iff_isUnit.mpr hu) y
  exact ⟨x, hx, fun x' hx' => hinj (hx'.trans hx.symm)⟩

/-- C97: with a fully implicit scheme (Euler backward, and the steady solver) the new concentrations
`C + dC` are non-negative whenever the previous ones and the inputs are, for every time step. -/
theorem C97_nonneg (a : FV K) (b : Bounds) (h : FV.Setting a b) (hl : b.lat ≠ "constant")
    (himp : a.steady = true ∨ a.alpha = 1) (v : FV.Data K) (hv : FV.Inputs a b v)
    (A : Matrix (Fin a.cells) (Fin a.cells) K) (hA : a.matrix b = .ok A) (C w dC : ℕ → ℕ → K)
    (hC : ∀ i ≤ a.ny, ∀ j ≤ a.nx, 0 ≤ C i j) (hw : ∀ i ≤ a.ny, ∀ j ≤ a.nx, 0 ≤ w i j)
    (hs : a.Solves A dC (a.rhs v b C w)) :
    ∀ i ≤ a.ny, ∀ j ≤ a.nx, 0 ≤ C i j + dC i j := by
  obtain ⟨D, hD, hs⟩ := fv_cells a b h.nx A hA dC _ hs
  have hal : a.al = 1 := by
    unfold FV.al; rcases himp with q | q
    · rw [if_pos q]
    · rw [q]; split <;> rfl
  refine FV.nonneg a b h D hD (fun i j => C i j + dC i j) fun i hi j hj => ?_
  rw [FV.implicit_rhs a b h D hD v C w dC hi hj hl hal (hs i hi j hj)]
  have hwt : a.weight = 1 := hal
  have k1 : 0 ≤ a.leak b C j := by
    refine FV.at'_nonneg fun _ => mul_nonneg (mul_nonneg (h.ds 0 (by omega) j hj) (abs_nonneg _))
      (hC 0 (by omega) j hj)
  have k2 : a.sideFlux b v i j = 0 := by
    unfold FV.sideFlux at'
    by_cases q : b.lat = "flux"
    · rw [hv.lat q]; simp
    · rw [if_neg q]
  have k3 : 0 ≤ a.forgotten b v C i j := by
    refine FV.at'_nonneg fun q => FV.at'_nonneg fun _ => ?_
    have hun := hv.wrap q.2 q.1
    have hu0 := FV.ufn_nonneg a b.lat hun (by omega : 0 ≤ a.ny + 1) hj
    refine mul_nonneg (mul_nonneg (h.ds _ le_rfl j hj) hu0) ?_
    rw [fv_cbar]
    have hb : ∀ i' ≤ a.ny, 0 ≤ a.between v.lCt C i' j := fun i' hi' => by
      unfold FV.between; rw [hwt, sub_self, zero_mul, add_zero, one_mul]; exact hC i' hi' j hj
    unfold FV.fN FV.ixfn
    rw [if_pos (Or.inl rfl), if_pos hu0, one_mul, sub_self, zero_mul, add_zero]
    exact hb _ le_rfl
  rw [k2, add_zero]
  refine add_nonneg (add_nonneg ?_ k1) k3
  split_ifs
  · have : 0 ≤ a.endValue b v j := by
      refine FV.at'_nonneg fun q => ?_
      split_ifs
      · exact (hv.const q).2
      · exact (hv.const q).1
    exact add_nonneg (hC i hi j hj) this
  · have e1 : 0 ≤ a.dsdn i j * a.invDt * v.lCt i j := by
      refine mul_nonneg (mul_nonneg (h.dsdn i hi j hj).le ?_) (hv.lCt i hi j hj)
      unfold FV.invDt; split
      · exact le_rfl
      · exact (one_div_pos.mpr h.dt).le
    have e2 : 0 ≤ a.entrain v C w i j := by
      rw [fv_entrain a b h v C w hi hj]
      unfold FV.uptake FV.between
      rw [hwt, sub_self, one_mul, zero_mul, add_zero, zero_mul, add_zero, one_mul]
      exact mul_nonneg (div_pos (h.dsdn i hi j hj) h.T).le
        (le_min (mul_nonneg (hw i hi j hj) (hv.Cu i hi j hj)) (add_nonneg (hv.mass i hi j hj) (hC i hi j hj)))
    have e3 : 0 ≤ a.endFlux b v i j := by
      unfold FV.endFlux
      refine add_nonneg (FV.at'_nonneg fun q => ?_) (FV.at'_nonneg fun q => ?_)
      · have u0 : a.ufs i 0 = a.us i 0 := by unfold FV.ufs; rw [if_pos rfl]
        have := mul_nonneg (mul_nonneg (h.dn i hi 0 (by omega)) (hv.off q.1 i hi)) (hv.Cu0 i hi 0 (by omega))
        rw [u0]; calc (0 : K) ≤ _ := this
          _ = _ := by ring
      · have u1 : a.ufs i (a.nx + 1) = a.us i a.nx := by
          unfold FV.ufs; rw [if_neg (by omega), if_pos rfl]
        have := mul_nonneg (mul_nonneg (h.dn i hi a.nx le_rfl) (hv.on q.1 i hi)) (hv.Cu0 i hi a.nx le_rfl)
        rw [u1]; calc (0 : K) ≤ _ := this
          _ = _ := by ring
    exact add_nonneg (add_nonneg e1 e2) e3

/-! ### C98: sediment budget -/

theorem fv_budget (a : FV K) (b : Bounds) (h : FV.Setting a b) (hl : b.lat ≠ "constant")
    (h1 : b.off ≠ "constant") (h2 : b.on ≠ "constant") (v : FV.Data K)
    (A : Matrix (Fin a.cells) (Fin a.cells) K) (hA : a.matrix b = .ok A) (C w dC : ℕ → ℕ → K)
    (hs : a.Solves A dC (a.rhs v b C w)) :
    a.total (a.storage v.lCt fun i j => C i j + dC i j)
      = a.total (fun i j => a.uptake v C w i j - a.settling v (fun i j => C i j + dC i j) i j)
        + ∑ i ∈ range (a.ny + 1), (a.offSupply b v (fun i j => C i j + dC i j) i
            + a.onSupply b v (fun i j => C i j + dC i j) i)
        + ∑ j ∈ range (a.nx + 1), (a.latSupply b v j - a.weight * a.leak b dC j
            + at' (b.lat = "circular" ∧ a.steady = true) (a.ds 0 j * a.wrapFlux (a.between v.lCt C) j)) := by
  obtain ⟨D, hD, hs⟩ := fv_cells a b h.nx A hA dC _ hs
  have hnx := h.nx
  have key := FV.budget a b h D hD v C w dC hl h1 h2 hs
  have e1 : a.total (a.storage v.lCt fun i j => C i j + dC i j)
      = a.total (fun i j => a.dsdn i j * a.invDt * (C i j + dC i j - v.lCt i j)) := by
    unfold FV.total
    refine sum_congr rfl fun i _ => sum_congr rfl fun j _ => ?_
    unfold FV.storage FV.invDt
    split
    · ring
    · ring
  have e2 : a.total (fun i j => a.uptake v C w i j - a.settling v (fun i j => C i j + dC i j) i j)
      = a.total (fun i j => a.entrain v C w i j
          - a.dsdn i j / a.T * a.cbar v (fun i j => C i j + dC i j) i j) := by
    unfold FV.total
    refine sum_congr rfl fun i hi => sum_congr rfl fun j hj => ?_
    beta_reduce
    rw [fv_entrain a b h v C w (by have := mem_range.mp hi; omega : i ≤ a.ny)
      (by have := mem_range.mp hj; omega : j ≤ a.nx)]
    rfl
  rw [e1, e2, key]
  congr 1
  · congr 1
    refine sum_congr rfl fun i _ => ?_
    unfold FV.offSupply FV.onSupply
    have r1 := fv_rowFlux a (a.cbar v fun i j => C i j + dC i j) i (le_refl 1) hnx
    have r2 := fv_rowFlux a (a.cbar v fun i j => C i j + dC i j) i hnx (le_refl a.nx)
    rw [← fv_cbar, ← r1, ← r2]
    have n : ∀ s : String, s = "flux" → ¬ s = "gradient" := by rintro s rfl; decide
    have n' : ∀ s : String, s = "gradient" → ¬ s = "flux" := by rintro s rfl; decide
    have ho : b.off = "flux" ∨ b.off = "gradient" := by
      rcases h.ends.1 with q | q | q
      exacts [Or.inl q, absurd q h1, Or.inr q]
    have hn : b.on = "flux" ∨ b.on = "gradient" := by
      rcases h.ends.2 with q | q | q
      exacts [Or.inl q, absurd q h2, Or.inr q]
    unfold at'
    rcases ho with ho | ho <;> rcases hn with hn | hn
    · rw [if_pos ho, if_pos hn, if_neg (n _ ho), if_neg (n _ hn), if_pos ho, if_pos hn]; ring
    · rw [if_pos ho, if_neg (n' _ hn), if_neg (n _ ho), if_pos hn, if_pos ho, if_neg (n' _ hn)]; ring
    · rw [if_neg (n' _ ho), if_pos hn, if_pos ho, if_neg (n _ hn), if_neg (n' _ ho), if_pos hn]; ring
    · rw [if_neg (n' _ ho), if_neg (n' _ hn), if_pos ho, if_pos hn, if_neg (n' _ ho), if_neg (n' _ hn)]
      ring
  · refine sum_congr rfl fun j _ => ?_
    have w1 : at' (b.lat = "circular" ∧ a.steady = true)
          (a.ds 0 j * a.ufn b.lat 0 j * a.fN b.lat (a.cbar v C) 0 j)
        = at' (b.lat = "circular" ∧ a.steady = true) (a.ds 0 j * a.wrapFlux (a.between v.lCt C) j) := by
      unfold at'
      split_ifs with q
      · rw [q.1, mul_assoc, fv_wrapFlux, fv_cbar]
      · rfl
    rw [w1, fv_weight]
    congr 2
    unfold FV.latSupply at'
    split <;> ring

/-- C98: the sediment budget of one solution of the system with prescribed flux or free (gradient) ends
and prescribed or circular lateral boundaries, for every implicitness: what the air gains is what is
taken from the bed, less what settles, plus what comes in through the boundaries.  For circular
boundaries the grid must have more than one row and the solver must not be the steady one. -/
theorem C98_budget (a : FV K) (b : Bounds) (h : FV.Setting a b) (hl : b.lat ≠ "constant")
    (h1 : b.off ≠ "constant") (h2 : b.on ≠ "constant")
    (hc : b.lat = "circular" → a.ny ≠ 0 ∧ a.steady = false) (v : FV.Data K)
    (A : Matrix (Fin a.cells) (Fin a.cells) K) (hA : a.matrix b = .ok A) (C w dC : ℕ → ℕ → K)
    (hs : a.Solves A dC (a.rhs v b C w)) :
    a.total (a.storage v.lCt fun i j => C i j + dC i j)
      = a.total (a.uptake v C w) - a.total (a.settling v fun i j => C i j + dC i j)
        + ∑ i ∈ range (a.ny + 1), a.offSupply b v (fun i j => C i j + dC i j) i
        + ∑ i ∈ range (a.ny + 1), a.onSupply b v (fun i j => C i j + dC i j) i
        + ∑ j ∈ range (a.nx + 1), a.latSupply b v j := by
  rw [fv_budget a b h hl h1 h2 v A hA C w dC hs, sum_add_distrib]
  have z : ∀ j ∈ range (a.nx + 1), a.latSupply b v j - a.weight * a.leak b dC j
      + at' (b.lat = "circular" ∧ a.steady = true) (a.ds 0 j * a.wrapFlux (a.between v.lCt C) j)
      = a.latSupply b v j := by
    intro j _
    have z1 : a.leak b dC j = 0 := FV.at'_neg (fun q => (hc q.2).1 q.1) _
    rw [z1, FV.at'_neg (fun q => by rw [(hc q.1).2] at q; exact absurd q.2 (by decide))]
    ring
  have hsub : a.total (fun i j => a.uptake v C w i j - a.settling v (fun i j => C i j + dC i j) i j)
      = a.total (a.uptake v C w) - a.total (a.settling v fun i j => C i j + dC i j) := by
    unfold FV.total; simp only [sum_sub_distrib]
  rw [sum_congr rfl z, hsub]
  ring

/-- C98: on a transect with circular lateral boundaries the budget is off by the wind across the transect
times the last increment: it closes once the iteration has converged (`dC = 0`), not before. -/
theorem C98_transect (a : FV K) (b : Bounds) (h : FV.Setting a b) (hl : b.lat = "circular")
    (hny : a.ny = 0) (hst : a.steady = false) (h1 : b.off ≠ "constant") (h2 : b.on ≠ "constant")
    (v : FV.Data K) (A : Matrix (Fin a.cells) (Fin a.cells) K) (hA : a.matrix b = .ok A)
    (C w dC : ℕ → ℕ → K)
    (hs : a.Solves A dC (a.rhs v b C w)) :
    a.total (a.storage v.lCt fun i j => C i j + dC i j)
      = a.total (a.uptake v C w) - a.total (a.settling v fun i j => C i j + dC i j)
        + a.offSupply b v (fun i j => C i j + dC i j) 0 + a.onSupply b v (fun i j => C i j + dC i j) 0
        - a.alpha * ∑ j ∈ range (a.nx + 1), a.ds 0 j * |a.un 0 j| * dC 0 j := by
  rw [fv_budget a b h (by rw [hl]; decide) h1 h2 v A hA C w dC hs]
  have z : ∀ j ∈ range (a.nx + 1), a.latSupply b v j - a.weight * a.leak b dC j
      + at' (b.lat = "circular" ∧ a.steady = true) (a.ds 0 j * a.wrapFlux (a.between v.lCt C) j)
      = -(a.alpha * (a.ds 0 j * |a.un 0 j| * dC 0 j)) := by
    intro j _
    have z1 : a.leak b dC j = a.ds 0 j * |a.un 0 j| * dC 0 j := by
      have : a.ufn b.lat 0 j = a.un 0 j := by
        unfold FV.ufn; rw [if_pos (Or.inl rfl), if_pos hl, hny]; ring
      unfold FV.leak
      rw [FV.at'_pos ⟨hny, hl⟩, this]
    have z2 : a.latSupply b v j = 0 := by unfold FV.latSupply; rw [hl, if_neg (by decide)]
    have z3 : a.weight = a.alpha := by unfold FV.weight; rw [hst]; rfl
    rw [z1, z2, z3, FV.at'_neg (fun q => by rw [hst] at q; exact absurd q.2 (by decide))]
    ring
  have hsub : a.total (fun i j => a.uptake v C w i j - a.settling v (fun i j => C i j + dC i j) i j)
      = a.total (a.uptake v C w) - a.total (a.settling v fun i j => C i j + dC i j) := by
    unfold FV.total; simp only [sum_sub_distrib]
  rw [sum_congr rfl z, hsub, sum_neg_distrib, ← mul_sum, hny]
  simp only [zero_add, sum_range_one]
  ring

/-- C98: the steady solver on a circular grid does not close the budget: the sediment that leaves the
last row enters the first one without having left the grid's account, so every solution holds that much
more sediment than was taken from the bed and supplied at the ends. -/
theorem C98_steady_circular (a : FV K) (b : Bounds) (h : FV.Setting a b) (hl : b.lat = "circular")
    (hny : a.ny ≠ 0) (hst : a.steady = true) (h1 : b.off ≠ "constant") (h2 : b.on ≠ "constant")
    (v : FV.Data K) (A : Matrix (Fin a.cells) (Fin a.cells) K) (hA : a.matrix b = .ok A)
    (C w dC : ℕ → ℕ → K)
    (hs : a.Solves A dC (a.rhs v b C w)) :
    a.total (a.settling v fun i j => C i j + dC i j)
      = a.total (a.uptake v C w)
        + ∑ i ∈ range (a.ny + 1), (a.offSupply b v (fun i j => C i j + dC i j) i
            + a.onSupply b v (fun i j => C i j + dC i j) i)
        + ∑ j ∈ range (a.nx + 1), a.ds 0 j * a.wrapFlux C j := by
  have key := fv_budget a b h (by rw [hl]; decide) h1 h2 v A hA C w dC hs
  have z : ∀ j ∈ range (a.nx + 1), a.latSupply b v j - a.weight * a.leak b dC j
      + at' (b.lat = "circular" ∧ a.steady = true) (a.ds 0 j * a.wrapFlux (a.between v.lCt C) j)
      = a.ds 0 j * a.wrapFlux C j := by
    intro j _
    have z1 : a.leak b dC j = 0 := FV.at'_neg (fun q => hny q.1) _
    have z2 : a.latSupply b v j = 0 := by unfold FV.latSupply; rw [hl, if_neg (by decide)]
    have z3 : a.between v.lCt C = C := by
      funext i j; unfold FV.between FV.weight; rw [hst, if_pos rfl]; ring
    rw [z1, z2, z3, FV.at'_pos ⟨hl, hst⟩]
    ring
  have z0 : a.total (a.storage v.lCt fun i j => C i j + dC i j) = 0 := by
    unfold FV.total
    refine sum_eq_zero fun i _ => sum_eq_zero fun j _ => ?_
    unfold FV.storage; rw [if_pos hst]
  have hsub : a.total (fun i j => a.uptake v C w i j - a.settling v (fun i j => C i j + dC i j) i j)
      = a.total (a.uptake v C w) - a.total (a.settling v fun i j => C i j + dC i j) := by
    unfold FV.total; simp only [sum_sub_distrib]
  rw [sum_congr rfl z, z0, hsub] at key
  linear_combination key

/-- Three rows of two cells, closed at all sides, with a wind towards lower rows. -/
def fvBackwards (u : ℚ) : FV ℚ :=
  ⟨1, 2, false, 1, 1, 1, fun _ _ => 1, fun _ _ => 1, fun _ _ => 1, fun _ _ => 0, fun _ _ => u⟩

/-- C98: the condition on the wind across the rows is needed.  On a closed grid each column of the matrix
should add up to the storage and settling of its cell (here `1/dt + 1/T = 2`), as it does for a wind towards
higher rows; for a wind towards lower rows the entry for the arrival is taken from the wrong row, and the
sediment that leaves a cell of the last row arrives nowhere. -/
theorem C98_backward_wind : ∀ A B, (fvBackwards 1).matrix ⟨"flux", "flux", "flux"⟩ = .ok A →
    (fvBackwards (-1)).matrix ⟨"flux", "flux", "flux"⟩ = .ok B →
    (∀ c, ∑ r, A r c = 2) ∧ ∑ r, B r 5 = 3 := by
  intro A B hA hB
  obtain ⟨D, hD, rfl⟩ := FV.matrix_entries _ _ A hA
  obtain ⟨E, hE, rfl⟩ := FV.matrix_entries _ _ B hB
  cases hD; cases hE
  constructor
  · decide +kernel
  · decide +kernel

/-! ### C99: a call of the solver -/

variable {ι : Type*} [Fintype ι] {nf : ℕ}

/-- Assumptions on a call: positive time scales, non-negative inputs, and a linear solver whose increments
keep non-negative concentrations non-negative. -/
structure FVOk (s : FVIn K ι nf) : Prop where
  T : 0 < s.T
  dt : 0 < s.dt
  err : 0 ≤ s.maxError
  Cu : ∀ c k, 0 ≤ s.Cu c k
  mass : ∀ c k, 0 ≤ s.mass c k
  lin : ∀ i C w, (∀ c, 0 ≤ C c) → (∀ c, 0 ≤ w c) → ∀ c, 0 ≤ C c + s.lin i C w c

theorem fvStep_facts (s : FVIn K ι nf) (h : FVOk s) (o o' : SolveOut K ι nf) (i : Fin nf)
    (h0 : ∀ c k, 0 ≤ o.w c k) (hC : ∀ c k, 0 ≤ o.Ct c k)
    (h1 : ∀ c, (∑ l : Fin nf, if (l : ℕ) < i then o.w c l else 0) ≤ 1)
    (hr : fvStep s o i = .ok o') :
    (∀ c k, 0 ≤ o'.w c k) ∧ (∀ c, ∑ l, o'.w c l ≤ 1) ∧ (∀ c k, 0 ≤ o'.Ct c k) ∧
    (o'.conv i = true → ∀ c, o'.pickup c i ≤ s.mass c i + s.maxError) ∧
    (∀ k, k ≠ i → (∀ c, o'.pickup c k = o.pickup c k) ∧ o'.conv k = o.conv k) := by
  have hn : 0 < nf := Fin.pos i
  unfold fvStep at hr
  simp only at hr
  cases hL : fvLoop (s.frac i) (s.lin i) s.maxIter (fun c => o.Ct c i)
      (fun c => renormalizeWeights i (o.w c) i) with
  | error e => rw [hL] at hr; cases hr
  | ok r =>
    rw [hL] at hr
    cases hr
    have hw0 : ∀ c k, 0 ≤ renormalizeWeights i (o.w c) k := fun c k =>
      C45_nonneg i (o.w c) (h0 c) (h1 c) k
    obtain ⟨f1, f2, _⟩ := fvLoop_facts (s.frac i) (s.lin i) s.maxIter _ _ r hL h.T h.dt h.err
      (fun c => h.Cu c i) (fun c => h.mass c i) (h.lin i) (fun c => hC c i) (fun c => hw0 c i)
    refine ⟨fun c k => ?_, fun c => ?_, fun c k => ?_, fun hcv c => ?_, fun k hk => ⟨fun c => ?_, ?_⟩⟩
    · by_cases hk : k = i
      · subst hk; simpa using (f1 c).1
      · simpa [Function.update_of_ne hk] using hw0 c k
    · rw [← C45_sum_one i (o.w c) hn]
      refine sum_le_sum fun l _ => ?_
      by_cases hk : l = i
      · subst hk; simpa using (f1 c).2.1
      · simp [Function.update_of_ne hk]
    · by_cases hk : k = i
      · subst hk; simpa using (f1 c).2.2
      · simpa [Function.update_of_ne hk] using hC c k
    · simp only [Function.update_self] at hcv ⊢
      exact (f2 hcv c).1
    · simp [Function.update_of_ne hk]
    · simp [Function.update_of_ne hk]

/-- C99: a call of a finite-volume solver after the first time step, for any number of cells, fractions
and iterations, from non-negative weights and concentrations: the final weights are non-negative and sum
to at most one in every cell, all concentrations are non-negative, and a fraction whose iteration
converged is picked up at most to what the top layer holds plus the tolerance. -/
theorem C99_solve (s : FVIn K ι nf) (h : FVOk s) (dist : Fin nf → K) (Ct0 p0 w0 : ι → Fin nf → K)
    (hw0 : ∀ c k, 0 ≤ w0 c k) (hC0 : ∀ c k, 0 ≤ Ct0 c k) (hn : 0 < nf) (o : SolveOut K ι nf)
    (hr : fvSolve s false dist Ct0 p0 w0 = .ok o) :
    (∀ c k, 0 ≤ o.w c k) ∧ (∀ c, ∑ k, o.w c k ≤ 1) ∧ (∀ c k, 0 ≤ o.Ct c k) ∧
    (∀ k, o.conv k = true → ∀ c, o.pickup c k ≤ s.mass c k + s.maxError) := by
  have hr' : (List.finRange nf).foldlM (fvStep s) ⟨Ct0, p0, w0, fun _ => false⟩ = .ok o := hr
  have key := foldlM_inv (fvStep s)
    (fun m o => (∀ c k, 0 ≤ o.w c k) ∧ (0 < m → ∀ c, ∑ k, o.w c k ≤ 1) ∧ (∀ c k, 0 ≤ o.Ct c k) ∧
      (∀ k : Fin nf, (k : ℕ) < m → o.conv k = true → ∀ c, o.pickup c k ≤ s.mass c k + s.maxError))
    (List.finRange nf) 0 ⟨Ct0, p0, w0, fun _ => false⟩ o
    ⟨hw0, by omega, hC0, fun k hk => by omega⟩ ?_ hr'
  · simp only [List.length_finRange, Nat.zero_add] at key
    exact ⟨key.1, key.2.1 hn, key.2.2.1, fun k => key.2.2.2 k k.2⟩
  · intro m hm b b' hb hf
    simp only [List.length_finRange] at hm
    rw [List.getElem_finRange, Nat.zero_add] at *
    obtain ⟨b1, b2, b3, b4⟩ := hb
    have hpre : ∀ c, (∑ l : Fin nf, if (l : ℕ) < m then b.w c l else 0) ≤ 1 := by
      intro c
      rcases Nat.eq_zero_or_pos m with h0 | h0
      · subst h0; simp
      · refine le_trans (sum_le_sum fun l _ => ?_) (b2 h0 c)
        split
        · exact le_rfl
        · exact b1 c l
    obtain ⟨c1, c2, c3, c4, c5⟩ := fvStep_facts s h b b' ⟨m, hm⟩ b1 b3 hpre (by simpa using hf)
    refine ⟨c1, fun _ => c2, c3, fun k hk => ?_⟩
    by_cases hkm : k = ⟨m, hm⟩
    · subst hkm; exact c4
    · have hlt : (k : ℕ) < m := by
        rcases Nat.lt_or_ge (k : ℕ) m with h | h
        · exact h
        · exact absurd (Fin.ext (show (k : ℕ) = m by omega)) hkm
      obtain ⟨d1, d2⟩ := c5 k hkm
      intro hcv c
      rw [d1 c]; exact b4 k hlt (by rw [← d2]; exact hcv) c

/-- C99: with at least one iteration the solver returns. -/
theorem C99_total (s : FVIn K ι nf) (first : Bool) (dist : Fin nf → K) (hi : 1 ≤ s.maxIter)
    (Ct0 p0 w0 : ι → Fin nf → K) : ∃ o, fvSolve s first dist Ct0 p0 w0 = .ok o := by
  unfold fvSolve
  cases first
  · obtain ⟨n, hn⟩ : ∃ n, s.maxIter = n + 1 := ⟨s.maxIter - 1, by omega⟩
    have step : ∀ o i, ∃ o', fvStep s o i = .ok o' := by
      intro o i
      unfold fvStep
      simp only
      obtain ⟨r, hr⟩ := fvLoop_total (s.frac i) (s.lin i) n (fun c => o.Ct c i)
        (fun c => renormalizeWeights i (o.w c) i)
      rw [hn, hr]
      exact ⟨_, rfl⟩
    rw [if_neg (by decide)]
    generalize (⟨Ct0, p0, w0, fun _ => false⟩ : SolveOut K ι nf) = o
    generalize List.finRange nf = l
    induction l generalizing o with
    | nil => exact ⟨o, rfl⟩
    | cons a l ih =>
      obtain ⟨o1, h1⟩ := step o a
      obtain ⟨o2, h2⟩ := ih o1
      refine ⟨o2, ?_⟩
      rw [List.foldlM_cons, h1]
      exact h2
  · exact ⟨_, rfl⟩

/-- C99: in the first time step only the weights change: nothing is picked up or carried. -/
theorem C99_first_step (s : FVIn K ι nf) (dist : Fin nf → K) (Ct0 p0 w0 : ι → Fin nf → K)
    (o : SolveOut K ι nf) (hr : fvSolve s true dist Ct0 p0 w0 = .ok o) :
    o.Ct = Ct0 ∧ o.pickup = p0 ∧ ∀ c, o.w c = dist := by
  cases hr; exact ⟨rfl, rfl, fun _ => rfl⟩

/-- The problem of one fraction: the wind `us`, `un` depends on the fraction. -/
def fvFraction (a : FV K) (us un : ℕ → ℕ → K) : FV K := { a with us := us, un := un }

/-- The call of the solver with the systems of the code and the solver `spsolve` for them. -/
def fvProblem (a : FV K) (b : Bounds) (us un : Fin nf → ℕ → ℕ → K) (v : Fin nf → FV.Data K)
    (A : Fin nf → Matrix (Fin a.cells) (Fin a.cells) K)
    (spsolve : Matrix (Fin a.cells) (Fin a.cells) K → (Fin a.cells → K) → Fin a.cells → K)
    (maxError : K) (maxIter : ℕ) : FVIn K (Fin a.cells) nf :=
  { T := a.T, dt := a.dt, maxError := maxError, maxIter := maxIter
    Cu := fun c k => a.flat (v k).Cu c
    mass := fun c k => a.flat (v k).mass c
    lin := fun k C w => spsolve (A k) fun c => a.flat
      ((fvFraction a (us k) (un k)).rhs (v k) b (a.gridOf C) (a.gridOf w)) c }

/-- C99: with the linear systems of the code solved exactly and a fully implicit scheme, the assumption on
the linear solver in `C99_solve` holds; so a call of the solver gives non-negative concentrations and
weights, and pickup within the tolerance, for any grid in the setting. -/
theorem C99_implicit (a : FV K) (b : Bounds) (us un : Fin nf → ℕ → ℕ → K) (v : Fin nf → FV.Data K)
    (h : ∀ k, FV.Setting (fvFraction a (us k) (un k)) b) (hl : b.lat ≠ "constant")
    (himp : a.steady = true ∨ a.alpha = 1) (hv : ∀ k, FV.Inputs (fvFraction a (us k) (un k)) b (v k))
    (A : Fin nf → Matrix (Fin a.cells) (Fin a.cells) K)
    (hA : ∀ k, (fvFraction a (us k) (un k)).matrix b = .ok (A k))
    (spsolve : Matrix (Fin a.cells) (Fin a.cells) K → (Fin a.cells → K) → Fin a.cells → K)
    (hsp : ∀ k y, (A k).mulVec (spsolve (A k) y) = y) (maxError : K) (he : 0 ≤ maxError) (maxIter : ℕ)
    (dist : Fin nf → K) (Ct0 p0 w0 : Fin a.cells → Fin nf → K)
    (hw0 : ∀ c k, 0 ≤ w0 c k) (hC0 : ∀ c k, 0 ≤ Ct0 c k) (hn : 0 < nf) (o : SolveOut K (Fin a.cells) nf)
    (hr : fvSolve (fvProblem a b us un v A spsolve maxError maxIter) false dist Ct0 p0 w0 = .ok o) :
    (∀ c k, 0 ≤ o.w c k) ∧ (∀ c, ∑ k, o.w c k ≤ 1) ∧ (∀ c k, 0 ≤ o.Ct c k) ∧
    (∀ k, o.conv k = true → ∀ c, o.pickup c k ≤ a.flat (v k).mass c + maxError) := by
  have hT : 0 < a.T := (h ⟨0, hn⟩).T
  have hdt : 0 < a.dt := (h ⟨0, hn⟩).dt
  have hcell : ∀ (c : Fin a.cells), (c : ℕ) / (a.nx + 1) ≤ a.ny ∧ (c : ℕ) % (a.nx + 1) ≤ a.nx := by
    intro c
    refine ⟨?_, by have := Nat.mod_lt (c : ℕ) (by omega : 0 < a.nx + 1); omega⟩
    have := (Nat.div_lt_iff_lt_mul (by omega : 0 < a.nx + 1)).mpr c.2
    omega
  refine C99_solve (fvProblem a b us un v A spsolve maxError maxIter) ⟨hT, hdt, he, fun c k => ?_, fun c k => ?_, ?_⟩ dist Ct0 p0 w0 hw0 hC0 hn o hr
  · exact (hv k).Cu _ (hcell c).1 _ (hcell c).2
  · exact (hv k).mass _ (hcell c).1 _ (hcell c).2
  · intro k C w hC hw c
    change 0 ≤ C c + spsolve (A k) (fun c => a.flat ((fvFraction a (us k) (un k)).rhs (v k) b
        (a.gridOf C) (a.gridOf w)) c) c
    set X := spsolve (A k) fun c => a.flat ((fvFraction a (us k) (un k)).rhs (v k) b
        (a.gridOf C) (a.gridOf w)) c with hX
    have hg : ∀ (Y : Fin a.cells → K), (∀ c, 0 ≤ Y c) → ∀ i ≤ a.ny, ∀ j ≤ a.nx, 0 ≤ a.gridOf Y i j :=
      fun Y hY i hi j hj => by rw [FV.gridOf_at a Y hi hj]; exact hY _
    have key := C97_nonneg (fvFraction a (us k) (un k)) b (h k) hl himp (v k) (hv k) (A k) (hA k)
      (a.gridOf C) (a.gridOf w) (a.gridOf X)
      (hg C hC) (hg w hw) ?_
    · obtain ⟨i, j, hi, hj, rfl⟩ := FV.index_cases a c
      have := key i hi j hj
      rw [FV.gridOf_at a C hi hj, FV.gridOf_at a X hi hj] at this
      exact this
    · intro c
      have e : (fun c : Fin a.cells => a.flat (a.gridOf X) c) = X := by
        funext c; exact FV.gridOf_eq a X c
      have := congrFun (hsp k fun c => a.flat ((fvFraction a (us k) (un k)).rhs (v k) b
        (a.gridOf C) (a.gridOf w)) c) c
      rw [← hX] at this
      calc (A k).mulVec (fun c : Fin a.cells => a.flat (a.gridOf X) c) c
          = (A k).mulVec X c := by rw [e]
        _ = _ := this

/-- C99: unlike in the standard solver the tolerance is not cut off: a converged call can pick up more
than the top layer holds. -/
theorem C99_pickup_above_mass : ∃ (f : FracIn ℚ Unit) (lin : (Unit → ℚ) → (Unit → ℚ) → Unit → ℚ)
    (r : FracOut ℚ Unit), fvLoop f lin 1 (fun _ => 0) (fun _ => 1) = .ok r ∧ r.conv = true ∧
      f.mass () < r.pickup () := by
  refine ⟨⟨1, 1, 1/2, fun _ => 1, fun _ => 3/4⟩, fun _ _ _ => 0, ⟨fun _ => 0, fun _ => 1, fun _ => 1, true⟩,
    ?_, rfl, by norm_num⟩
  have hc : fvConcentrations (⟨1, 1, 1/2, fun _ => 1, fun _ => 3/4⟩ : FracIn ℚ Unit) (fun _ => 0) (fun _ => 0)
      = fun _ => 0 := by
    funext c; simp [fvConcentrations, removeNegatives, preventTinyNegatives]
  unfold fvLoop
  simp only [hc]
  rw [if_neg (by rintro ⟨c, h, _⟩; norm_num [pickupOf] at h)]
  congr 2
  funext c; norm_num [pickupOf]

/-! ### C100: settings -/

/-- C100: exactly these boundary settings are accepted, and only for grids that do not have two rows. -/
theorem C100_accepted_iff (a : FV K) (b : Bounds) (hn : 1 ≤ a.nx) :
    (∃ A, a.matrix b = .ok A) ↔
      b.off ∈ ["flux", "constant", "gradient"] ∧ b.on ∈ ["flux", "constant", "gradient"] ∧
        b.lat ∈ ["flux", "constant", "gradient", "circular"] ∧ a.ny ≠ 1 := by
  have h1 : ∀ D, (∃ D', a.offshoreRows b.off D = .ok D') ↔ b.off ∈ ["flux", "constant", "gradient"] := by
    intro D
    unfold FV.offshoreRows
    simp only [List.mem_cons, List.not_mem_nil, or_false]
    split_ifs <;> simp_all
  have h2 : ∀ D, (∃ D', a.onshoreRows b.on D = .ok D') ↔ b.on ∈ ["flux", "constant", "gradient"] := by
    intro D
    unfold FV.onshoreRows
    simp only [List.mem_cons, List.not_mem_nil, or_false]
    split_ifs <;> simp_all
  have h3 : ∀ D, (∃ D', a.lateralRows b.lat D = .ok D') ↔
      b.lat ∈ ["flux", "constant", "gradient", "circular"] := by
    intro D
    unfold FV.lateralRows
    simp only [List.mem_cons, List.not_mem_nil, or_false]
    split_ifs <;> simp_all
  have hE : (∃ D, a.entries b = .ok D) ↔ b.off ∈ ["flux", "constant", "gradient"] ∧
      b.on ∈ ["flux", "constant", "gradient"] ∧ b.lat ∈ ["flux", "constant", "gradient", "circular"] := by
    rw [← h1 (a.core b.lat)]
    unfold FV.entries
    cases e1 : a.offshoreRows b.off (a.core b.lat) with
    | error e => simp
    | ok D1 =>
      rw [← h2 D1]
      simp only
      cases e2 : a.onshoreRows b.on D1 with
      | error e => simp
      | ok D2 =>
        rw [← h3 D2]
        simp
  constructor
  · rintro ⟨A, hA⟩
    obtain ⟨D, hD, _⟩ := FV.matrix_entries a b A hA
    obtain ⟨q1, q2, q3⟩ := hE.mp ⟨D, hD⟩
    refine ⟨q1, q2, q3, fun hy => ?_⟩
    unfold FV.matrix at hA
    rw [hD] at hA
    simp only at hA
    rw [if_neg] at hA
    · cases hA
    · unfold FV.diagonals
      simp [hy]
  · rintro ⟨q1, q2, q3, q4⟩
    obtain ⟨D, hD⟩ := hE.mpr ⟨q1, q2, q3⟩
    exact ⟨_, FV.matrix_of_entries a b D hn q4 hD⟩

/-- C100: `circular` ends are reported as not implemented, unknown ones as invalid; the offshore setting
is looked at first. -/
theorem C100_errors (a : FV K) (b : Bounds) :
    (b.off = "circular" → a.matrix b = .error .notImplemented) ∧
    (b.off ∉ ["flux", "constant", "gradient", "circular"] → a.matrix b = .error .valueError) ∧
    (b.off ∈ ["flux", "constant", "gradient"] → b.on = "circular" → a.matrix b = .error .notImplemented) ∧
    (b.off ∈ ["flux", "constant", "gradient"] → b.on ∉ ["flux", "constant", "gradient", "circular"] →
      a.matrix b = .error .valueError) := by
  simp only [List.mem_cons, List.not_mem_nil, or_false, not_or]
  refine ⟨fun h => ?_, fun ⟨h1, h2, h3, h4⟩ => ?_, fun h ho => ?_, fun h ⟨h1, h2, h3, h4⟩ => ?_⟩
  · simp [FV.matrix, FV.entries, FV.offshoreRows, h]
  · simp [FV.matrix, FV.entries, FV.offshoreRows, h1, h2, h3, h4]
  · rcases h with h | h | h <;> simp [FV.matrix, FV.entries, FV.offshoreRows, FV.onshoreRows, h, ho]
  · rcases h with h | h | h <;>
      simp [FV.matrix, FV.entries, FV.offshoreRows, FV.onshoreRows, h, h1, h2, h3, h4]

/-- C100: a gradient condition needs two cells in its direction: on a transect the lateral one, accepted when the matrix is made, ends the
step with an `IndexError`; all other grids of at least two columns have a right-hand side. -/
theorem C100_gradient_rows (a : FV K) (b : Bounds) (v : FV.Data K) (C w : ℕ → ℕ → K) (hn : 1 ≤ a.nx) :
    (b.lat = "gradient" → a.ny = 0 → a.rhsCall v b C w = .error .indexError) ∧
    (b.lat ≠ "gradient" ∨ a.ny ≠ 0 → a.rhsCall v b C w = .ok (a.rhs v b C w)) := by
  have s1 : ∀ n : ℕ, 1 ≤ n → FV.slice (n + 1) 1 = .ok ⟨⟩ := fun n h => if_pos (by omega)
  have s2 : ∀ n : ℕ, 1 ≤ n → FV.slice (n + 1) (-2) = .ok ⟨⟩ := fun n h => if_pos (by omega)
  unfold FV.rhsCall
  rw [s1 _ hn, s2 _ hn]
  refine ⟨fun hl hy => ?_, fun h => ?_⟩
  · simp only [if_pos hl, hy]
    split <;> split <;> rfl
  · by_cases hl : b.lat = "gradient"
    · have hy : a.ny ≠ 0 := h.resolve_left (fun h => h hl)
      simp only [if_pos hl, s1 a.ny (by omega), s2 a.ny (by omega)]
      split <;> split <;> rfl
    · simp only [if_neg hl]
      split <;> split <;> rfl

/-- A transect of three cells with free lateral boundaries fails, one with circular boundaries does not. -/
example (a : FV ℚ) (ha : a.nx = 2) (hy : a.ny = 0) (v : FV.Data ℚ) (C w : ℕ → ℕ → ℚ) :
    a.rhsCall v ⟨"flux", "gradient", "gradient"⟩ C w = .error .indexError ∧
    a.rhsCall v ⟨"flux", "gradient", "circular"⟩ C w = .ok (a.rhs v ⟨"flux", "gradient", "circular"⟩ C w) :=
  ⟨(C100_gradient_rows a _ v C w (by omega)).1 rfl hy, (C100_gradient_rows a _ v C w (by omega)).2 (.inl (by decide))⟩

/-- C100: the four names of solvers; anything else is not reported as a configuration error but ends in
the use of an unassigned variable. -/
theorem C100_solver_names (s : String) :
    ((∃ n, pickSolver s = .ok n) ↔ s ∈ ["trunk", "pieter", "steadystate", "steadystatepieter"]) ∧
    (s ∉ ["trunk", "pieter", "steadystate", "steadystatepieter"] → pickSolver s = .error .nameError) := by
  unfold pickSolver
  simp only [List.mem_cons, List.not_mem_nil, or_false, not_or]
  refine ⟨?_, ?_⟩
  · split_ifs <;> simp_all
  · rintro ⟨h1, h2, h3, h4⟩; simp [h1, h2, h3, h4]

/-- C100: the solver in time is run with implicitness 0, 1 and 1/2 for the three schemes, with each of its two discretisations;
the steady solvers are the same whatever the scheme. -/
theorem C100_dispatch (scheme solver : String) (n : SolverName) (α : Option ℚ) :
    dispatch scheme solver = .ok (n, α) ↔
      ((solver, n) = ("trunk", .trunk) ∨ (solver, n) = ("pieter", .pieter)) ∧
        ((scheme, α) = ("euler_forward", some 0) ∨ (scheme, α) = ("euler_backward", some 1) ∨
          (scheme, α) = ("crank_nicolson", some (1 / 2))) ∨
      ((solver, n) = ("steadystate", .steadystate) ∨ (solver, n) = ("steadystatepieter", .steadystatepieter)) ∧
        scheme ∈ ["euler_forward", "euler_backward", "crank_nicolson"] ∧ α = none := by
  have hc : ∀ c, pickScheme scheme = .ok c ↔ scheme = "euler_forward" ∧ c = .eulerForward ∨
      scheme = "euler_backward" ∧ c = .eulerBackward ∨ scheme = "crank_nicolson" ∧ c = .crankNicolson := by
    intro c
    unfold pickScheme
    split_ifs <;> simp_all [eq_comm]
  have hn : ∀ n, pickSolver solver = .ok n ↔ solver = "trunk" ∧ n = .trunk ∨ solver = "pieter" ∧ n = .pieter ∨
      solver = "steadystate" ∧ n = .steadystate ∨ solver = "steadystatepieter" ∧ n = .steadystatepieter := by
    intro n
    unfold pickSolver
    split_ifs <;> simp_all [eq_comm]
  have hd : dispatch scheme solver = .ok (n, α) ↔
      ∃ c, pickScheme scheme = .ok c ∧ pickSolver solver = .ok n ∧ α = implicitness c n := by
    unfold dispatch
    cases pickScheme scheme with
    | error e => simp [bind, Except.bind]
    | ok c =>
      cases pickSolver solver with
      | error e => simp [bind, Except.bind]
      | ok m =>
        simp only [bind, Except.bind, pure, Except.pure, Except.ok.injEq, Prod.mk.injEq, exists_eq_left']
        constructor
        · rintro ⟨rfl, rfl⟩; exact ⟨rfl, rfl⟩
        · rintro ⟨rfl, rfl⟩; exact ⟨rfl, rfl⟩
  rw [hd]
  simp only [hc, hn, Prod.mk.injEq, List.mem_cons, List.not_mem_nil, or_false]
  constructor
  · rintro ⟨c, h1, h2, rfl⟩
    rcases h1 with ⟨a, rfl⟩ | ⟨a, rfl⟩ | ⟨a, rfl⟩ <;> rcases h2 with ⟨b, rfl⟩ | ⟨b, rfl⟩ | ⟨b, rfl⟩ | ⟨b, rfl⟩ <;>
      simp [a, b, implicitness]
  · rintro (⟨h2, h1⟩ | ⟨h2, h1, rfl⟩)
    · rcases h1 with ⟨a, rfl⟩ | ⟨a, rfl⟩ | ⟨a, rfl⟩ <;> rcases h2 with ⟨b, rfl⟩ | ⟨b, rfl⟩ <;> simp [a, b, implicitness]
    · rcases h1 with a | a | a <;> rcases h2 with ⟨b, rfl⟩ | ⟨b, rfl⟩ <;> simp [a, b, implicitness]

/-- C100: an unknown scheme is reported before an unknown solver. -/
theorem C100_dispatch_errors (scheme solver : String) :
    (scheme ∉ ["euler_forward", "euler_backward", "crank_nicolson"] → dispatch scheme solver = .error .valueError) ∧
    (scheme ∈ ["euler_forward", "euler_backward", "crank_nicolson"] →
      solver ∉ ["trunk", "pieter", "steadystate", "steadystatepieter"] → dispatch scheme solver = .error .nameError) := by
  simp only [List.mem_cons, List.not_mem_nil, or_false, not_or]
  constructor
  · rintro ⟨h1, h2, h3⟩
    simp [dispatch, pickScheme, h1, h2, h3, bind, Except.bind]
  · rintro h ⟨h1, h2, h3, h4⟩
    rcases h with h | h | h <;> simp [dispatch, pickScheme, pickSolver, h, h1, h2, h3, h4, bind, Except.bind]

example : dispatch "crank_nicolson" "pieter" = .ok (.pieter, some (1 / 2)) :=
  (C100_dispatch _ _ _ _).mpr (Or.inl ⟨Or.inr rfl, Or.inr (Or.inr rfl)⟩)

/-- C100: at an end with a fixed concentration (away from lateral boundaries, or with none) the solver in
time keeps the concentration it started from, whatever value was prescribed; the steady solver adds the
prescribed value in every iteration. -/
theorem C100_fixed_end (a : FV K) (b : Bounds) (h : FV.Setting a b) (hl : b.lat ≠ "constant")
    (v : FV.Data K) (A : Matrix (Fin a.cells) (Fin a.cells) K) (hA : a.matrix b = .ok A)
    (C w dC : ℕ → ℕ → K) (hs : a.Solves A dC (a.rhs v b C w)) {i : ℕ} (hi : i ≤ a.ny)
    (hr : (0 < i ∧ i < a.ny) ∨ (b.lat = "flux" ∧ v.latFlux = 0)) :
    (b.off = "constant" → C i 0 + dC i 0 = C i 0 + if a.steady = true then v.offConst else 0) ∧
    (b.on = "constant" → C i a.nx + dC i a.nx = C i a.nx + if a.steady = true then v.onConst else 0) := by
  obtain ⟨D, hD, hs⟩ := fv_cells a b h.nx A hA dC _ hs
  have hnx := h.nx
  have main : ∀ j ≤ a.nx, a.colUnit b j → dC i j = a.endValue b v j := by
    intro j hj hu
    have e := hs i hi j hj
    rw [FV.matrix_unit a b h D hD dC hi hj hl hu, FV.rhs_unit a b h v C w hi hj hl hu] at e
    rcases hr with hr | ⟨hr, hr'⟩
    · have z1 : a.leak b dC j = 0 := FV.at'_neg (by omega) _
      have z2 : a.sideFlux b v i j = 0 := by
        unfold FV.sideFlux
        rw [FV.at'_neg (P := i = 0) (by omega), FV.at'_neg (P := i = a.ny) (by omega), sub_zero]
        unfold at'; split <;> rfl
      have z3 : a.forgotten b v C i j = 0 := by
        unfold FV.forgotten
        rw [FV.at'_neg (P := i = a.ny) (by omega)]
        unfold at'; split <;> rfl
      rw [z1, z2, z3] at e
      rw [FV.at'_neg (P := i = a.ny) (by omega), FV.at'_neg (P := i = 0) (by omega),
        FV.at'_neg (P := i = a.ny) (by omega), FV.at'_neg (P := i = 0) (by omega)] at e
      have z4 : at' (0 < a.ny ∧ b.lat = "circular") ((0 : K) - 0) = 0 := by
        unfold at'; split <;> simp
      rw [z4] at e
      linear_combination e
    · have hc : ¬ b.lat = "circular" := by rw [hr]; decide
      have z1 : a.leak b dC j = 0 := FV.at'_neg (fun q => hc q.2) _
      have z2 : a.sideFlux b v i j = 0 := by
        unfold FV.sideFlux at'
        rw [hr']; simp
      have z3 : a.forgotten b v C i j = 0 := FV.at'_neg (fun q => hc q.1) _
      rw [z1, z2, z3, FV.at'_neg (P := 0 < a.ny ∧ b.lat = "circular") (fun q => hc q.2),
        FV.at'_neg (P := 0 < a.ny ∧ b.lat = "circular") (fun q => hc q.2)] at e
      linear_combination e
  refine ⟨fun ho => ?_, fun ho => ?_⟩
  · rw [main 0 (by omega) (Or.inl ⟨ho, rfl⟩)]
    unfold FV.endValue at'
    rw [if_neg (show ¬ (b.on = "constant" ∧ 0 = a.nx) from fun q => by omega)]
  · rw [main a.nx le_rfl (Or.inr ⟨ho, rfl⟩)]
    unfold FV.endValue at'
    rw [if_pos (show b.on = "constant" ∧ a.nx = a.nx from ⟨ho, rfl⟩)]

/-- C100: so after `n` iterations of the steady solver the concentration at an end that should be kept at
the prescribed value has grown by `n` times that value. -/
theorem C100_steady_end_grows (a : FV K) (b : Bounds) (h : FV.Setting a b) (hl : b.lat ≠ "constant")
    (hst : a.steady = true) (ho : b.off = "constant")
    (v : FV.Data K) (A : Matrix (Fin a.cells) (Fin a.cells) K) (hA : a.matrix b = .ok A)
    (C w : ℕ → ℕ → ℕ → K)
    (hs : ∀ n, a.Solves A (fun i j => C (n + 1) i j - C n i j) (a.rhs v b (C n) (w n))) {i : ℕ}
    (hi : i ≤ a.ny) (hr : (0 < i ∧ i < a.ny) ∨ (b.lat = "flux" ∧ v.latFlux = 0)) (n : ℕ) :
    C n i 0 = C 0 i 0 + n * v.offConst := by
  induction n with
  | zero => simp
  | succ n ih =>
    have := (C100_fixed_end a b h hl v A hA (C n) (w n) _ (hs n) hi hr).1 ho
    rw [if_pos hst] at this
    push_cast
    linear_combination this + ih

/-! ### Examples -/

/-- Three rows of three cells, wind along and across the rows. -/
def fvGrid (steady : Bool) : FV ℚ :=
  ⟨2, 2, steady, 60, 1, 1, fun _ _ => 1, fun _ _ => 2, fun _ _ => 2, fun _ j => 4 - j, fun _ _ => 1⟩

/-- Nothing in the air, a little sediment in the bed. -/
def fvData : FV.Data ℚ :=
  ⟨fun _ _ => 1, fun _ _ => 1, fun _ _ => 1/4, fun _ _ => 1, fun _ _ => 1, fun _ _ => 0, 1/2, 0, 0, 1, 0⟩

/-- The settings of the examples: default ends, and prescribed or free ends. -/
def fvDefault : Bounds := ⟨"constant", "gradient", "circular"⟩
def fvOpen : Bounds := ⟨"flux", "gradient", "circular"⟩

theorem fvGrid_setting (s : Bool) (b : Bounds) (hb : b = fvDefault ∨ b = fvOpen) :
    FV.Setting (fvGrid s) b := by
  have hd : FV.EndsKnown b ∧ b.lat = "circular" := by
    rcases hb with rfl | rfl <;> simp [FV.EndsKnown, fvDefault, fvOpen]
  refine ⟨by simp [fvGrid], by simp [fvGrid], by norm_num [fvGrid], by norm_num [fvGrid], by norm_num [fvGrid],
    fun _ _ _ _ => by norm_num [fvGrid], fun _ _ _ _ => by norm_num [fvGrid],
    fun _ _ _ _ => by norm_num [fvGrid], fun _ _ _ _ => rfl, fun _ _ _ _ => rfl, hd.1, Or.inr (Or.inr hd.2),
    Or.inr (Or.inl fun _ _ _ _ => by norm_num [fvGrid])⟩

theorem fvData_inputs (s : Bool) (b : Bounds) (hb : b = fvDefault ∨ b = fvOpen) :
    FV.Inputs (fvGrid s) b fvData := by
  have hlat : b.lat = "circular" := by rcases hb with rfl | rfl <;> rfl
  refine ⟨fun _ _ _ _ => by norm_num [fvData], fun _ _ _ _ => by norm_num [fvData],
    fun _ _ _ _ => by norm_num [fvData], fun _ _ _ _ => by norm_num [fvData],
    fun _ _ _ => by norm_num [fvData, fvGrid], fun _ _ _ => by norm_num [fvData],
    fun h => by rw [hlat] at h; exact absurd h (by decide), fun _ => by norm_num [fvData],
    fun _ _ _ _ _ _ => by norm_num [fvGrid]⟩

/-- C97 to C100 apply to the example grid: a solution exists for the default ends and is non-negative. -/
example (s : Bool) : ∃ A, (fvGrid s).matrix fvDefault = .ok A ∧ ∃ dC : ℕ → ℕ → ℚ,
    (fvGrid s).Solves A dC ((fvGrid s).rhs fvData fvDefault (fun _ _ => 0) fun _ _ => 1) ∧
    (∀ i ≤ 2, ∀ j ≤ 2, 0 ≤ dC i j) ∧ dC 1 0 = if s = true then 1 else 0 := by
  obtain ⟨A, hA, hu⟩ := C97_unique_solution (fvGrid s) fvDefault (fvGrid_setting s _ (Or.inl rfl))
  obtain ⟨x, hx, _⟩ := hu fun c => (fvGrid s).flat
    ((fvGrid s).rhs fvData fvDefault (fun _ _ => 0) fun _ _ => 1) c
  have hs : (fvGrid s).Solves A ((fvGrid s).gridOf x)
      ((fvGrid s).rhs fvData fvDefault (fun _ _ => 0) fun _ _ => 1) := by
    intro c
    rw [← congrFun hx c]
    congr 1
    funext c; exact FV.gridOf_eq _ x c
  refine ⟨A, hA, (fvGrid s).gridOf x, hs, fun i hi j hj => ?_, ?_⟩
  · have := C97_nonneg (fvGrid s) fvDefault (fvGrid_setting s _ (Or.inl rfl)) (by decide) (Or.inr rfl) fvData
      (fvData_inputs s _ (Or.inl rfl)) A hA (fun _ _ => 0) (fun _ _ => 1) _ (fun _ _ _ _ => le_rfl)
      (fun _ _ _ _ => zero_le_one) hs i hi j hj
    simpa using this
  · have := (C100_fixed_end (fvGrid s) fvDefault (fvGrid_setting s _ (Or.inl rfl)) (by decide) fvData A hA
      (fun _ _ => 0) (fun _ _ => 1) _ hs (i := 1) (show 1 ≤ 2 by decide)
      (Or.inl (show 0 < 1 ∧ 1 < 2 by decide))).1 rfl
    simpa [fvGrid, fvData] using this

/-- C98 applies to the example grid with open ends: half of the equilibrium concentration is carried in. -/
example : ∃ A, (fvGrid false).matrix fvOpen = .ok A ∧ ∃ dC : ℕ → ℕ → ℚ,
    (fvGrid false).Solves A dC ((fvGrid false).rhs fvData fvOpen (fun _ _ => 0) fun _ _ => 1) ∧
    (fvGrid false).total ((fvGrid false).storage (fun _ _ => 0) dC)
      = 9 / 2 - (fvGrid false).total ((fvGrid false).settling fvData dC) + 12
        - ∑ i ∈ range 3, 2 * (fvGrid false).rowFlux dC i 2 := by
  obtain ⟨A, hA, hu⟩ := C97_unique_solution (fvGrid false) fvOpen (fvGrid_setting false _ (Or.inr rfl))
  obtain ⟨x, hx, _⟩ := hu fun c => (fvGrid false).flat
    ((fvGrid false).rhs fvData fvOpen (fun _ _ => 0) fun _ _ => 1) c
  have hs : (fvGrid false).Solves A ((fvGrid false).gridOf x)
      ((fvGrid false).rhs fvData fvOpen (fun _ _ => 0) fun _ _ => 1) := by
    intro c
    rw [← congrFun hx c]
    congr 1
    funext c; exact FV.gridOf_eq _ x c
  refine ⟨A, hA, (fvGrid false).gridOf x, hs, ?_⟩
  have := C98_budget (fvGrid false) fvOpen (fvGrid_setting false _ (Or.inr rfl)) (by decide) (by decide)
    (by decide) (fun _ => ⟨by decide, rfl⟩) fvData A hA (fun _ _ => 0) (fun _ _ => 1) _ hs
  simp only [zero_add] at this
  have e1 : (fvGrid false).total ((fvGrid false).uptake fvData (fun _ _ => 0) fun _ _ => 1) = 9 / 2 := by
    norm_num [FV.total, FV.uptake, FV.between, FV.weight, fvGrid, fvData, sum_range_succ]
  have e2 : ∑ i ∈ range ((fvGrid false).ny + 1), (fvGrid false).offSupply fvOpen fvData
      ((fvGrid false).gridOf x) i = 12 := by
    norm_num [FV.offSupply, fvGrid, fvData, fvOpen, sum_range_succ]
  have e3 : ∀ i, (fvGrid false).onSupply fvOpen fvData ((fvGrid false).gridOf x) i
      = -(2 * (fvGrid false).rowFlux ((fvGrid false).gridOf x) i 2) := by
    intro i
    have hb : (fvGrid false).between fvData.lCt ((fvGrid false).gridOf x) = (fvGrid false).gridOf x := by
      funext i j; simp [FV.between, FV.weight, fvGrid]
    unfold FV.onSupply
    rw [if_neg (by decide), hb]
    simp [fvGrid]
  have e4 : ∀ j, (fvGrid false).latSupply fvOpen fvData j = 0 := fun j => by
    unfold FV.latSupply; rw [if_neg (by decide)]
  rw [e1, e2] at this
  simp only [e3, e4, sum_const_zero, add_zero, sum_neg_distrib] at this
  change _ = _ + -∑ i ∈ range 3, _ at this
  rw [← sub_eq_add_neg] at this
  exact this

theorem fv_solvable (a : FV ℚ) (b : Bounds) (h : FV.Setting a b) : ∃ A, a.matrix b = .ok A ∧ ∀ y, ∃ dC : ℕ → ℕ → ℚ, a.Solves A dC y := by
  obtain ⟨A, hA, hu⟩ := C97_unique_solution a b h
  refine ⟨A, hA, fun y => ?_⟩
  obtain ⟨x, hx, _⟩ := hu fun c => a.flat y c
  refine ⟨a.gridOf x, fun c => ?_⟩
  rw [← congrFun hx c]
  congr 1
  funext c; exact FV.gridOf_eq _ x c

/-- A transect of three cells, wind oblique. -/
def fvLine : FV ℚ := ⟨2, 0, false, 60, 1, 1, fun _ _ => 1, fun _ _ => 2, fun _ _ => 2, fun _ j => 4 - j, fun _ _ => 1⟩

theorem fvLine_setting : FV.Setting fvLine fvOpen :=
  ⟨by simp [fvLine], by simp [fvLine], by norm_num [fvLine], by norm_num [fvLine], by norm_num [fvLine],
    fun _ _ _ _ => by norm_num [fvLine], fun _ _ _ _ => by norm_num [fvLine], fun _ _ _ _ => by norm_num [fvLine], fun _ _ _ _ => rfl,
    fun _ _ _ _ => rfl, by simp [FV.EndsKnown, fvOpen], Or.inr (Or.inr rfl), Or.inr (Or.inl fun _ _ _ _ => by norm_num [fvLine])⟩

/-- The budget of the transect, in which wind across loses sand. -/
example : ∃ dC : ℕ → ℕ → ℚ, fvLine.total (fvLine.storage fvData.lCt fun i j => 0 + dC i j)
      = fvLine.total (fvLine.uptake fvData (fun _ _ => 0) fun _ _ => 1) - fvLine.total (fvLine.settling fvData fun i j => 0 + dC i j)
        + fvLine.offSupply fvOpen fvData (fun i j => 0 + dC i j) 0 + fvLine.onSupply fvOpen fvData (fun i j => 0 + dC i j) 0
        - 1 * ∑ j ∈ range (2 + 1), 1 * |(1 : ℚ)| * dC 0 j := by
  obtain ⟨A, hA, hs⟩ := fv_solvable fvLine fvOpen fvLine_setting
  obtain ⟨dC, h⟩ := hs (fvLine.rhs fvData fvOpen (fun _ _ => 0) fun _ _ => 1)
  exact ⟨dC, C98_transect fvLine fvOpen fvLine_setting rfl rfl rfl (by decide) (by decide) fvData A hA (fun _ _ => 0) (fun _ _ => 1) dC h⟩

/-- The steady budget of the grid, closed but for the sand that wraps around. -/
example : ∃ dC : ℕ → ℕ → ℚ, (fvGrid true).total ((fvGrid true).settling fvData fun i j => 1 + dC i j)
      = (fvGrid true).total ((fvGrid true).uptake fvData (fun _ _ => 1) fun _ _ => 1)
        + ∑ i ∈ range (2 + 1), ((fvGrid true).offSupply fvOpen fvData (fun i j => 1 + dC i j) i
            + (fvGrid true).onSupply fvOpen fvData (fun i j => 1 + dC i j) i)
        + ∑ j ∈ range (2 + 1), 1 * (fvGrid true).wrapFlux (fun _ _ => 1) j := by
  have hset := fvGrid_setting true fvOpen (Or.inr rfl)
  obtain ⟨A, hA, hs⟩ := fv_solvable (fvGrid true) fvOpen hset
  obtain ⟨dC, h⟩ := hs ((fvGrid true).rhs fvData fvOpen (fun _ _ => 1) fun _ _ => 1)
  exact ⟨dC, C98_steady_circular (fvGrid true) fvOpen hset rfl (by decide) rfl (by decide) (by decide) fvData A hA (fun _ _ => 1)
    (fun _ _ => 1) dC h⟩

/-- With a constant offshore boundary the steady solver adds the value of the boundary to the first column over and over. -/
example : ∃ C : ℕ → ℕ → ℕ → ℚ, C 0 1 0 = 0 ∧ ∀ n, C n 1 0 = n * fvData.offConst := by
  have hset := fvGrid_setting true fvDefault (Or.inl rfl)
  obtain ⟨A, hA, hs⟩ := fv_solvable (fvGrid true) fvDefault hset
  choose d hd using fun C : ℕ → ℕ → ℚ => hs ((fvGrid true).rhs fvData fvDefault C fun _ _ => 1)
  let C : ℕ → ℕ → ℕ → ℚ := fun n => Nat.rec (fun _ _ => 0) (fun _ C i j => C i j + d C i j) n
  refine ⟨C, rfl, fun n => ?_⟩
  have := C100_steady_end_grows (fvGrid true) fvDefault hset (by decide) rfl rfl fvData A hA C (fun _ _ _ => 1) (fun n => ?_) (i := 1)
    (by decide) (Or.inl ⟨by decide, by decide⟩) n
  · rw [this]; simp [C]
  · have e : (fun i j => C (n + 1) i j - C n i j) = d (C n) := by
      funext i j; simp [C]
    rw [e]
    exact hd (C n)

/-- One cell and one fraction that picks up half of the capacity. -/
def fvCell : FVIn ℚ Unit 1 := ⟨1, 1, 1 / 1000000, 10, fun _ _ => 1, fun _ _ => 5, fun _ _ w _ => w () / 2⟩

example : ∃ o, fvSolve fvCell false (fun _ => 1) (fun _ _ => 0) (fun _ _ => 0) (fun _ _ => 1) = .ok o ∧ (∀ c k, 0 ≤ o.w c k) ∧
    (∀ c, ∑ k, o.w c k ≤ 1) ∧ ∀ c k, 0 ≤ o.Ct c k := by
  obtain ⟨o, h⟩ := C99_total fvCell false (fun _ => 1) (by norm_num [fvCell]) (fun _ _ => 0) (fun _ _ => 0) (fun _ _ => 1)
  obtain ⟨h1, h2, h3, -⟩ := C99_solve fvCell ⟨by norm_num [fvCell], by norm_num [fvCell], by norm_num [fvCell], fun _ _ => by norm_num [fvCell],
    fun _ _ => by norm_num [fvCell], fun _ C w hC hw c => add_nonneg (hC c) (by simp only [fvCell]; linarith [hw ()])⟩ (fun _ => 1) (fun _ _ => 0)
    (fun _ _ => 0) (fun _ _ => 1) (fun _ _ => by norm_num) (fun _ _ => le_rfl) (by norm_num) o h
  exact ⟨o, h, h1, h2, h3⟩

/-- The first step of the same cell changes nothing. -/
example : ∃ o, fvSolve fvCell true (fun _ => 1) (fun _ _ => 3) (fun _ _ => 0) (fun _ _ => 1) = .ok o ∧ o.Ct = fun _ _ => 3 := by
  obtain ⟨o, h⟩ := C99_total fvCell true (fun _ => 1) (by norm_num [fvCell]) (fun _ _ => 3) (fun _ _ => 0) (fun _ _ => 1)
  exact ⟨o, h, (C99_first_step fvCell (fun _ => 1) _ _ _ o h).1⟩

example : (∃ A, (fvGrid false).matrix ⟨"gradient", "flux", "flux"⟩ = .ok A) ∧ ¬ ∃ A, (fvGrid false).matrix ⟨"gradient", "uniform", "flux"⟩ = .ok A :=
  ⟨(C100_accepted_iff _ _ (by decide)).mpr (by decide), fun h => absurd ((C100_accepted_iff _ _ (by decide)).mp h) (by decide)⟩

end Aeolis.Props
