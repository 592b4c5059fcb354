import Verif.Props.SandBudget
import Verif.Props.Avalanche

/-!
C116, continued: avalanching after the exchange of sand between bed and air.
-/

namespace Aeolis.Props

open Aeolis.Sand Aeolis.Solver Finset

variable {nf : ℕ}

theorem onGrid_cell {nx ny : ℕ} (g : ℕ → ℕ → ℝ) (i j : ℕ) (hi : i ≤ ny) (hj : j ≤ nx) :
    onGrid (nx := nx) (ny := ny) (fun c => g ((c : ℕ) / (nx + 1)) ((c : ℕ) % (nx + 1))) i j = g i j := by
  have hlt : i * (nx + 1) + j < cells nx ny := by
    unfold cells
    calc i * (nx + 1) + j < i * (nx + 1) + (nx + 1) := by omega
      _ = (i + 1) * (nx + 1) := by ring
      _ ≤ (ny + 1) * (nx + 1) := Nat.mul_le_mul_right _ (by omega)
  unfold onGrid
  rw [dif_pos hlt]
  have h1 : (i * (nx + 1) + j) / (nx + 1) = i := by
    rw [Nat.mul_comm, Nat.mul_add_div (by omega), Nat.div_eq_of_lt (by omega)]; rfl
  have h2 : (i * (nx + 1) + j) % (nx + 1) = j := by
    rw [Nat.mul_comm, Nat.mul_add_mod, Nat.mod_eq_of_lt (by omega)]
  simp only [h1, h2]

/-- Avalanching on the cells of the domain, which are all of the same size. -/
structure SameCells (D : Domain ℝ) (a : Ava.Params) (area : ℝ) : Prop where
  mx : a.mx = D.nx
  my : a.my = D.ny
  nx : 2 ≤ D.nx
  cell : ∀ i j, D.ds i j * D.dn i j = area
  pos : 0 ≤ area

/-- The change of the sand by avalanching: bulk density times area times the change of the summed bed level. -/
theorem slideBed_total (p : Bed.Params ℝ nf) (D : Domain ℝ) (a : Ava.Params) (area : ℝ) (h : SameCells D a area)
    (σ : State ℝ D.nx D.ny nf) :
    total p D (slideBed a σ) - total p D σ = area * (p.rhog * (1 - p.porosity)) *
      (∑ i ∈ range (a.my + 1), ∑ j ∈ range (a.mx + 1), Ava.avalanche a (onGrid fun c => (σ.bed c).zb) i j -
        ∑ i ∈ range (a.my + 1), ∑ j ∈ range (a.mx + 1), onGrid (fun c => (σ.bed c).zb) i j) := by
  unfold total
  rw [← sum_sub_distrib, ← sum_sub_distrib, mul_sum, h.my]
  refine sum_congr rfl fun i hi => ?_
  rw [mem_range] at hi
  rw [← sum_sub_distrib, ← sum_sub_distrib, mul_sum, h.mx]
  have hsub : Ico 1 D.nx ⊆ range (D.nx + 1) := by
    intro j hj; rw [mem_Ico] at hj; rw [mem_range]; omega
  rw [← sum_subset hsub]
  · refine sum_congr rfl fun j hj => ?_
    rw [mem_Ico] at hj
    rw [h.cell]
    have : onGrid (fun c => ((slideBed a σ).bed c).zb) i j = Ava.avalanche a (onGrid fun c => (σ.bed c).zb) i j :=
      onGrid_cell (Ava.avalanche a (onGrid fun c => (σ.bed c).zb)) i j (by omega) (by omega)
    rw [this]
    have : ∀ f, (fun c => (slideBed a σ).Ct c f) = fun c => σ.Ct c f := fun f => rfl
    simp only [this]
    ring
  · intro j hj hn
    rw [mem_range] at hj
    rw [mem_Ico] at hn
    have hb : OnBorder a i j := by
      unfold OnBorder
      rw [h.mx]
      omega
    rw [C41_border_fixed a _ i j (by rw [h.my]; omega) (by rw [h.mx]; omega) hb]
    ring

/-- **C116** Avalanching never adds sand. -/
theorem C116_avalanche_never_adds (p : Bed.Params ℝ nf) (D : Domain ℝ) (a : Ava.Params) (area : ℝ) (h : SameCells D a area)
    (hρ : 0 ≤ p.rhog * (1 - p.porosity)) (σ : State ℝ D.nx D.ny nf) :
    total p D (slideBed a σ) ≤ total p D σ ∧ (slideBed a σ).Ct = σ.Ct ∧
      ∀ c, ((slideBed a σ).bed c).mass = (σ.bed c).mass := by
  refine ⟨?_, rfl, fun _ => rfl⟩
  have := slideBed_total p D a area h σ
  have hg := C42_never_gains a (onGrid fun c => (σ.bed c).zb)
  have hm : area * (p.rhog * (1 - p.porosity)) *
      (∑ i ∈ range (a.my + 1), ∑ j ∈ range (a.mx + 1), Ava.avalanche a (onGrid fun c => (σ.bed c).zb) i j -
        ∑ i ∈ range (a.my + 1), ∑ j ∈ range (a.mx + 1), onGrid (fun c => (σ.bed c).zb) i j) ≤ 0 :=
    mul_nonpos_of_nonneg_of_nonpos (mul_nonneg h.pos hρ) (by linarith)
  linarith

/-- **C116** A run of any length with avalanching after every update of the bed: the sand in bed and air grows by no more than what
enters through the ends of the rows, up to the tolerance of the solver in every step. -/
theorem C116_run_with_avalanching (p : Bed.Params ℝ nf) (D : Domain ℝ) (area : ℝ) (a : ℕ → Ava.Params)
    (σ mid : ℕ → State ℝ D.nx D.ny nf) (t : ℕ → Step ℝ D.nx D.ny nf) (n : ℕ)
    (hb : p.processBedupdate = true) (hρ : 0 < p.rhog * (1 - p.porosity))
    (h : ∀ k < n, (t k).Fits D (σ k) ∧ SameCells D (a k) area ∧
      Sand.step p (t k).solver (t k).pk (t k).w (σ k) = .ok (mid k) ∧ σ (k + 1) = slideBed (a k) (mid k)) :
    total p D (σ n) ≤ total p D (σ 0) + ∑ k ∈ range n, ∑ f, supply ((t k).sys f) (onGrid fun c => (σ (k + 1)).Ct c f)
      + (∑ k ∈ range n, (t k).solver.maxError) * nf * surface D := by
  induction n with
  | zero => simp
  | succ n ih =>
    have hi := ih fun k hk => h k (by omega)
    obtain ⟨h1, h3, h4, h5⟩ := h n (by omega)
    have u := C116_step_no_more p D (σ n) (mid n) (t n) h1 hb hρ.ne' h4
    obtain ⟨g, hc, _⟩ := C116_avalanche_never_adds p D (a n) area h3 hρ.le (mid n)
    rw [← h5] at g hc
    rw [← hc] at u
    rw [sum_range_succ, sum_range_succ, add_mul, add_mul]
    linarith

/-- Avalanching on a transect of three cells. -/
noncomputable def shortBeachSlope : Ava.Params :=
  { process := true, mx := 2, my := 0, ds := fun _ _ => 1, dn := fun _ _ => 1, zne := fun _ _ => some 0, thetaStat := 34, thetaDyn := 33,
    maxIter := 10 }

example : SameCells { nx := 2, ny := 0, ds := fun _ _ => 1, dn := fun _ _ => 1 } shortBeachSlope 1 :=
  ⟨rfl, rfl, le_rfl, fun _ _ => by norm_num, by norm_num⟩

end Aeolis.Props
