import Verif.Props.PlanarRun
import Verif.Props.FullSlopes

/-!
C145: slopes after a call of `update` on a planar grid.
-/

set_option linter.unusedSectionVars false

namespace Aeolis.Props

open Finset Aeolis.Spec Aeolis.Sand Aeolis.Solver Aeolis.Whole Aeolis.Planar

variable {nx ny nf : ℕ}

/-- In no cell inside the grid the slope is above `s`: the drops towards a neighbour in the row and a neighbour in the column combined. -/
def PlanarNoSteeper (nx ny : ℕ) (ds dn : ℕ → ℕ → ℝ) (s : ℝ) (z : ℕ → ℕ → ℝ) : Prop :=
  ∀ i j, 1 ≤ i → i < ny → 1 ≤ j → j < nx → ∀ x ∈ [z i (j - 1), z i (j + 1)], ∀ y ∈ [z (i - 1) j, z (i + 1) j],
    Real.sqrt (drop (z i j) x (ds i j) ^ 2 + drop (z i j) y (dn i j) ^ 2) ≤ s

theorem drop_le {z x w d : ℝ} (hd : 0 < d) (h : w ≤ x) : drop z x d ^ 2 ≤ drop z w d ^ 2 := by
  unfold drop
  refine pow_le_pow_left₀ (div_nonneg (le_max_left _ _) hd.le) ?_ 2
  exact div_le_div_of_nonneg_right (max_le_max le_rfl (by linarith)) hd.le

/-- On a planar grid the gradient combines the drops towards the lower neighbours in row and column. -/
theorem gradH_planar (p : Ava.Params) (z : ℕ → ℕ → ℝ) (i j : ℕ) (hi : 1 ≤ i ∧ i < p.my) (hj : 1 ≤ j ∧ j < p.mx) :
    Ava.gradH p z i j = Real.sqrt (drop (z i j) (min (z i (j - 1)) (z i (j + 1))) (p.ds i j) ^ 2 +
      drop (z i j) (min (z (i - 1) j) (z (i + 1) j)) (p.dn i j) ^ 2) := by
  have hX : p.innerX i j := ⟨hj, Or.inr hi⟩
  have hY : p.innerY i j := ⟨hi, hj⟩
  unfold Ava.gradH Ava.gradDown
  simp only [if_pos hX, if_pos hY]
  congr 1
  unfold drop
  rw [div_pow (max 0 _), div_pow (max 0 _), ← downGrad_sq, ← downGrad_sq]
  ring

theorem noSteeper_of_planar (p : Ava.Params) (hd : ∀ i j, 1 ≤ i → i < p.my → 1 ≤ j → j < p.mx → 0 < p.ds i j ∧ 0 < p.dn i j)
    (z : ℕ → ℕ → ℝ) (s : ℝ) (h : ∀ i ≤ p.my, ∀ j ≤ p.mx, Ava.gradH p z i j ≤ s) : PlanarNoSteeper p.mx p.my p.ds p.dn s z := by
  intro i j i1 i2 j1 j2 x hx y hy
  have hij := h i i2.le j j2.le
  rw [gradH_planar p z i j ⟨i1, i2⟩ ⟨j1, j2⟩] at hij
  obtain ⟨d1, d2⟩ := hd i j i1 i2 j1 j2
  refine (Real.sqrt_le_sqrt (add_le_add (drop_le d1 ?_) (drop_le d2 ?_))).trans hij
  · simp only [List.mem_cons, List.not_mem_nil, or_false] at hx
    rcases hx with rfl | rfl
    exacts [min_le_left _ _, min_le_right _ _]
  · simp only [List.mem_cons, List.not_mem_nil, or_false] at hy
    rcases hy with rfl | rfl
    exacts [min_le_left _ _, min_le_right _ _]

/-- The rounds of redistribution ran out: each of them started from a bed with a slope of at least the dynamic one. -/
def PlanarRanOut (p : Ava.Params) (z z' : ℕ → ℕ → ℝ) : Prop :=
  z' = (Ava.slide p)^[p.maxIter] z ∧ ∀ m < p.maxIter, ∃ i ≤ p.my, ∃ j ≤ p.mx, repose p.thetaDyn ≤ steepness p ((Ava.slide p)^[m] z) i j

/-- **C145** Avalanching on a planar grid leaves no slope above the static angle of repose (or the dynamic one, if that is larger) inside the
grid, unless the rounds of redistribution run out. -/
theorem C145_avalanche (p : Ava.Params) (hp : p.process = true)
    (hd : ∀ i j, 1 ≤ i → i < p.my → 1 ≤ j → j < p.mx → 0 < p.ds i j ∧ 0 < p.dn i j) (z : ℕ → ℕ → ℝ) :
    PlanarNoSteeper p.mx p.my p.ds p.dn (max (repose p.thetaStat) (repose p.thetaDyn)) (Ava.avalanche p z) ∨ PlanarRanOut p z (Ava.avalanche p z) := by
  by_cases hs : ∃ i j, i ≤ p.my ∧ j ≤ p.mx ∧ repose p.thetaStat < steepness p z i j
  · obtain ⟨n, hn, he, hst, hfin⟩ := C43_iteration p z hp hs
    rcases hn.lt_or_eq with h | h
    · exact Or.inl (noSteeper_of_planar p hd _ _ fun i hi j hj => (gradH_eq p _ i j).le.trans <| (hfin h i j hi hj).le.trans (le_max_right _ _))
    · right
      refine ⟨by rw [he, h], fun m hm => ?_⟩
      obtain ⟨i, j, hi, hj, hg⟩ := hst m (by omega)
      exact ⟨i, hi, j, hj, hg⟩
  · left
    push Not at hs
    have e : Ava.avalanche p z = z := by
      unfold Ava.avalanche
      rw [if_pos hp, if_neg]
      rw [gt_iff_lt, not_lt]
      unfold Ava.maxGradH
      obtain ⟨c, hc⟩ := exists_gridMax (fun c : Fin (p.my + 1) × Fin (p.mx + 1) => Ava.gradH p z c.1 c.2)
      rw [hc, gradH_eq]
      exact hs _ _ (by omega) (by omega)
    rw [e]
    exact noSteeper_of_planar p hd _ _ fun i hi j hj => (gradH_eq p _ i j).le.trans <| (hs i j hi hj).trans (le_max_left _ _)

/-- Avalanches are computed, on cells of positive size. -/
structure PlanarSlides (C : Planar.Config nx ny nf) : Prop where
  on : C.ava.process = true
  size : ∀ i j, 1 ≤ i → i < ny → 1 ≤ j → j < nx → 0 < C.core.ds i j ∧ 0 < C.core.dn i j

/-- **C145** After an executed call of `update` with wind, or with dune erosion, no slope inside the grid is above the angle of repose, unless
the rounds of redistribution ran out; whatever wind, waves, dune erosion and vegetation did to the bed. -/
theorem C145_update (sp : LinSolve nx ny) (C : Planar.Config nx ny nf) (hC : PlanarUsable C) (hS : PlanarSlides C) (r : ℕ → ℕ → ℝ) (dt : ℝ)
    (σ τ : Planar.State nx ny nf) (h : Planar.update sp C r dt σ = some (.ok (τ, true)))
    (hc : C.dune.process = true ∨ (C.wetReset = false ∧ ∃ file v d, C.wind.processWind = true ∧ C.wind.file = some file ∧
      Wind.windAt file σ.clock.t = some (v, d) ∧ v ≠ 0)) :
    PlanarNoSteeper nx ny C.core.ds C.core.dn (max (repose C.ava.thetaStat) (repose C.ava.thetaDyn)) τ.zb ∨
      ∃ z z', PlanarRanOut (planarSlopes C) z z' ∧ ∀ i ≤ ny, ∀ j ≤ nx, τ.zb i j = z' i j := by
  obtain ⟨-, -, hbt, -⟩ := C140_step sp C hC r dt σ τ true h
  obtain ⟨E, hE, hF, -, -, -, hstep⟩ := hbt rfl
  have key : ∃ z, ∀ c : Fin (cells nx ny), (τ.core.sand.bed c).zb = Ava.avalanche (planarSlopes C) z (rowOf c) (colOf c) := by
    by_cases hd : C.dune.process = true
    · obtain ⟨tide, wave, wl, Tp, -, -, -, -, -, l, zb, -, hz⟩ := hF.dunes hd
      exact ⟨zb, hz⟩
    · obtain ⟨hr, file, v, d, hp, hf, hv, hne⟩ := hc.resolve_left hd
      obtain ⟨v', d', hv', hw⟩ := hE.wind file hp hf
      have e : v' = v := congrArg Prod.fst (Option.some.inj (hv'.symm.trans hv))
      have hwi : Windy E := (planar_windy_iff fun c => (hw c).1).mpr (by rw [e]; exact abs_ne_zero.mpr hne)
      obtain ⟨l, hl⟩ := planar_step_levels hstep
      refine ⟨Planar.grid fun c => (l c).1, fun c => ?_⟩
      have h1 := congrArg Prod.fst (hl c)
      rw [hF.settled (by simpa using hd)] at h1
      unfold planarSettled at h1
      rw [if_pos hwi, hr] at h1
      exact h1
  obtain ⟨z, hz⟩ := key
  have hz : ∀ i ≤ ny, ∀ j ≤ nx, τ.zb i j = Ava.avalanche (planarSlopes C) z i j := by
    intro i hi j hj
    have e : (fun c => (τ.core.sand.bed c).zb) = fun c : Fin (cells nx ny) => Ava.avalanche (planarSlopes C) z (rowOf c) (colOf c) := funext hz
    unfold Planar.State.zb
    rw [e]
    exact Planar.grid_at _ i j hi hj
  rcases C145_avalanche (planarSlopes C) hS.on hS.size z with h' | h'
  · left
    intro i j i1 i2 j1 j2
    rw [hz i i2.le j j2.le, hz i i2.le (j - 1) (by omega), hz i i2.le (j + 1) (by omega), hz (i - 1) (by omega) j j2.le,
      hz (i + 1) (by omega) j j2.le]
    exact h' i j i1 i2 j1 j2
  · exact Or.inr ⟨z, _, h', hz⟩

end Aeolis.Props
