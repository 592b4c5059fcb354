import Verif.Props.FullRun

/-!
C138: slopes after a call of `update` on a transect.
-/

set_option linter.unusedSectionVars false

namespace Aeolis.Props

open Finset Aeolis.Spec Aeolis.Sand Aeolis.Solver Aeolis.Whole Aeolis.Full

variable {nx nf : ℕ}

/-- No cell between the ends is more than `s` times its length above one of its neighbours. -/
def NoSteeper (nx : ℕ) (ds : ℕ → ℝ) (s : ℝ) (z : ℕ → ℝ) : Prop :=
  ∀ j, 1 ≤ j → j < nx → z j - z (j - 1) ≤ s * ds j ∧ z j - z (j + 1) ≤ s * ds j

/-- On a transect the gradient is the drop towards the lower neighbour. -/
theorem gradH_transect (p : Ava.Params) (hy : p.my = 0) (z : ℕ → ℝ) (j : ℕ) (h1 : 1 ≤ j) (h2 : j < p.mx) (hds : 0 < p.ds 0 j) :
    Ava.gradH p (fun _ => z) 0 j = max 0 (z j - min (z (j - 1)) (z (j + 1))) / p.ds 0 j := by
  have hX : p.innerX 0 j := ⟨⟨h1, h2⟩, Or.inl hy⟩
  have hY : ¬ p.innerY 0 j := fun h => absurd h.1.1 (by decide)
  unfold Ava.gradH Ava.gradDown
  simp only [if_pos hX, if_neg hY]
  have e : 0.5 * (Ava.downGrad (z (j - 1)) (z j) (z (j + 1)) / p.ds 0 j) ^ 2 + 0.5 * 0 ^ 2 +
      0.5 * (Ava.downGrad (z (j + 1)) (z j) (z (j - 1)) / p.ds 0 j) ^ 2 + 0.5 * 0 ^ 2 =
      (max 0 (z j - min (z (j - 1)) (z (j + 1))) / p.ds 0 j) ^ 2 := by
    rw [div_pow (max 0 _), ← downGrad_sq]
    ring
  rw [e]
  exact Real.sqrt_sq (div_nonneg (le_max_left _ _) hds.le)

theorem noSteeper_of_gradH (p : Ava.Params) (hy : p.my = 0) (hds : ∀ j, 1 ≤ j → j < p.mx → 0 < p.ds 0 j) (z : ℕ → ℝ) (s : ℝ)
    (h : ∀ j ≤ p.mx, Ava.gradH p (fun _ => z) 0 j ≤ s) : NoSteeper p.mx (p.ds 0) s z := by
  intro j h1 h2
  have hj := h j h2.le
  rw [gradH_transect p hy z j h1 h2 (hds j h1 h2), div_le_iff₀ (hds j h1 h2)] at hj
  have := (le_max_right _ _).trans hj
  exact ⟨by linarith [min_le_left (z (j - 1)) (z (j + 1))], by linarith [min_le_right (z (j - 1)) (z (j + 1))]⟩

/-- The rounds of redistribution on a transect ran out: each of them started from a bed with a slope of at least the dynamic one. -/
def RanOut (p : Ava.Params) (z z' : ℕ → ℝ) : Prop :=
  (∀ j, z' j = (Ava.slide p)^[p.maxIter] (fun _ => z) 0 j) ∧
    ∀ m < p.maxIter, ∃ j ≤ p.mx, repose p.thetaDyn ≤ steepness p ((Ava.slide p)^[m] fun _ => z) 0 j

theorem gradH_row (p : Ava.Params) (G : Ava.Grid) (j : ℕ) : Ava.gradH p G 0 j = Ava.gradH p (fun _ => G 0) 0 j := by
  have hY : ¬ p.innerY 0 j := fun h => absurd h.1.1 (by decide)
  unfold Ava.gradH Ava.gradDown
  simp only [if_neg hY]

/-- **C138** Avalanching on a transect leaves no slope above the static angle of repose (or the dynamic one, if that is larger), unless the
rounds of redistribution run out. -/
theorem C138_avalanche (p : Ava.Params) (hp : p.process = true) (hy : p.my = 0) (hds : ∀ j, 1 ≤ j → j < p.mx → 0 < p.ds 0 j) (z : ℕ → ℝ) :
    NoSteeper p.mx (p.ds 0) (max (repose p.thetaStat) (repose p.thetaDyn)) (Ava.avalanche p (fun _ => z) 0) ∨ RanOut p z (Ava.avalanche p (fun _ => z) 0) := by
  by_cases hs : ∃ i j, i ≤ p.my ∧ j ≤ p.mx ∧ repose p.thetaStat < steepness p (fun _ => z) i j
  · obtain ⟨n, hn, he, hst, hfin⟩ := C43_iteration p (fun _ => z) hp hs
    rcases hn.lt_or_eq with h | h
    · left
      refine noSteeper_of_gradH p hy hds _ _ fun j hj => ?_
      rw [← gradH_row, gradH_eq]
      exact ((hfin h 0 j (Nat.zero_le _) hj).le).trans (le_max_right _ _)
    · right
      refine ⟨fun j => by rw [he, h], fun m hm => ?_⟩
      obtain ⟨i, j, hi, hj, hg⟩ := hst m (by omega)
      obtain rfl : i = 0 := by omega
      exact ⟨j, hj, hg⟩
  · left
    push Not at hs
    have e : Ava.avalanche p (fun _ => z) = fun _ => z := by
      unfold Ava.avalanche
      rw [if_pos hp, if_neg]
      rw [gt_iff_lt, not_lt]
      unfold Ava.maxGradH
      obtain ⟨c, hc⟩ := exists_gridMax (fun c : Fin (p.my + 1) × Fin (p.mx + 1) => Ava.gradH p (fun _ => z) c.1 c.2)
      rw [hc, gradH_eq]
      exact hs _ _ (by omega) (by omega)
    rw [e]
    exact noSteeper_of_gradH p hy hds _ _ fun j hj => (gradH_eq p _ 0 j).le.trans <| (hs 0 j (Nat.zero_le _) hj).trans (le_max_left _ _)

/-- Avalanches are computed, on cells of positive size. -/
structure Slides (C : Full.Config nx nf) : Prop where
  on : C.ava.process = true
  size : ∀ j, 1 ≤ j → j < nx → 0 < C.core.ds 0 j

/-- **C138** After an executed call of `update` with wind, or with dune erosion, no slope of the transect is above the angle of repose, unless
the rounds of redistribution ran out; whatever wind, waves, dune erosion and vegetation did to the bed. -/
theorem C138_update (sp : LinSolve nx 0) (C : Full.Config nx nf) (hC : Usable C) (hS : Slides C) (r : ℕ → ℝ) (dt : ℝ)
    (σ τ : Full.State nx nf) (h : Full.update sp C r dt σ = some (.ok (τ, true)))
    (hc : C.dune.process = true ∨ (C.wetReset = false ∧ ∃ file v d, C.wind.processWind = true ∧ C.wind.file = some file ∧
      Wind.windAt file σ.clock.t = some (v, d) ∧ v ≠ 0)) :
    NoSteeper nx (C.core.ds 0) (max (repose C.ava.thetaStat) (repose C.ava.thetaDyn)) τ.zb ∨ ∃ z z', RanOut (slopes C) z z' ∧ ∀ j ≤ nx, τ.zb j = z' j := by
  obtain ⟨-, -, hbt, -⟩ := C133_step sp C hC r dt σ τ true h
  obtain ⟨E, hE, hF, -, -, -, hstep⟩ := hbt rfl
  have key : ∃ z, ∀ c : Fin (cells nx 0), τ.zb c = Ava.avalanche (slopes C) (fun _ => z) 0 c := by
    by_cases hd : C.dune.process = true
    · obtain ⟨tide, wave, wl, Tp, -, -, -, -, -, l, zb, -, hz⟩ := hF.dunes hd
      exact ⟨zb, hz⟩
    · obtain ⟨hr, file, v, d, hp, hf, hv, hne⟩ := hc.resolve_left hd
      obtain ⟨v', d', hv', hw⟩ := hE.wind file hp hf
      have e : v' = v := congrArg Prod.fst (Option.some.inj (hv'.symm.trans hv))
      have hwi : Windy E := (windy_iff fun c => (hw c).1).mpr (by rw [e]; exact abs_ne_zero.mpr hne)
      obtain ⟨l, hl⟩ := step_levels hstep
      refine ⟨col fun c => (l c).1, fun c => ?_⟩
      have h1 := congrArg Prod.fst (hl c)
      rw [hF.settled (by simpa using hd)] at h1
      unfold settledLevel at h1
      rw [if_pos hwi, hr] at h1
      exact (col_apply _ c).trans h1
  obtain ⟨z, hz⟩ := key
  have hz : ∀ j ≤ nx, τ.zb j = Ava.avalanche (slopes C) (fun _ => z) 0 j := fun j hj => hz ⟨j, by unfold cells; omega⟩
  rcases C138_avalanche (slopes C) hS.on rfl hS.size z with h' | h'
  · left
    intro j h1 h2
    rw [hz j h2.le, hz (j - 1) (by omega), hz (j + 1) (by omega)]
    exact h' j h1 h2
  · exact Or.inr ⟨z, _, h', hz⟩

/-- C138: a call with wind at the coast with avalanches. -/
example (r : ℕ → ℝ) : ∃ τ, Full.update byInverse (coastConfig 20 true) r 3600 coastState = some (.ok (τ, true)) ∧
    (NoSteeper 2 (fun _ => 1) (max (repose 34) (repose 33)) τ.zb ∨
      ∃ z z', RanOut (slopes (coastConfig 20 true)) z z' ∧ ∀ j ≤ 2, τ.zb j = z' j) := by
  obtain ⟨τ, b, hu, -⟩ := C133_total byInverse (coastConfig 20 true) (coast_usable 20 true) duneConfig_names (coast_files 20 true) r 3600
    coastState fun _ _ => le_rfl
  have hb : b = true := by
    cases b with
    | true => rfl
    | false =>
      have := (C133_step byInverse (coastConfig 20 true) (coast_usable 20 true) r 3600 coastState τ false hu).1.mp rfl
      norm_num at this
  subst hb
  exact ⟨τ, hu, C138_update byInverse (coastConfig 20 true) (coast_usable 20 true) ⟨rfl, fun _ _ _ => one_pos⟩ r 3600 coastState τ hu
    (Or.inl rfl)⟩

end Aeolis.Props
