import Verif.Props.FullSlopes

/-!
C139: avalanching needs a file with the non-erodible layer.
-/

set_option linter.unusedSectionVars false

namespace Aeolis.Props

open Finset Aeolis.Spec Aeolis.Sand Aeolis.Solver Aeolis.Whole Aeolis.Full

variable {nx nf : ℕ}

/-- **C139** Without a level of the non-erodible layer a cell gives no sand away in a redistribution. -/
theorem C139_cell_keeps (p : Ava.Params) (zb : Ava.Grid) (i j : ℕ) (h : p.zne i j = none) : zb i j ≤ Ava.slide p zb i j := by
  have hs : Ava.slopeDiff p zb i j = 0 := by
    unfold Ava.slopeDiff
    rw [h]
  have ho : Ava.qOut p zb i j = 0 := by
    have hf : ∀ k, Ava.flux p zb k i j = 0 := by
      intro k
      rw [Ava.flux_eq, hs]
      simp
    unfold Ava.qOut
    simp [hf]
  have hi : 0 ≤ Ava.qIn p zb i j := by
    rw [Ava.qIn_eq]
    split
    · have h1 := parts_nonneg p zb
      split
      · linarith [(h1 i (j - 1)).1, (h1 i (j + 1)).2.1]
      · linarith [(h1 i (j - 1)).1, (h1 i (j + 1)).2.1, (h1 (i - 1) j).2.2.1, (h1 (i + 1) j).2.2.2]
    · exact le_rfl
  unfold Ava.slide
  rw [ho]
  linarith

/-- **C139** Without a file for the non-erodible layer avalanching leaves every bed as it is, however steep. -/
theorem C139_no_layer (p : Ava.Params) (h : ∀ i j, p.zne i j = none) (zb : Ava.Grid) : Ava.avalanche p zb = zb := by
  have hf : ∀ zb k i j, Ava.flux p zb k i j = 0 := by
    intro zb k i j
    rw [Ava.flux_eq]
    unfold Ava.slopeDiff
    rw [h]
    simp
  have hs : ∀ zb, Ava.slide p zb = zb := by
    intro zb
    funext i j
    unfold Ava.slide Ava.qOut Ava.qIn
    simp [hf]
  have hi : ∀ n zb, Ava.iterate p n zb = zb := by
    intro n
    induction n with
    | zero => exact fun _ => rfl
    | succ n ih =>
      intro zb
      unfold Ava.iterate
      rw [hs, ih, ite_self]
  unfold Ava.avalanche
  rw [hi, ite_self, ite_self]

/-- **C139** With a layer below the bed a redistribution lowers every summit of a transect that is steeper than the dynamic angle of repose. -/
theorem C139_summit_slides (p : Ava.Params) (hy : p.my = 0) (hd : 0 ≤ repose p.thetaDyn) (hds : ∀ i j, 0 < p.ds i j) (z : ℕ → ℝ)
    (layer : ℕ → ℝ) (hl : ∀ j, p.zne 0 j = some (layer j)) (hz : ∀ j ≤ p.mx, layer j ≤ z j)
    (j : ℕ) (h1 : 1 ≤ j) (h2 : j < p.mx) (ha : layer j < z j) (hl' : z (j - 1) ≤ z j) (hr : z (j + 1) ≤ z j)
    (hsteep : repose p.thetaDyn * p.ds 0 j < z j - min (z (j - 1)) (z (j + 1))) :
    Ava.slide p (fun _ => z) 0 j < z j := by
  rw [show repose p.thetaDyn = p.tanDyn from rfl] at hd hsteep
  have hg : p.tanDyn < Ava.gradH p (fun _ => z) 0 j := by
    rw [gradH_transect p hy z j h1 h2 (hds 0 j), lt_div_iff₀ (hds 0 j)]
    exact hsteep.trans_le (le_max_right _ _)
  have hg0 : 0 < Ava.gradH p (fun _ => z) 0 j := lt_of_le_of_lt hd hg
  have hpos : 0 < (z j - layer j) / p.ds 0 j := div_pos (sub_pos.mpr ha) (hds 0 j)
  have sd : 0 < Ava.slopeDiff p (fun _ => z) 0 j := by
    unfold Ava.slopeDiff
    simp only [hl]
    split
    · exact Ava.tanh_pos hpos
    · rw [if_pos ⟨hg, hpos⟩]
      have : 0.9 * p.tanDyn < Ava.gradH p (fun _ => z) 0 j := by nlinarith
      have := Ava.tanh_strictMono this
      linarith
  have sn : ∀ k ≤ p.mx, 0 ≤ Ava.slopeDiff p (fun _ => z) 0 k := fun k hk =>
    slopeDiff_nonneg p _ 0 k hd fun z' hz' => by
      rw [hl] at hz'
      rw [← Option.some.inj hz']
      exact div_nonneg (sub_nonneg.mpr (hz k hk)) (hds 0 k).le
  have hout : 0 < Ava.qOut p (fun _ => z) 0 j := by
    have hex : ∃ k, Ava.gradDown p (fun _ => z) k 0 j ≠ 0 := by
      by_contra hcon
      push Not at hcon
      unfold Ava.gradH at hg0
      simp [hcon] at hg0
    obtain ⟨k, hk⟩ := hex
    have hf : Ava.flux p (fun _ => z) k 0 j ≠ 0 := by
      rw [Ava.flux_eq, if_pos hg0.ne']
      exact div_ne_zero (mul_ne_zero sd.ne' hk) hg0.ne'
    have hpos := abs_pos.mpr hf
    have a := fun k => abs_nonneg (Ava.flux p (fun _ => z) k 0 j)
    unfold Ava.qOut
    rw [if_pos hy]
    have hk' : k = 0 ∨ k = 2 := by
      by_contra hcon
      have : k = 1 ∨ k = 3 := by
        fin_cases k <;> simp_all
      exact hk (Ava.gradDown_y_transect p _ k 0 j hy this)
    rcases hk' with rfl | rfl
    · linarith [a 2]
    · linarith [a 0]
  have hin : Ava.qIn p (fun _ => z) 0 j = 0 := by
    have hw := sn (j - 1) (by omega)
    have he := sn (j + 1) (by omega)
    have ej : j - 1 + 1 = j := by omega
    have ej' : j + 1 - 1 = j := by omega
    have a0 : Ava.flux p (fun _ => z) 0 0 (j - 1) ≤ 0 := (flux_sign p _ 0 _ _ hw).2 (by
      simp only [Ava.gradDown, ej]
      split
      · exact div_nonpos_of_nonpos_of_nonneg (Ava.downGrad_nonpos _ _ _ hl') (hds _ _).le
      · exact le_rfl)
    have a2 : 0 ≤ Ava.flux p (fun _ => z) 2 0 (j - 1) := (flux_sign p _ 2 _ _ hw).1 (by
      simp only [Ava.gradDown, ej]
      split
      · exact div_nonneg (Ava.downGrad_nonneg _ _ _ hl') (hds _ _).le
      · exact le_rfl)
    have b0 : 0 ≤ Ava.flux p (fun _ => z) 0 0 (j + 1) := (flux_sign p _ 0 _ _ he).1 (by
      simp only [Ava.gradDown, ej']
      split
      · exact div_nonneg (Ava.downGrad_nonneg _ _ _ hr) (hds _ _).le
      · exact le_rfl)
    have b2 : Ava.flux p (fun _ => z) 2 0 (j + 1) ≤ 0 := (flux_sign p _ 2 _ _ he).2 (by
      simp only [Ava.gradDown, ej']
      split
      · exact div_nonpos_of_nonpos_of_nonneg (Ava.downGrad_nonpos _ _ _ hr) (hds _ _).le
      · exact le_rfl)
    unfold Ava.qIn
    simp only [if_pos hy, h1, h2, and_self, if_true]
    rw [max_eq_right a0, min_eq_right b0, max_eq_right b2, min_eq_right a2]
    ring
  unfold Ava.slide
  rw [hin]
  linarith

/-- The summit of `exAva` slides. -/
example : Ava.slide exAva (fun _ j => if j = 2 then 5 else 0) 0 2 < 5 := by
  refine C139_summit_slides exAva rfl exAva_tanDyn (by simp [exAva]) (fun j => if j = 2 then 5 else 0) (fun _ => -10) (fun _ => rfl)
    (fun j _ => ?_) 2 (by norm_num) (by simp [exAva]) (by norm_num) (by norm_num) (by norm_num) ?_
  · show (-10 : ℝ) ≤ if j = 2 then 5 else 0
    split <;> norm_num
  · have hlt : repose exAva.thetaDyn < 1 := by
      unfold repose
      rw [← Real.tan_pi_div_four]
      apply Real.tan_lt_tan_of_nonneg_of_lt_pi_div_two
      · simp only [exAva]; positivity
      · have := Real.pi_pos; linarith
      · have := Real.pi_pos; simp only [exAva]; linarith
    simp only [exAva] at hlt ⊢
    norm_num
    linarith

/-- The same without a file for the layer: it stays, though far steeper than the angle of repose. -/
example (zb : Ava.Grid) : Ava.avalanche { exAva with zne := fun _ _ => none } zb = zb := C139_no_layer _ (fun _ _ => rfl) zb

/-- The same configuration with avalanching switched off. -/
def withoutAvalanches (C : Full.Config nx nf) : Full.Config nx nf := { C with ava := { C.ava with process := false } }

theorem slid_no_layer (C : Full.Config nx nf) (h : ∀ j, C.zne j = none) (zb : ℕ → ℝ) : slid C zb = zb := by
  funext j
  unfold slid
  rw [C139_no_layer (avaIn C) fun _ j => h j]

theorem eroded_no_layer (C : Full.Config nx nf) (h : ∀ j, C.zne j = none) : eroded (withoutAvalanches C) = eroded C := by
  funext t dt w zb
  unfold eroded
  simp only [slid_no_layer C h, slid_no_layer (withoutAvalanches C) h]
  rfl

theorem levels_no_layer (C : Full.Config nx nf) (h : ∀ j, C.zne j = none) : levels (withoutAvalanches C) = levels C := by
  funext dt windy lzb l c
  unfold levels
  simp only [slid_no_layer C h, slid_no_layer (withoutAvalanches C) h]
  rfl

theorem execute_no_layer (sp : LinSolve nx 0) (C : Full.Config nx nf) (h : ∀ j, C.zne j = none) :
    execute sp (withoutAvalanches C) = execute sp C := by
  have he : envWith (withoutAvalanches C) = envWith C := by
    funext σ now u0 u dt wa m d
    unfold envWith
    rw [levels_no_layer C h]
    rfl
  have he' : env (withoutAvalanches C) = env C := by
    unfold env
    rw [he]
    rfl
  unfold execute
  rw [he', eroded_no_layer C h]
  rfl

/-- **C139** Without a file for the non-erodible layer a run on a transect has the same result with and without `process_avalanche`. -/
theorem C139_run (sp : LinSolve nx 0) (C : Full.Config nx nf) (h : ∀ j, C.zne j = none) (calls : List ((ℕ → ℝ) × ℝ)) (σ : Full.State nx nf) :
    Full.run sp C calls σ = Full.run sp (withoutAvalanches C) calls σ := by
  have hu : Full.update sp (withoutAvalanches C) = Full.update sp C := by
    unfold Full.update
    rw [execute_no_layer sp C h]
    rfl
  induction calls generalizing σ with
  | nil => rfl
  | cons x xs ih =>
    unfold Full.run
    rw [hu]
    match Full.update sp C x.1 x.2 σ with
    | none => rfl
    | some (.error e) => rfl
    | some (.ok (τ, _)) => exact ih τ

/-- The coast with avalanches but without a file for the layer. -/
example (sp : LinSolve 2 0) (calls : List ((ℕ → ℝ) × ℝ)) (σ : Full.State 2 1) :
    Full.run sp { coastConfig 20 true with zne := fun _ => none } calls σ =
      Full.run sp (withoutAvalanches { coastConfig 20 true with zne := fun _ => none }) calls σ :=
  C139_run sp _ (fun _ => rfl) calls σ

/-- A cell without layer under a dune keeps its level or rises. -/
example : (1 : ℝ) ≤ Ava.slide { exAva with zne := fun _ j => if j = 1 then none else some (-10) } (fun _ j => if j = 2 then 5 else 1) 0 1 := by
  have h := C139_cell_keeps { exAva with zne := fun _ j => if j = 1 then none else some (-10) } (fun _ j => if j = 2 then 5 else 1) 0 1 rfl
  simpa using h

end Aeolis.Props
