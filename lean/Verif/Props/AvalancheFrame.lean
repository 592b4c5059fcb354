import Verif.Props.Avalanche

/-!
C158: avalanching does not depend on the datum of the levels, nor on the directions in which the grid is numbered.
-/

set_option linter.unusedSectionVars false

namespace Aeolis.Props

open Aeolis.Ava Finset

/-- Slopes and fluxes towards one side and the other exchanged along the rows. -/
def swapX : Fin 4 → Fin 4 := ![2, 1, 0, 3]

/-- Slopes and fluxes towards one side and the other exchanged along the columns. -/
def swapY : Fin 4 → Fin 4 := ![0, 3, 2, 1]

theorem gridMax_reindex {ι κ : Type*} [Fintype ι] [Nonempty ι] [Fintype κ] [Nonempty κ] (e : ι ≃ κ) (f : ι → ℝ) (g : κ → ℝ) (h : ∀ i, f i = g (e i)) :
    gridMax f = gridMax g := by
  apply le_antisymm
  · refine Finset.sup'_le _ _ fun i _ => ?_
    rw [h]
    exact Finset.le_sup' g (mem_univ _)
  · refine Finset.sup'_le _ _ fun i _ => ?_
    rw [← e.apply_symm_apply i, ← h]
    exact Finset.le_sup' f (mem_univ _)

section Datum

/-- The grid with all levels of the non-erodible layer raised. -/
def raised (p : Ava.Params) (h : ℝ) : Ava.Params := { p with zne := fun i j => (p.zne i j).map (· + h) }

variable (p : Ava.Params) (h : ℝ) (zb : Grid)

theorem downGrad_raised (b c f : ℝ) : downGrad (b + h) (c + h) (f + h) = downGrad b c f := by
  unfold downGrad
  simp only [gt_iff_lt, add_lt_add_iff_right, add_sub_add_right_eq_sub]

theorem gradDown_raised (k : Fin 4) (i j : ℕ) : gradDown (raised p h) (fun i j => zb i j + h) k i j = gradDown p zb k i j := by
  fin_cases k <;> simp only [gradDown, downGrad_raised] <;> rfl

theorem gradH_raised (i j : ℕ) : gradH (raised p h) (fun i j => zb i j + h) i j = gradH p zb i j := by
  unfold gradH
  simp only [gradDown_raised]

theorem maxGradH_raised : maxGradH (raised p h) (fun i j => zb i j + h) = maxGradH p zb := by
  unfold maxGradH
  simp only [gradH_raised]
  rfl

theorem slopeDiff_raised (i j : ℕ) : slopeDiff (raised p h) (fun i j => zb i j + h) i j = slopeDiff p zb i j := by
  unfold slopeDiff
  simp only [gradH_raised]
  change (match (p.zne i j).map (· + h) with | none => (0 : ℝ) | some z => _) = _
  cases p.zne i j with
  | none => rfl
  | some z =>
    simp only [Option.map_some, add_sub_add_right_eq_sub]
    rfl

theorem flux_raised (k : Fin 4) (i j : ℕ) : flux (raised p h) (fun i j => zb i j + h) k i j = flux p zb k i j := by
  unfold flux
  simp only [gradH_raised, slopeDiff_raised, gradDown_raised]
  rfl

theorem slide_raised : slide (raised p h) (fun i j => zb i j + h) = fun i j => slide p zb i j + h := by
  funext i j
  unfold slide qIn qOut
  simp only [flux_raised]
  change zb i j + h + 0.2 * ((if p.my = 0 then _ else _) - (if p.my = 0 then _ else _)) = _
  rw [add_right_comm]
  rfl

theorem iterate_raised (n : ℕ) : iterate (raised p h) n (fun i j => zb i j + h) = fun i j => iterate p n zb i j + h := by
  induction n generalizing zb with
  | zero => rfl
  | succ n ih =>
    unfold iterate
    rw [maxGradH_raised, slide_raised, ih]
    change (if maxGradH p zb < p.tanDyn then _ else _) = _
    split_ifs <;> rfl

/-- **C158** The datum of the levels does not matter: with bed and non-erodible layer raised everywhere by the same height the bed after avalanching is
raised by that height. -/
theorem C158_datum : avalanche { p with zne := fun i j => (p.zne i j).map (· + h) } (fun i j => zb i j + h) = fun i j => avalanche p zb i j + h := by
  change avalanche (raised p h) _ = _
  unfold avalanche
  rw [maxGradH_raised, show (raised p h).maxIter = p.maxIter from rfl, iterate_raised]
  change (if p.process = true then if maxGradH p zb > p.tanStat then _ else _ else _) = _
  split_ifs <;> rfl

end Datum

/-- The grid with other cell sizes and another non-erodible layer. -/
def onCells (p : Ava.Params) (ds dn : Grid) (zne : ℕ → ℕ → Option ℝ) : Ava.Params := { p with ds := ds, dn := dn, zne := zne }

section Cross

/-- Cell sizes and non-erodible layer with the columns numbered from the other side. -/
structure TurnedGridX (p : Ava.Params) (ds dn : Grid) (zne : ℕ → ℕ → Option ℝ) : Prop where
  ds : ∀ i j, j ≤ p.mx → ds i j = p.ds i (p.mx - j)
  dn : ∀ i j, j ≤ p.mx → dn i j = p.dn i (p.mx - j)
  zne : ∀ i j, j ≤ p.mx → zne i j = p.zne i (p.mx - j)

/-- The columns of the second bed are those of the first from the other side. -/
def TurnedX (p : Ava.Params) (zb zb' : Grid) : Prop := ∀ i j, j ≤ p.mx → zb' i j = zb i (p.mx - j)

variable {p : Ava.Params} {zb zb' ds dn : Grid} {zne : ℕ → ℕ → Option ℝ}

open Classical in
theorem gradDown_turnedX (g : TurnedGridX p ds dn zne) (h : TurnedX p zb zb') (k : Fin 4) {i j : ℕ} (hj : j ≤ p.mx) :
    gradDown (onCells p ds dn zne) zb' k i j = gradDown p zb (swapX k) i (p.mx - j) := by
  have hx : (onCells p ds dn zne).innerX i j ↔ p.innerX i (p.mx - j) := by
    unfold Params.innerX onCells
    dsimp only
    refine and_congr ?_ Iff.rfl
    omega
  have hy : (onCells p ds dn zne).innerY i j ↔ p.innerY i (p.mx - j) := by
    unfold Params.innerY onCells
    dsimp only
    refine and_congr Iff.rfl ?_
    omega
  fin_cases k
  · change (if (onCells p ds dn zne).innerX i j then _ else _) = (if p.innerX i (p.mx - j) then _ else _)
    by_cases c : p.innerX i (p.mx - j)
    · have c' := hx.mpr c
      rw [if_pos c', if_pos c, h _ _ hj, h i (j - 1) (by omega), h i (j + 1) (by have := c'.1.2; exact this)]
      have e1 : p.mx - (j - 1) = p.mx - j + 1 := by have := c'.1.1; omega
      have e2 : p.mx - (j + 1) = p.mx - j - 1 := by omega
      rw [e1, e2]
      change _ / ds i j = _
      rw [g.ds _ _ hj]
    · rw [if_neg (mt hx.mp c), if_neg c]
  · change (if (onCells p ds dn zne).innerY i j then _ else _) = (if p.innerY i (p.mx - j) then _ else _)
    by_cases c : p.innerY i (p.mx - j)
    · rw [if_pos (hy.mpr c), if_pos c, h _ _ hj, h _ _ hj, h _ _ hj]
      change _ / dn i j = _
      rw [g.dn _ _ hj]
    · rw [if_neg (mt hy.mp c), if_neg c]
  · change (if (onCells p ds dn zne).innerX i j then _ else _) = (if p.innerX i (p.mx - j) then _ else _)
    by_cases c : p.innerX i (p.mx - j)
    · have c' := hx.mpr c
      rw [if_pos c', if_pos c, h _ _ hj, h i (j - 1) (by omega), h i (j + 1) (by have := c'.1.2; exact this)]
      have e1 : p.mx - (j - 1) = p.mx - j + 1 := by have := c'.1.1; omega
      have e2 : p.mx - (j + 1) = p.mx - j - 1 := by omega
      rw [e1, e2]
      change _ / ds i j = _
      rw [g.ds _ _ hj]
    · rw [if_neg (mt hx.mp c), if_neg c]
  · change (if (onCells p ds dn zne).innerY i j then _ else _) = (if p.innerY i (p.mx - j) then _ else _)
    by_cases c : p.innerY i (p.mx - j)
    · rw [if_pos (hy.mpr c), if_pos c, h _ _ hj, h _ _ hj, h _ _ hj]
      change _ / dn i j = _
      rw [g.dn _ _ hj]
    · rw [if_neg (mt hy.mp c), if_neg c]

theorem gradH_turnedX (g : TurnedGridX p ds dn zne) (h : TurnedX p zb zb') {i j : ℕ} (hj : j ≤ p.mx) : gradH (onCells p ds dn zne) zb' i j = gradH p zb i (p.mx - j) := by
  unfold gradH
  rw [gradDown_turnedX g h 0 hj, gradDown_turnedX g h 1 hj, gradDown_turnedX g h 2 hj, gradDown_turnedX g h 3 hj]
  congr 1
  change 0.5 * gradDown p zb 2 i (p.mx - j) ^ 2 + 0.5 * gradDown p zb 1 i (p.mx - j) ^ 2 + 0.5 * gradDown p zb 0 i (p.mx - j) ^ 2 +
    0.5 * gradDown p zb 3 i (p.mx - j) ^ 2 = _
  ring

theorem maxGradH_turnedX (g : TurnedGridX p ds dn zne) (h : TurnedX p zb zb') : maxGradH (onCells p ds dn zne) zb' = maxGradH p zb := by
  unfold maxGradH
  refine gridMax_reindex ((Equiv.refl (Fin (p.my + 1))).prodCongr (Fin.revPerm (n := p.mx + 1))) _ _ fun c => ?_
  rw [gradH_turnedX g h (by have := c.2.isLt; change c.2.val < p.mx + 1 at this; omega)]
  change _ = gradH p zb c.1 (Fin.rev c.2).val
  rw [Fin.val_rev]
  congr 1
  omega

theorem slopeDiff_turnedX (g : TurnedGridX p ds dn zne) (h : TurnedX p zb zb') {i j : ℕ} (hj : j ≤ p.mx) : slopeDiff (onCells p ds dn zne) zb' i j = slopeDiff p zb i (p.mx - j) := by
  unfold slopeDiff
  rw [gradH_turnedX g h hj, h _ _ hj]
  have e1 : (onCells p ds dn zne).zne i j = p.zne i (p.mx - j) := g.zne _ _ hj
  have e2 : (onCells p ds dn zne).ds i j = p.ds i (p.mx - j) := g.ds _ _ hj
  rw [e1, e2]
  rfl

theorem flux_turnedX (g : TurnedGridX p ds dn zne) (h : TurnedX p zb zb') (k : Fin 4) {i j : ℕ} (hj : j ≤ p.mx) :
    flux (onCells p ds dn zne) zb' k i j = flux p zb (swapX k) i (p.mx - j) := by
  unfold flux
  rw [gradH_turnedX g h hj, slopeDiff_turnedX g h hj, gradDown_turnedX g h k hj]
  fin_cases k <;> simp [swapX, onCells]

theorem slide_turnedX (g : TurnedGridX p ds dn zne) (h : TurnedX p zb zb') : TurnedX p (slide p zb) (slide (onCells p ds dn zne) zb') := by
  intro i j hj
  have ho : qOut (onCells p ds dn zne) zb' i j = qOut p zb i (p.mx - j) := by
    unfold qOut
    simp only [flux_turnedX g h _ hj]
    change (if p.my = 0 then _ else _) = _
    simp only [swapX, Matrix.cons_val]
    by_cases m : p.my = 0
    · rw [if_pos m, if_pos m]
      ring
    · rw [if_neg m, if_neg m]
      ring
  have hi : qIn (onCells p ds dn zne) zb' i j = qIn p zb i (p.mx - j) := by
    unfold qIn
    change (if p.my = 0 then if i = 0 ∧ 1 ≤ j ∧ j < p.mx then _ else _ else if (1 ≤ i ∧ i < p.my) ∧ 1 ≤ j ∧ j < p.mx then _ else _) = _
    have hr : (1 ≤ j ∧ j < p.mx) ↔ (1 ≤ p.mx - j ∧ p.mx - j < p.mx) := by omega
    simp only [hr]
    have step : (1 ≤ p.mx - j ∧ p.mx - j < p.mx) → ∀ k, flux (onCells p ds dn zne) zb' k i (j - 1) = flux p zb (swapX k) i (p.mx - j + 1) ∧
        flux (onCells p ds dn zne) zb' k i (j + 1) = flux p zb (swapX k) i (p.mx - j - 1) := by
      intro c k
      rw [flux_turnedX g h _ (by omega), flux_turnedX g h _ (by omega)]
      exact ⟨by congr 1; omega, by congr 1⟩
    by_cases m : p.my = 0
    · rw [if_pos m, if_pos m]
      by_cases c : i = 0 ∧ 1 ≤ p.mx - j ∧ p.mx - j < p.mx
      · rw [if_pos c, if_pos c, (step c.2 0).1, (step c.2 0).2, (step c.2 2).1, (step c.2 2).2]
        simp only [swapX, Matrix.cons_val]
        ring
      · rw [if_neg c, if_neg c]
    · rw [if_neg m, if_neg m]
      by_cases c : (1 ≤ i ∧ i < p.my) ∧ 1 ≤ p.mx - j ∧ p.mx - j < p.mx
      · rw [if_pos c, if_pos c, (step c.2 0).1, (step c.2 0).2, (step c.2 2).1, (step c.2 2).2]
        simp only [flux_turnedX g h _ hj, swapX, Matrix.cons_val]
        ring
      · rw [if_neg c, if_neg c]
  unfold slide
  rw [h _ _ hj, ho, hi]

theorem iterate_turnedX (n : ℕ) (g : TurnedGridX p ds dn zne) (h : TurnedX p zb zb') : TurnedX p (iterate p n zb) (iterate (onCells p ds dn zne) n zb') := by
  induction n generalizing zb zb' with
  | zero => exact h
  | succ n ih =>
    unfold iterate
    rw [maxGradH_turnedX g h]
    change TurnedX p (if maxGradH p zb < p.tanDyn then _ else _) (if maxGradH p zb < p.tanDyn then _ else _)
    split_ifs
    · exact h
    · exact ih (slide_turnedX g h)

/-- **C158** Which side of the grid is called the first does not matter: with the columns numbered from the other side, the bed after avalanching is the
same, numbered from the other side. -/
theorem C158_turned_columns (p : Ava.Params) (zb zb' ds dn : Grid) (zne : ℕ → ℕ → Option ℝ)
    (hs : ∀ i j, j ≤ p.mx → ds i j = p.ds i (p.mx - j)) (hn : ∀ i j, j ≤ p.mx → dn i j = p.dn i (p.mx - j))
    (hz : ∀ i j, j ≤ p.mx → zne i j = p.zne i (p.mx - j)) (h : ∀ i j, j ≤ p.mx → zb' i j = zb i (p.mx - j)) (i j : ℕ) (hj : j ≤ p.mx) :
    avalanche { p with ds := ds, dn := dn, zne := zne } zb' i j = avalanche p zb i (p.mx - j) := by
  have g : TurnedGridX p ds dn zne := ⟨hs, hn, hz⟩
  change avalanche (onCells p ds dn zne) _ i j = _
  unfold avalanche
  rw [maxGradH_turnedX g h]
  change (if p.process = true then if maxGradH p zb > p.tanStat then iterate (onCells p ds dn zne) p.maxIter _ else _ else _) i j = _
  split_ifs
  · exact iterate_turnedX _ g h i j hj
  · exact h i j hj
  · exact h i j hj

end Cross

section Along

/-- Cell sizes and non-erodible layer with the rows numbered from the other side. -/
structure TurnedGridY (p : Ava.Params) (ds dn : Grid) (zne : ℕ → ℕ → Option ℝ) : Prop where
  ds : ∀ i j, i ≤ p.my → ds i j = p.ds (p.my - i) j
  dn : ∀ i j, i ≤ p.my → dn i j = p.dn (p.my - i) j
  zne : ∀ i j, i ≤ p.my → zne i j = p.zne (p.my - i) j

/-- The rows of the second bed are those of the first from the other side. -/
def TurnedY (p : Ava.Params) (zb zb' : Grid) : Prop := ∀ i j, i ≤ p.my → zb' i j = zb (p.my - i) j

variable {p : Ava.Params} {zb zb' ds dn : Grid} {zne : ℕ → ℕ → Option ℝ}

open Classical in
theorem gradDown_turnedY (g : TurnedGridY p ds dn zne) (h : TurnedY p zb zb') (k : Fin 4) {i j : ℕ} (hi : i ≤ p.my) :
    gradDown (onCells p ds dn zne) zb' k i j = gradDown p zb (swapY k) (p.my - i) j := by
  have hx : (onCells p ds dn zne).innerX i j ↔ p.innerX (p.my - i) j := by
    unfold Params.innerX onCells
    dsimp only
    refine and_congr Iff.rfl ?_
    omega
  have hy : (onCells p ds dn zne).innerY i j ↔ p.innerY (p.my - i) j := by
    unfold Params.innerY onCells
    dsimp only
    refine and_congr ?_ Iff.rfl
    omega
  fin_cases k
  · change (if (onCells p ds dn zne).innerX i j then _ else _) = (if p.innerX (p.my - i) j then _ else _)
    by_cases c : p.innerX (p.my - i) j
    · rw [if_pos (hx.mpr c), if_pos c, h _ _ hi, h _ _ hi, h _ _ hi]
      change _ / ds i j = _
      rw [g.ds _ _ hi]
    · rw [if_neg (mt hx.mp c), if_neg c]
  · change (if (onCells p ds dn zne).innerY i j then _ else _) = (if p.innerY (p.my - i) j then _ else _)
    by_cases c : p.innerY (p.my - i) j
    · have c' := hy.mpr c
      rw [if_pos c', if_pos c, h _ _ hi, h (i - 1) j (by omega), h (i + 1) j (by have := c'.1.2; exact this)]
      have e1 : p.my - (i - 1) = p.my - i + 1 := by have := c'.1.1; omega
      have e2 : p.my - (i + 1) = p.my - i - 1 := by omega
      rw [e1, e2]
      change _ / dn i j = _
      rw [g.dn _ _ hi]
    · rw [if_neg (mt hy.mp c), if_neg c]
  · change (if (onCells p ds dn zne).innerX i j then _ else _) = (if p.innerX (p.my - i) j then _ else _)
    by_cases c : p.innerX (p.my - i) j
    · rw [if_pos (hx.mpr c), if_pos c, h _ _ hi, h _ _ hi, h _ _ hi]
      change _ / ds i j = _
      rw [g.ds _ _ hi]
    · rw [if_neg (mt hx.mp c), if_neg c]
  · change (if (onCells p ds dn zne).innerY i j then _ else _) = (if p.innerY (p.my - i) j then _ else _)
    by_cases c : p.innerY (p.my - i) j
    · have c' := hy.mpr c
      rw [if_pos c', if_pos c, h _ _ hi, h (i - 1) j (by omega), h (i + 1) j (by have := c'.1.2; exact this)]
      have e1 : p.my - (i - 1) = p.my - i + 1 := by have := c'.1.1; omega
      have e2 : p.my - (i + 1) = p.my - i - 1 := by omega
      rw [e1, e2]
      change _ / dn i j = _
      rw [g.dn _ _ hi]
    · rw [if_neg (mt hy.mp c), if_neg c]

theorem gradH_turnedY (g : TurnedGridY p ds dn zne) (h : TurnedY p zb zb') {i j : ℕ} (hi : i ≤ p.my) : gradH (onCells p ds dn zne) zb' i j = gradH p zb (p.my - i) j := by
  unfold gradH
  rw [gradDown_turnedY g h 0 hi, gradDown_turnedY g h 1 hi, gradDown_turnedY g h 2 hi, gradDown_turnedY g h 3 hi]
  congr 1
  change 0.5 * gradDown p zb 0 (p.my - i) j ^ 2 + 0.5 * gradDown p zb 3 (p.my - i) j ^ 2 + 0.5 * gradDown p zb 2 (p.my - i) j ^ 2 +
    0.5 * gradDown p zb 1 (p.my - i) j ^ 2 = _
  ring

theorem maxGradH_turnedY (g : TurnedGridY p ds dn zne) (h : TurnedY p zb zb') : maxGradH (onCells p ds dn zne) zb' = maxGradH p zb := by
  unfold maxGradH
  refine gridMax_reindex ((Fin.revPerm (n := p.my + 1)).prodCongr (Equiv.refl (Fin (p.mx + 1)))) _ _ fun c => ?_
  rw [gradH_turnedY g h (by have := c.1.isLt; change c.1.val < p.my + 1 at this; omega)]
  change _ = gradH p zb (Fin.rev c.1).val c.2
  rw [Fin.val_rev]
  congr 1
  omega

theorem slopeDiff_turnedY (g : TurnedGridY p ds dn zne) (h : TurnedY p zb zb') {i j : ℕ} (hi : i ≤ p.my) : slopeDiff (onCells p ds dn zne) zb' i j = slopeDiff p zb (p.my - i) j := by
  unfold slopeDiff
  rw [gradH_turnedY g h hi, h _ _ hi]
  have e1 : (onCells p ds dn zne).zne i j = p.zne (p.my - i) j := g.zne _ _ hi
  have e2 : (onCells p ds dn zne).ds i j = p.ds (p.my - i) j := g.ds _ _ hi
  rw [e1, e2]
  rfl

theorem flux_turnedY (g : TurnedGridY p ds dn zne) (h : TurnedY p zb zb') (k : Fin 4) {i j : ℕ} (hi : i ≤ p.my) :
    flux (onCells p ds dn zne) zb' k i j = flux p zb (swapY k) (p.my - i) j := by
  unfold flux
  rw [gradH_turnedY g h hi, slopeDiff_turnedY g h hi, gradDown_turnedY g h k hi]
  fin_cases k <;> simp [swapY, onCells]

theorem slide_turnedY (g : TurnedGridY p ds dn zne) (h : TurnedY p zb zb') : TurnedY p (slide p zb) (slide (onCells p ds dn zne) zb') := by
  intro i j hi
  have ho : qOut (onCells p ds dn zne) zb' i j = qOut p zb (p.my - i) j := by
    unfold qOut
    simp only [flux_turnedY g h _ hi]
    change (if p.my = 0 then _ else _) = _
    simp only [swapY, Matrix.cons_val]
    by_cases m : p.my = 0
    · rw [if_pos m, if_pos m]
    · rw [if_neg m, if_neg m]
      ring
  have hq : qIn (onCells p ds dn zne) zb' i j = qIn p zb (p.my - i) j := by
    unfold qIn
    change (if p.my = 0 then if i = 0 ∧ 1 ≤ j ∧ j < p.mx then _ else _ else if (1 ≤ i ∧ i < p.my) ∧ 1 ≤ j ∧ j < p.mx then _ else _) = _
    by_cases m : p.my = 0
    · rw [if_pos m, if_pos m]
      have e : i = p.my - i := by omega
      have e0 : i = 0 := by omega
      simp only [flux_turnedY g h _ hi, swapY, Matrix.cons_val, ← e]
    · rw [if_neg m, if_neg m]
      have hr : (1 ≤ i ∧ i < p.my) ↔ (1 ≤ p.my - i ∧ p.my - i < p.my) := by omega
      simp only [hr]
      by_cases c : (1 ≤ p.my - i ∧ p.my - i < p.my) ∧ 1 ≤ j ∧ j < p.mx
      · have step : ∀ k, flux (onCells p ds dn zne) zb' k (i - 1) j = flux p zb (swapY k) (p.my - i + 1) j ∧
            flux (onCells p ds dn zne) zb' k (i + 1) j = flux p zb (swapY k) (p.my - i - 1) j := by
          intro k
          rw [flux_turnedY g h _ (by omega), flux_turnedY g h _ (by omega)]
          exact ⟨by congr 1; omega, by congr 1⟩
        rw [if_pos c, if_pos c, (step 1).1, (step 1).2, (step 3).1, (step 3).2]
        simp only [flux_turnedY g h _ hi, swapY, Matrix.cons_val]
        ring
      · rw [if_neg c, if_neg c]
  unfold slide
  rw [h _ _ hi, ho, hq]

theorem iterate_turnedY (n : ℕ) (g : TurnedGridY p ds dn zne) (h : TurnedY p zb zb') : TurnedY p (iterate p n zb) (iterate (onCells p ds dn zne) n zb') := by
  induction n generalizing zb zb' with
  | zero => exact h
  | succ n ih =>
    unfold iterate
    rw [maxGradH_turnedY g h]
    change TurnedY p (if maxGradH p zb < p.tanDyn then _ else _) (if maxGradH p zb < p.tanDyn then _ else _)
    split_ifs
    · exact h
    · exact ih (slide_turnedY g h)

/-- **C158** The same for the rows. -/
theorem C158_turned_rows (p : Ava.Params) (zb zb' ds dn : Grid) (zne : ℕ → ℕ → Option ℝ)
    (hs : ∀ i j, i ≤ p.my → ds i j = p.ds (p.my - i) j) (hn : ∀ i j, i ≤ p.my → dn i j = p.dn (p.my - i) j)
    (hz : ∀ i j, i ≤ p.my → zne i j = p.zne (p.my - i) j) (h : ∀ i j, i ≤ p.my → zb' i j = zb (p.my - i) j) (i j : ℕ) (hi : i ≤ p.my) :
    avalanche { p with ds := ds, dn := dn, zne := zne } zb' i j = avalanche p zb (p.my - i) j := by
  have g : TurnedGridY p ds dn zne := ⟨hs, hn, hz⟩
  change avalanche (onCells p ds dn zne) _ i j = _
  unfold avalanche
  rw [maxGradH_turnedY g h]
  change (if p.process = true then if maxGradH p zb > p.tanStat then iterate (onCells p ds dn zne) p.maxIter _ else _ else _) i j = _
  split_ifs
  · exact iterate_turnedY _ g h i j hi
  · exact h i j hi
  · exact h i j hi

end Along

/-- **C158** A bed that looks the same from both sides, on a grid that does, stays so. -/
theorem C158_symmetric (p : Ava.Params) (zb : Grid) (hs : ∀ i j, j ≤ p.mx → p.ds i (p.mx - j) = p.ds i j) (hn : ∀ i j, j ≤ p.mx → p.dn i (p.mx - j) = p.dn i j)
    (hz : ∀ i j, j ≤ p.mx → p.zne i (p.mx - j) = p.zne i j) (h : ∀ i j, j ≤ p.mx → zb i (p.mx - j) = zb i j) (i j : ℕ) (hj : j ≤ p.mx) :
    avalanche p zb i (p.mx - j) = avalanche p zb i j := by
  exact (C158_turned_columns p zb zb p.ds p.dn p.zne (fun i j hj => (hs i j hj).symm) (fun i j hj => (hn i j hj).symm)
    (fun i j hj => (hz i j hj).symm) (fun i j hj => (h i j hj).symm) i j hj).symm

/-- A heap of sand on a bed at the datum and at three metres. -/
example : avalanche { exAva with zne := fun _ _ => some (-10 + 3) } (fun _ j => (if j = 2 then 5 else 0) + 3) =
    fun i j => avalanche exAva (fun _ j => if j = 2 then 5 else 0) i j + 3 := C158_datum exAva 3 _

/-- A heap next to the landward side and next to the seaward side. -/
example (i j : ℕ) (hj : j ≤ 4) : avalanche exAva (fun _ j => if j = 1 then 5 else 0) i j = avalanche exAva (fun _ j => if j = 3 then 5 else 0) i (4 - j) :=
  C158_turned_columns exAva _ _ exAva.ds exAva.dn exAva.zne (fun _ _ _ => rfl) (fun _ _ _ => rfl) (fun _ _ _ => rfl) (fun _ j hj => by
    change (if j = 1 then (5 : ℝ) else 0) = if 4 - j = 3 then 5 else 0
    have hj : j ≤ 4 := hj
    have : 4 - j = 3 ↔ j = 1 := by omega
    simp only [this]) i j hj

/-- Heaps on a grid of four rows, in the second and in the third. -/
example (i j : ℕ) (hi : i ≤ 3) : avalanche { exAva with my := 3 } (fun i j => if i = 1 ∧ j = 2 then 5 else 0) i j =
    avalanche { exAva with my := 3 } (fun i j => if i = 2 ∧ j = 2 then 5 else 0) (3 - i) j :=
  C158_turned_rows { exAva with my := 3 } _ _ exAva.ds exAva.dn exAva.zne (fun _ _ _ => rfl) (fun _ _ _ => rfl) (fun _ _ _ => rfl) (fun i j hi => by
    change (if i = 1 ∧ j = 2 then (5 : ℝ) else 0) = if 3 - i = 2 ∧ j = 2 then 5 else 0
    have hi : i ≤ 3 := hi
    have : 3 - i = 2 ↔ i = 1 := by omega
    simp only [this]) i j hi

/-- A heap of sand in the middle of a transect of five cells. -/
example (i j : ℕ) (hj : j ≤ 4) : avalanche exAva (fun _ j => if j = 2 then 5 else 0) i (4 - j) = avalanche exAva (fun _ j => if j = 2 then 5 else 0) i j :=
  C158_symmetric exAva _ (fun _ _ _ => rfl) (fun _ _ _ => rfl) (fun _ _ _ => rfl) (fun _ j hj => by
    change (if 4 - j = 2 then (5 : ℝ) else 0) = if j = 2 then 5 else 0
    have hj : j ≤ 4 := hj
    have : 4 - j = 2 ↔ j = 2 := by omega
    simp only [this]) i j hj

end Aeolis.Props
