import Verif.Proofs.BedGrid

/-!
The bed update on the whole grid (C102).
-/

set_option linter.unusedSectionVars false

namespace Aeolis.Props

open Aeolis.Bed Finset

variable {K : Type*} [Field K] [LinearOrder K] [IsStrictOrderedRing K] [FloorRing K] {nf : ℕ}
  {C : Type*} [Fintype C]

/-- C102: the update of the whole grid, with its tests over all cells, does in each cell whose top layer has
no negative total mass what the update of that cell alone does. -/
theorem C102_cell_by_cell (p : Params K nf) (src : C → Source K nf) (s : C → Cell K nf) (c : C)
    (h0 : 0 ≤ ∑ f, (s c).mass 0 f) :
    gridUpdate p src s c = update { p with source := src c } (s c) :=
  gridUpdate_apply p src s c h0

/-- C102: the result in a cell does not depend on the other cells, nor on how many there are or how they
are numbered. -/
theorem C102_local {C' : Type*} [Fintype C'] (p : Params K nf) (src : C → Source K nf)
    (src' : C' → Source K nf) (s : C → Cell K nf) (s' : C' → Cell K nf) (c : C) (c' : C')
    (hs : s c = s' c') (hsrc : src c = src' c') (h0 : 0 ≤ ∑ f, (s c).mass 0 f) :
    gridUpdate p src s c = gridUpdate p src' s' c' := by
  rw [gridUpdate_apply p src s c h0, gridUpdate_apply p src' s' c' (by rw [← hs]; exact h0), hs, hsrc]

/-- Two cells: fresh deposits exceeding the top layer in the first, slight erosion of a top layer of
negative mass in the second. -/
def negativeBed (dep : ℚ) : Fin 2 → Cell ℚ 1 :=
  ![⟨fun _ _ => 1, fun _ => -dep, 0, 0, 0⟩, ⟨fun _ _ => -1, fun _ => 1 / 2, 0, 0, 0⟩]

/-- Parameters of the two cells. -/
def negativeBedParams : Params ℚ 1 := ⟨2, 1, 0, 0, .uniform (fun _ => 1), true, false⟩

/-- C102 (finding): with a negative top layer mass the result does depend on another cell: the erosion of the
second cell is discarded when the first one receives more than its top layer holds. -/
theorem C102_negative_not_local :
    (gridUpdate negativeBedParams (fun _ => .uniform (fun _ => 1)) (negativeBed 5) 1).zb = 0 ∧
    (gridUpdate negativeBedParams (fun _ => .uniform (fun _ => 1)) (negativeBed 0) 1).zb = -1 / 2 := by
  decide +kernel

/-- The hypothesis of `C102_cell_by_cell` in the first of the two cells; the whole bed is replaced there. -/
example : 0 ≤ ∑ f, ((negativeBed 5) 0).mass 0 f ∧
    (gridUpdate negativeBedParams (fun _ => .uniform (fun _ => 1)) (negativeBed 5) 0).mass 1 0 = 1 := by
  decide +kernel

example : gridUpdate negativeBedParams (fun _ => .uniform (fun _ => 1)) (negativeBed 5) 0
    = update negativeBedParams (negativeBed 5 0) :=
  C102_cell_by_cell negativeBedParams _ _ 0 (by norm_num [negativeBed])

/-- The same cell alone on a grid of one cell. -/
example : gridUpdate negativeBedParams (fun _ => .uniform (fun _ => 1)) (negativeBed 5) 0
    = gridUpdate negativeBedParams (fun _ : Fin 1 => .uniform (fun _ => 1)) (fun _ => negativeBed 5 0) 0 :=
  C102_local negativeBedParams _ _ _ _ 0 0 rfl rfl (by norm_num [negativeBed])

end Aeolis.Props
