import Verif.Model.Wind
import Mathlib.Analysis.SpecialFunctions.Exp

/-!
Model of the sheltering by plants and fences, aeolis/vegetation.py:75-83,184-291 and aeolis/fences.py:49-82,458-532.
-/

namespace Aeolis.Lee

open Aeolis.Wind

noncomputable section

/-- Wind direction used by `vegshear_okin`, aeolis/vegetation.py:198,208-212. -/
def plantDir (udir : ℝ) : ℝ :=
  let u := udir + 180
  let u := if u < 0 then u + 360 else u
  if 360 < u then u - 360 else u

/-- Wind direction used by `fence_shear1d`, aeolis/fences.py:469,479-483. -/
def fenceDir (udir : ℝ) : ℝ :=
  let u := udir + 180
  let u := if u < 360 then u + 360 else u
  if 360 < u then u - 360 else u

/-- Distance of a cell at `x` behind an element at `xi`, aeolis/vegetation.py:221-224, aeolis/fences.py:493-496. -/
def distanceBehind (dir xi x : ℝ) : ℝ := if 180 ≤ dir ∧ dir ≤ 360 then -(x - xi) else x - xi

open Classical in
/-- Reduction of the shear velocity at distance `xrel` behind an element of height `h`, aeolis/vegetation.py:226-241,
aeolis/fences.py:498-513. -/
def reduction (c1 intercept h xrel : ℝ) : ℝ :=
  let mult := if 0 ≤ xrel ∧ xrel / h < 20 then
      intercept + (1 - intercept) * (1 - Real.exp (-xrel * c1 / h)) else 1
  let red := 1 - mult
  let red := if red < 0.00001 then 0 else red
  let red := if 1 < red then 1 else red
  if xrel < 0 then 0 else red

open Classical in
/-- Combined reduction in cell `j` of a transect of `n` cells, aeolis/vegetation.py:215-248, aeolis/fences.py:487-520. -/
def totalReduction (c1 intercept dir : ℝ) (n : ℕ) (x height : ℕ → ℝ) (j : ℕ) : ℝ :=
  let all := (List.range n).foldl (fun all i =>
    if 0 < height i then all + reduction c1 intercept (height i) (distanceBehind dir (x i) (x j)) else all) 0
  if 1 < all then 1 else all

open Classical in
/-- `vegshear_okin` (with `plantDir`) and `fence_shear1d` (with `fenceDir`), aeolis/vegetation.py:184-260, aeolis/fences.py:458-532.
Only the shear velocity is changed. -/
def okin (c1 intercept dir : ℝ) (n : ℕ) (x height : ℕ → ℝ) (c : ℕ → Shear) (j : ℕ) : Shear :=
  let ets := if (c j).ustar ≠ 0 then (c j).ustars / (c j).ustar else 0
  let etn := if (c j).ustar ≠ 0 then (c j).ustarn / (c j).ustar else 0
  let u := (c j).ustar * (1 - totalReduction c1 intercept dir n x height j)
  let u := if u < 0.01 then 0.01 else u
  { c j with ustar := u, ustars := u * ets, ustarn := u * etn }

/-- Raupach's factor before smoothing, aeolis/vegetation.py:276-279. -/
def raupachFactor (roughness rho : ℝ) : ℝ := 1 / Real.sqrt (1 + roughness * rho)

open Classical in
/-- `vegshear_raupach`, aeolis/vegetation.py:263-291, in one of `N` cells. `w` holds the weights with which
`ndimage.gaussian_filter` combines the cells (not modelled). -/
def raupach {N : ℕ} (roughness : ℝ) (w : Fin N → Fin N → ℝ) (rho : Fin N → ℝ) (c : Fin N → Shear) (i : Fin N) : Shear :=
  let ets := if (c i).ustar ≠ 0 then (c i).ustars / (c i).ustar else 0
  let etn := if (c i).ustar ≠ 0 then (c i).ustarn / (c i).ustar else 0
  let vegfac := ∑ k, w i k * raupachFactor roughness (rho k)
  let u := (c i).ustar * vegfac
  { c i with ustar := u, ustars := u * ets, ustarn := u * etn }

/-- A fence in a cell: height, initial height, top level. Models aeolis/fences.py:49-82. -/
structure Fence where
  height : ℝ
  init : ℝ
  top : ℝ

/-- `fences.initialize`, aeolis/fences.py:49-56. -/
def fenceInit (file zb : ℝ) : Fence := ⟨file, file, zb + file⟩

open Classical in
/-- `update_fence_height`, aeolis/fences.py:68-82. -/
def fenceUpdate (zb : ℝ) (f : Fence) : Fence :=
  let h := f.top - zb
  let h := if f.init < 0.1 then 0 else h
  let h := if f.top < 0.1 then 0 else h
  let h := if h < 0.1 then 0 else h
  if 1.5 < h then { f with height := 0, init := 0 } else { f with height := h }

/-- Fence after a history of bed levels. Repetition of aeolis/fences.py:68-82. -/
def fenceRun (file zb0 : ℝ) (beds : List ℝ) : Fence := beds.foldl (fun f zb => fenceUpdate zb f) (fenceInit file zb0)

end

end Aeolis.Lee
