import Verif.Model.Hydro

/-!
Model of the water levels and waves of a run coupled to another model, which writes some of them into the state (parameter
`external_vars`), aeolis/hydro.py:66-213.  Unlike in `Verif.Model.Hydro` the whole grid is needed: cells are pairs of row and column; a
state of the grid is one `Water` per row.

`scipy.interpolate.NearestNDInterpolator` (an external library) is modelled by any function that returns a nearest wet cell.  Without wet
cells it fails or gives no number, depending on its version: there is no result then.
-/

namespace Aeolis.Hydro

noncomputable section

open Classical

/-- Configuration of a coupled run: that of `interpolate`, which variables come from the other model, grid size and tolerance.
Models aeolis/hydro.py:66-176. -/
structure CoupledConfig where
  water : WaterConfig
  extZs : Bool
  extHs : Bool
  extTp : Bool
  rows : ℕ
  cols : ℕ
  eps : ℝ
  /-- nearest cell of a set, the interpolator of aeolis/hydro.py:93-94 -/
  near : (ℕ × ℕ → Prop) → ℕ × ℕ → ℕ × ℕ

/-- Cell is wet: depth below the masked level above `2 eps`. The mask has changed `s['zs']` in place (aeolis/utils.py:313-316), since
`s['SWL']` is a view of it. Models aeolis/hydro.py:85-89. -/
def extWet (c : CoupledConfig) (g : ℕ → Row) (ws : ℕ → Water) (x : ℕ × ℕ) : Prop :=
  x.1 < c.rows ∧ x.2 < c.cols ∧ 2 * c.eps < applyMask ((g x.1).tideMask x.2) ((ws x.1).zs x.2) - (g x.1).zb x.2

/-- Still water level from the other model, aeolis/hydro.py:82-94; none without wet cells. -/
def extStill (c : CoupledConfig) (g : ℕ → Row) (ws : ℕ → Water) : Option (ℕ → ℕ → ℝ) :=
  if ∃ x, extWet c g ws x then
    some fun i j =>
      let x := c.near (extWet c g ws) (i, j)
      applyMask ((g x.1).tideMask x.2) ((ws x.1).zs x.2)
  else none

/-- Still water level of a row, aeolis/hydro.py:66-106; without tides that of the other model is not used. The outer option is none if
there is no number. -/
def coupledStill (c : CoupledConfig) (g : ℕ → Row) (t : ℝ) (ws : ℕ → Water) (i : ℕ) : Option (Except PyErr (ℕ → ℝ)) :=
  if c.water.processTide ∧ c.extZs then
    match extStill c g ws with
    | none => none
    | some S => some (.ok (S i))
  else some (stillWater c.water (g i) t)

/-- Waves of a row, aeolis/hydro.py:108-140: if heights or periods come from the other model both are only masked (in place). -/
def coupledWaves (c : CoupledConfig) (r : Row) (t : ℝ) (SWL : ℕ → ℝ) (w : Water) : Except PyErr ((ℕ → ℝ) × (ℕ → ℝ)) :=
  if c.extHs ∨ c.extTp then
    .ok (fun j => applyMask (r.waveMask j) (w.Hs j), fun j => applyMask (r.waveMask j) (w.Tp j))
  else waves c.water r t SWL

/-- Runup of a row, aeolis/hydro.py:143-176: for wave heights from the other model in each cell, with the array form of the formula; the
setup is masked but not assigned. -/
def coupledRunup (c : CoupledConfig) (r : Row) (w : Water) : Water :=
  if c.extHs then
    if c.water.processRunup then
      let e := fun j => stockdonArray (w.Hs j) (w.Tp j) c.water.beachSlope
      let mask := fun (v : ℕ → ℝ) (j : ℕ) => match r.runupMask with
        | none => v j
        | some m => applyMask (m j) (v j)
      let R := mask fun j => (e j).2.2
      { w with R := R, eta := mask w.eta, TWL := fun j => w.SWL j + R j, DSWL := w.SWL }
    else w
  else runup c.water r w

/-- A row of `interpolate`, aeolis/hydro.py:44-213. -/
def coupledRow (c : CoupledConfig) (g : ℕ → Row) (t : ℝ) (ws : ℕ → Water) (i : ℕ) : Option (Except PyErr Water) :=
  match coupledStill c g t ws i with
  | none => none
  | some (.error e) => some (.error e)
  | some (.ok SWL) =>
    match coupledWaves c (g i) t SWL (ws i) with
    | .error e => some (.error e)
    | .ok (Hs, Tp) =>
      let w := coupledRunup c (g i) { ws i with SWL := SWL, Hs := Hs, Tp := Tp }
      match mixing c.water (g i) t w with
      | .error e => some (.error e)
      | .ok Hsmix =>
        some (.ok { w with Hsmix := Hsmix, zs := fun j => if w.SWL j < (g i).zb j then (g i).zb j else w.SWL j })

/-- The other model writes its variables, then the levels are interpolated at the given times (once per time step and once per groundwater
step, aeolis/model.py:297, aeolis/hydro.py:258-260), for row `i`; none of them fails. -/
inductive CoupledRun (c : CoupledConfig) (g : ℕ → Row) : List ℝ → (ℕ → Water) → (ℕ → Water) → Prop
  | nil (ws) : CoupledRun c g [] ws ws
  | cons (t ts ws ws1 ws2) (h : ∀ i, coupledRow c g t ws i = some (.ok (ws1 i))) (hr : CoupledRun c g ts ws1 ws2) :
      CoupledRun c g (t :: ts) ws ws2

end

end Aeolis.Hydro
