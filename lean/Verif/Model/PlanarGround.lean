import Verif.Model.HydroStep
import Verif.Model.Whole

/-!
Model of the water levels and the groundwater in a time step on a grid of several rows, aeolis/hydro.py:44-313, 417-481 as called by
aeolis/model.py:297-298.  The rows only meet in the boundary values at the shoreline: `Boussinesq` takes the shoreline of the row before.
-/

namespace Aeolis.Hydro

open Aeolis.Whole

noncomputable section

open Classical

variable {ny : ℕ}

/-- What differs between the rows: cell sizes, mask of the groundwater and coordinates. Models aeolis/hydro.py:283-303. -/
structure GroundRow where
  ds : ℕ → ℝ
  mask : ℕ → ℝ × ℝ
  x : ℕ → ℝ

/-- Configuration of the groundwater in a row. Models aeolis/hydro.py:243-313. -/
def GroundIn.inRow (G : GroundIn) (g : GroundRow) : GroundIn := { G with ds := g.ds, mask := g.mask, x := g.x }

/-- Index of the row before, that of the last row for the first. `shl_ix[i-1]` in aeolis/hydro.py:426. -/
def rowBefore (i : Fin (ny + 1)) : Fin (ny + 1) := i - 1

/-- What a groundwater step takes from the water levels in row `i`. Models aeolis/hydro.py:262-267, 292-299, 424-426. -/
def gridForcing (c : WaterConfig) (r : Fin (ny + 1) → Row) (G : GroundIn) (g : Fin (ny + 1) → GroundRow) (w : Fin (ny + 1) → Water)
    (i : Fin (ny + 1)) : Ground.Forcing ℝ :=
  ⟨(w i).DSWL, firstDry G (r i) (w i) - 1, firstDry G (r (rowBefore i)) (w (rowBefore i)) - 1,
    if c.processWave then Ground.infiltrated (g i).x G.n (firstDry G (r i) (w i) - 1) (firstAbove G (r i) (w i)) else fun _ => 0⟩

/-- A groundwater step at time `t` in all rows, aeolis/hydro.py:259-313.  One row with the shoreline in the first cell or before it makes
`Boussinesq` raise `ValueError` (see `groundSub`). -/
def gridSub (c : WaterConfig) (r : Fin (ny + 1) → Row) (G : GroundIn) (g : Fin (ny + 1) → GroundRow) (dtgw t : ℝ)
    (s : Fin (ny + 1) → Water × (ℕ → ℝ)) : Except PyErr (Fin (ny + 1) → Water × (ℕ → ℝ)) :=
  match collect fun i => interpolate c (r i) t (s i).1 with
  | .error e => .error e
  | .ok w =>
    match Ground.boundary G.boundary with
    | .error e => .error e
    | .ok b =>
      if ∃ i, firstDry G (r i) (w i) ≤ 1 then .error .valueError
      else .ok fun i => (w i, Ground.gwStep G.cfg b G.n dtgw (g i).ds (r i).zb (g i).mask (gridForcing c r G g w i) (s i).2)

/-- The groundwater steps number `k, k+1, ..., k+m-1`, aeolis/hydro.py:258-313. -/
def gridSubs (c : WaterConfig) (r : Fin (ny + 1) → Row) (G : GroundIn) (g : Fin (ny + 1) → GroundRow) (dtgw t : ℝ) :
    ℕ → ℕ → (Fin (ny + 1) → Water × (ℕ → ℝ)) → Except PyErr (Fin (ny + 1) → Water × (ℕ → ℝ))
  | _, 0, s => .ok s
  | k, m + 1, s =>
    match gridSub c r G g dtgw (t + k * dtgw) s with
    | .error e => .error e
    | .ok s => gridSubs c r G g dtgw t (k + 1) m s

/-- The array `gw_prev` after the groundwater steps, aeolis/hydro.py:254, 283 (see `previousLevel`). -/
def gridPrevious (c : WaterConfig) (r : Fin (ny + 1) → Row) (G : GroundIn) (t : ℝ) (m : ℕ) (w : Fin (ny + 1) → Water)
    (gw : Fin (ny + 1) → ℕ → ℝ) : Fin (ny + 1) → ℕ → ℝ :=
  if m = 0 then gw
  else
    match collect fun i => interpolate c (r i) t (w i), Ground.boundary G.boundary with
    | .ok w, .ok b => fun i => Ground.conditioned G.cfg b G.n (firstDry G (r i) (w i) - 1)
        (firstDry G (r (rowBefore i)) (w (rowBefore i)) - 1) (w i).DSWL (r i).zb (gw i)
    | _, _ => gw

/-- The groundwater part of `update`, aeolis/hydro.py:243-313. -/
def gridGround (c : WaterConfig) (r : Fin (ny + 1) → Row) (G : GroundIn) (g : Fin (ny + 1) → GroundRow) (t dt : ℝ)
    (s : Fin (ny + 1) → HydroState) : Except PyErr (Fin (ny + 1) → HydroState) :=
  if G.on then
    let gw := fun i => if t = G.tstart then fun _ => G.inGw else (s i).gw
    let prev := fun i => if t = G.tstart then gw i else (s i).gwPrev
    let wetting := fun i j => decide (prev i j < gw i j)
    match Ground.substeps dt G.tfac with
    | .error e => .error e
    | .ok (dtgw, m) =>
      match gridSubs c r G g dtgw t 0 m fun i => ((s i).water, gw i) with
      | .error e => .error e
      | .ok x => .ok fun i => ⟨(x i).1, (x i).2, gridPrevious c r G t m (fun i => (s i).water) gw i, wetting i⟩
  else .ok s

/-- Water levels and groundwater of all rows in a time step, aeolis/model.py:297-298. -/
def gridStep (c : WaterConfig) (r : Fin (ny + 1) → Row) (G : GroundIn) (g : Fin (ny + 1) → GroundRow) (t dt : ℝ)
    (s : Fin (ny + 1) → HydroState) : Except PyErr (Fin (ny + 1) → HydroState) :=
  match collect fun i => interpolate c (r i) t (s i).water with
  | .error e => .error e
  | .ok w => gridGround c r G g t dt fun i => { s i with water := w i }

end

end Aeolis.Hydro
