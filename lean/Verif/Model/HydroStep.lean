import Verif.Model.Hydro
import Verif.Model.Groundwater

/-!
Model of the water levels and the groundwater in a time step on a transect, aeolis/hydro.py:44-313 as called by aeolis/model.py:294-295:
the water levels are interpolated to the current time, and again in every groundwater step.
-/

namespace Aeolis.Hydro

noncomputable section

open Classical

/-- `np.argmax` of a comparison in a row of `n` cells: the first cell where it holds, 0 if there is none. Used in the code at
aeolis/hydro.py:263, 267. -/
def firstCell (n : ℕ) (p : ℕ → Prop) : ℕ := if h : ∃ j, j < n ∧ p j then Nat.find h else 0

/-- Configuration of the groundwater on a transect of `n ≥ 4` cells. Models aeolis/hydro.py:243-313. -/
structure GroundIn where
  on : Bool
  cfg : Ground.Config ℝ
  boundary : String
  n : ℕ
  tfac : ℝ
  tstart : ℝ
  inGw : ℝ
  ds : ℕ → ℝ
  mask : ℕ → ℝ × ℝ
  /-- coordinates of the cells -/
  x : ℕ → ℝ

/-- Water levels and groundwater of a transect. Models aeolis/hydro.py:243-313. -/
structure HydroState where
  water : Water
  gw : ℕ → ℝ
  gwPrev : ℕ → ℝ
  wetting : ℕ → Bool

/-- First cell above the set-up level, aeolis/hydro.py:263 (the shoreline is the cell before it). -/
def firstDry (G : GroundIn) (r : Row) (w : Water) : ℕ := firstCell G.n fun j => w.DSWL j < r.zb j

/-- First cell above the total water level, aeolis/hydro.py:267 (the runup limit is the cell before it). -/
def firstAbove (G : GroundIn) (r : Row) (w : Water) : ℕ := firstCell G.n fun j => w.TWL j < r.zb j

/-- What a groundwater step takes from the water levels; on a transect the previous row is the row itself (`shl_ix[i-1]` with `i = 0`).
Models aeolis/hydro.py:262-267, 292-299. -/
def groundForcing (c : WaterConfig) (r : Row) (G : GroundIn) (w : Water) : Ground.Forcing ℝ :=
  ⟨w.DSWL, firstDry G r w - 1, firstDry G r w - 1,
    if c.processWave then Ground.infiltrated G.x G.n (firstDry G r w - 1) (firstAbove G r w) else fun _ => 0⟩

/-- A groundwater step at time `t`, aeolis/hydro.py:259-313.  With the shoreline in the first cell or before it (first cell dry, or no
cell dry) the slices of `Boussinesq` (aeolis/hydro.py:460-464) have different lengths and numba raises `ValueError`. -/
def groundSub (c : WaterConfig) (r : Row) (G : GroundIn) (dtgw t : ℝ) (s : Water × (ℕ → ℝ)) : Except PyErr (Water × (ℕ → ℝ)) :=
  match interpolate c r t s.1 with
  | .error e => .error e
  | .ok w =>
    match Ground.boundary G.boundary with
    | .error e => .error e
    | .ok b =>
      if firstDry G r w ≤ 1 then .error .valueError
      else .ok (w, Ground.gwStep G.cfg b G.n dtgw G.ds r.zb G.mask (groundForcing c r G w) s.2)

/-- The groundwater steps number `i, i+1, ..., i+m-1`, aeolis/hydro.py:258-313. -/
def groundSubs (c : WaterConfig) (r : Row) (G : GroundIn) (dtgw t : ℝ) : ℕ → ℕ → Water × (ℕ → ℝ) → Except PyErr (Water × (ℕ → ℝ))
  | _, 0, s => .ok s
  | i, m + 1, s =>
    match groundSub c r G dtgw (t + i * dtgw) s with
    | .error e => .error e
    | .ok s => groundSubs c r G dtgw t (i + 1) m s

/-- Time to which the conditions of a time step were last interpolated: that of the last groundwater step. Models aeolis/hydro.py:257-260. -/
def lastTime (G : GroundIn) (t dt : ℝ) : ℝ :=
  if G.on then
    match Ground.substeps dt G.tfac with
    | .error _ => t
    | .ok (dtgw, m) => t + ((m - 1 : ℕ) : ℝ) * dtgw
  else t

/-- The array `gw_prev` after the groundwater steps: it is the same object as `gw` at their start (aeolis/hydro.py:254), in which the
first call of `Boussinesq` (aeolis/hydro.py:283) sets the boundary values. -/
def previousLevel (c : WaterConfig) (r : Row) (G : GroundIn) (t : ℝ) (m : ℕ) (w : Water) (gw : ℕ → ℝ) : ℕ → ℝ :=
  if m = 0 then gw
  else
    match interpolate c r t w, Ground.boundary G.boundary with
    | .ok w, .ok b => Ground.conditioned G.cfg b G.n (firstDry G r w - 1) (firstDry G r w - 1) w.DSWL r.zb gw
    | _, _ => gw

/-- The groundwater part of `update`, aeolis/hydro.py:243-313. -/
def groundPart (c : WaterConfig) (r : Row) (G : GroundIn) (t dt : ℝ) (s : HydroState) : Except PyErr HydroState :=
  if G.on then
    let gw := if t = G.tstart then fun _ => G.inGw else s.gw
    let prev := if t = G.tstart then gw else s.gwPrev
    let wetting := fun j => decide (prev j < gw j)
    match Ground.substeps dt G.tfac with
    | .error e => .error e
    | .ok (dtgw, m) =>
      match groundSubs c r G dtgw t 0 m (s.water, gw) with
      | .error e => .error e
      | .ok (w, gw') => .ok ⟨w, gw', previousLevel c r G t m s.water gw, wetting⟩
  else .ok s

/-- Water levels and groundwater in a time step, aeolis/model.py:297-298. -/
def hydroStep (c : WaterConfig) (r : Row) (G : GroundIn) (t dt : ℝ) (s : HydroState) : Except PyErr HydroState :=
  match interpolate c r t s.water with
  | .error e => .error e
  | .ok w => groundPart c r G t dt { s with water := w }

end

end Aeolis.Hydro
