import Verif.Model.State
import Verif.Model.PyStr
import Mathlib.Analysis.SpecialFunctions.Pow.Real
import Mathlib.Analysis.SpecialFunctions.Log.Base

/-!
Model of the soil moisture and salt content, aeolis/hydro.py:316-412 and 484-622.  All expressions are
applied cell by cell, the model is one cell.
-/

namespace Aeolis.Moisture

noncomputable section

/-- Configuration of the soil moisture. Models aeolis/hydro.py:316-412. -/
structure Config where
  processMoist : Bool
  processScanning : Bool
  processSalt : Bool
  method : String
  porosity : ℝ
  eps : ℝ
  Tdry : ℝ
  Tsalt : ℝ
  fc : ℝ
  thick : ℝ
  layerThickness : ℝ
  satw : ℝ
  satd : ℝ
  resw : ℝ
  resd : ℝ
  alfaw : ℝ
  alfad : ℝ
  nw : ℝ
  nd : ℝ
  mw : ℝ
  md : ℝ
  cpair : ℝ
  /-- height of the wind measurements -/
  z : ℝ

/-- Meteorological conditions: temperature, radiation, pressure, humidity, precipitation.
Models aeolis/hydro.py:341-347,550-579. -/
structure Meteo where
  T : ℝ
  Q : ℝ
  P : ℝ
  U : ℝ
  RH : ℝ

/-- Conditions in the cell: total water level, bed level, groundwater now and before, was the groundwater
rising in the previous step, wind speed. Models aeolis/hydro.py:316-412. -/
structure Input where
  twl : ℝ
  zb : ℝ
  gw : ℝ
  gwPrev : ℝ
  wetting : Bool
  uw : ℝ

/-- Moisture state of the cell. Models aeolis/hydro.py:316-412. -/
structure Cell where
  moist : ℝ
  moistSwr : ℝ
  hDelta : ℝ
  scanW : Bool
  scanD : Bool
  wH : ℝ
  wHdelta : ℝ
  dH : ℝ
  dHdelta : ℝ
  scanWMoist : ℝ
  scanDMoist : ℝ
  /-- salt content of the top layer -/
  salt : ℝ

/-- Decay rate with half-life `T`, aeolis/hydro.py:320,333,406. -/
def decayRate (T : ℝ) : ℝ := -Real.log 0.5 / T

/-- Infiltration method, aeolis/hydro.py:319-325. -/
def infiltration (c : Config) (dt : ℝ) (x : Input) (moist : ℝ) : ℝ :=
  let m := if c.eps < x.twl - x.zb then c.porosity else moist * Real.exp (-decayRate c.Tdry * dt)
  max 0 (min c.porosity m)

/-- Saturation pressure, aeolis/hydro.py:621. -/
def saturationPressure (T : ℝ) : ℝ := 0.6108 * Real.exp (17.27 * T / (T + 237.3))

/-- Slope of the vapour pressure, aeolis/hydro.py:600. -/
def vaporationPressureSlope (T : ℝ) : ℝ := 4098 * saturationPressure T / (T + 237.3) ^ 2

/-- Penman evaporation in mm per day, aeolis/hydro.py:572-579. -/
def evaporation (c : Config) (met : Meteo) (uw : ℝ) : ℝ :=
  let l : ℝ := 2.26
  let m := vaporationPressureSlope met.T
  let delta := saturationPressure met.T * (1 - met.U / 100)
  let gamma := c.cpair * met.P / (0.622 * l)
  let u2 := 0.174 / Real.logb 10 (c.z / 2) * uw
  (m * met.Q + 6.43 * gamma * delta * (1 + 0.86 * u2)) / (l * (m + gamma))

/-- Van Genuchten retention curve, aeolis/hydro.py:357,366,369,372,375,389,391. -/
def retention (res sat alfa n m h : ℝ) : ℝ := res + (sat - res) / (1 + |alfa * h| ^ n) ^ m

/-- Main wetting curve. Models aeolis/hydro.py:357,366,389. -/
def wettingCurve (c : Config) (h : ℝ) : ℝ := retention c.resw c.satw c.alfaw c.nw c.mw h

/-- Main drying curve. Models aeolis/hydro.py:369,391. -/
def dryingCurve (c : Config) (h : ℝ) : ℝ := retention c.resd c.satd c.alfad c.nd c.md h

/-- Distance to the groundwater in cm, aeolis/hydro.py:352. -/
def depth (x : Input) : ℝ := max 0 ((x.zb - x.gw) * 100)

/-- `F_hdelta` after `k+1` rounds of the search in `hdelta`, aeolis/hydro.py:505-508. -/
def searchValue (c : Config) (s : Cell) (k : ℕ) : ℝ :=
  let h : ℝ := 0.01 * (k + 1)
  let w := wettingCurve c h
  let d := dryingCurve c h
  s.wH + (c.satw - s.wH) / max (c.satw - w) 0.0001 * (d - w) - s.scanDMoist

open Classical in
/-- The search loop of `hdelta`, aeolis/hydro.py:502-510; `none` if the loop runs for ever. -/
def search (c : Config) (s : Cell) : Option ℝ :=
  if h : ∃ k, ¬ 0.01 < searchValue c s k then some (0.01 * (Nat.find h + 1)) else none

/-- Suction head at a reversal on the wetting scanning curve, aeolis/hydro.py:494-497.  (For `1/alfaw` with
`alfaw = 0` and for a zero `d_h - w_h` the code divides by zero.) -/
def reversalWetting (c : Config) (s : Cell) : ℝ :=
  let wInt := min ((s.scanWMoist - s.wH) * (c.satd - s.wH) / (s.dH - s.wH) + s.wH) c.satw
  max (1 / c.alfaw * (((c.satw - c.resw) / max (wInt - c.resw) 0.00001) ^ (1 / c.mw) - 1) ^ (1 / c.nw)) 0

/-- `hdelta`, aeolis/hydro.py:484-512; `none` if it does not return. -/
def hdelta (c : Config) (x : Input) (s : Cell) : Option ℝ :=
  let h :=
    if (s.scanW = false ∧ x.wetting = true ∧ x.gw < x.gwPrev) ∨
        (s.scanD = false ∧ x.wetting = false ∧ x.gwPrev < x.gw) then
      depth x
    else s.hDelta
  let h := if s.scanW = true ∧ x.wetting = true ∧ x.gw < x.gwPrev then reversalWetting c s else h
  if s.scanD = true ∧ x.wetting = false ∧ x.gwPrev < x.gw then search c s else some h

open Classical in
/-- `SWR_curve`, aeolis/hydro.py:514-548: moisture, drying flag, wetting flag. -/
def swrCurve (x : Input) (s : Cell) : ℝ × Bool × Bool :=
  if x.gwPrev ≤ x.gw ∧ x.wetting = true ∧ s.scanW = false then
    (s.wH, false, false)
  else if x.gwPrev ≤ x.gw ∧ x.wetting = false then
    (s.scanWMoist, false, decide (s.wH < s.scanWMoist))
  else if x.gwPrev ≤ x.gw ∧ x.wetting = true ∧ s.scanW = true then
    (s.scanWMoist, false, decide (s.wH < s.scanWMoist))
  else if x.gw < x.gwPrev ∧ x.wetting = false ∧ s.scanD = false then
    (s.dH, false, false)
  else if x.gw < x.gwPrev ∧ x.wetting = true then
    (s.scanDMoist, decide (s.scanDMoist < s.dH), false)
  else if x.gw < x.gwPrev ∧ x.wetting = false ∧ s.scanD = true then
    (s.scanDMoist, decide (s.scanDMoist < s.dH), false)
  else (s.moistSwr, s.scanD, s.scanW)

/-- Scanning branch for `t ≠ 0`, aeolis/hydro.py:362-385; `none` if the search for the suction head does not
end. -/
def scanning (c : Config) (x : Input) (s : Cell) : Option Cell :=
  match hdelta c x s with
  | none => none
  | some hd =>
    let h := depth x
    let wH := wettingCurve c h
    let wHd := wettingCurve c hd
    let dH := dryingCurve c h
    let dHd := dryingCurve c hd
    let sw := max (min (wH + (c.satw - wH) / max (c.satw - wHd) 0.0001 * (dHd - wHd)) dH) wH
    let sd := max (min (wH + (wHd - wH) / max (c.satd - wH) 0.0001 * (dH - wH)) dH) wH
    let s := { s with hDelta := hd, wH := wH, wHdelta := wHd, dH := dH, dHdelta := dHd,
                      scanWMoist := sw, scanDMoist := sd }
    let r := swrCurve x s
    some { s with moistSwr := r.1, scanD := r.2.1, scanW := r.2.2 }

open Classical in
/-- Capillary moisture, aeolis/hydro.py:354-392.  At `t = 0` the flags are compared, not assigned
(aeolis/hydro.py:360-361: `==`), so they are left as they are. -/
def capillary (c : Config) (t : ℝ) (x : Input) (s : Cell) : Option Cell :=
  if c.processScanning then
    if t = 0 then some { s with moistSwr := wettingCurve c (depth x), hDelta := depth x }
    else scanning c x s
  else some { s with moistSwr := if x.wetting then wettingCurve c (depth x) else dryingCurve c (depth x) }

/-- Surface moisture method, aeolis/hydro.py:328-395.  The test `process_groundwater is None` (aeolis/hydro.py:329) is not
modelled. -/
def surface (c : Config) (t dt : ℝ) (met : Meteo) (x : Input) (s : Cell) : Option Cell :=
  let m := s.moist + min 0 ((s.moist - c.fc) * (Real.exp (-decayRate c.Tdry * dt) - 1))
  let m := if x.zb < x.twl then c.satd else m
  let evo := evaporation c met x.uw / 24 / 3600 / 1000
  let pcp := met.RH / 3600 / 1000
  let m := if x.zb < x.twl then m else min (max (m + (pcp - evo) * dt / c.thick) c.resw) c.satd
  match capillary c t x { s with moist := m } with
  | none => none
  | some s => some { s with moist := min (max s.moist s.moistSwr) c.satd }

/-- Salt content of the top layer, aeolis/hydro.py:406-410. -/
def salting (c : Config) (dt : ℝ) (met : Meteo) (flooded : Prop) [Decidable flooded] (salt : ℝ) : ℝ :=
  let v := if flooded then 1 else salt * Real.exp (-decayRate c.Tsalt * dt)
  min 1 (v + met.RH / 3600 / 1000 * dt / c.layerThickness)

/-- Moisture part of `update`, aeolis/hydro.py:316-400; the second result is the local array `ix`, `none` if it was
never assigned.  `met = none`: no meteorological conditions were read. -/
def moisture (c : Config) (t dt : ℝ) (met : Option Meteo) (x : Input) (s : Cell) :
    Option (Except PyErr (Cell × Option Prop)) :=
  if c.processMoist then
    if lower c.method = "infiltration" then
      some (.ok ({ s with moist := infiltration c dt x s.moist }, some (c.eps < x.twl - x.zb)))
    else if lower c.method = "surf_moisture" then
      match met with
      | none => some (.error .keyError)
      | some met =>
        match surface c t dt met x s with
        | none => none
        | some s => some (.ok (s, some (x.zb < x.twl)))
    else some (.error .valueError)
  else some (.ok (s, none))

open Classical in
/-- `update` without the groundwater, aeolis/hydro.py:316-412.  Outer `none`: does not return.  An unassigned `ix`
raises `UnboundLocalError`, a `NameError`. -/
def update (c : Config) (t dt : ℝ) (met : Option Meteo) (x : Input) (s : Cell) :
    Option (Except PyErr Cell) :=
  match moisture c t dt met x s with
  | none => none
  | some (.error e) => some (.error e)
  | some (.ok (s, ix)) =>
    if c.processSalt then
      match met, ix with
      | none, _ => some (.error .keyError)
      | some _, none => some (.error .nameError)
      | some met, some flooded => some (.ok { s with salt := salting c dt met flooded s.salt })
    else some (.ok s)

end

end Aeolis.Moisture
