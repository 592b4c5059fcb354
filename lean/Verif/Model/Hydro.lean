import Verif.Model.Interp
import Verif.Model.Utils
import Verif.Model.State
import Verif.Model.PyStr
import Mathlib.Analysis.SpecialFunctions.Pow.Real
import Mathlib.Analysis.SpecialFunctions.Log.Base
import Mathlib.Analysis.SpecialFunctions.Trigonometric.Basic
import Mathlib.Algebra.Order.Archimedean.Real.Basic

/-!
Model of the hydrodynamic conditions, aeolis/hydro.py:44-213 and 625-670.

* Rows of the grid are treated separately by the code (the runup uses the first cell of the row), so the
  model is one row with any number of cells (`ℕ → ℝ`).
* Water levels and waves delivered by an external model (`external_vars`, aeolis/hydro.py:80-103,137-140,166-176)
  are modelled in `Verif.Model.Coupled`.
-/

namespace Aeolis.Hydro

noncomputable section

/-- Configuration read by `interpolate`. Models aeolis/hydro.py:44-213. -/
structure WaterConfig where
  processTide : Bool
  processWave : Bool
  processRunup : Bool
  /-- time and level, `none` without file -/
  tideFile : Option (List (ℝ × ℝ))
  /-- time, height and period, `none` without file -/
  waveFile : Option (List (ℝ × ℝ × ℝ))
  gamma : ℝ
  beachSlope : ℝ

/-- Bed level and masks of a row.  `runupMask = none`: no file, the mask is the number 1 and is not applied
(aeolis/hydro.py:159). -/
structure Row where
  zb : ℕ → ℝ
  tideMask : ℕ → ℝ × ℝ
  waveMask : ℕ → ℝ × ℝ
  runupMask : Option (ℕ → ℝ × ℝ)

/-- Water levels and waves in a row. Models aeolis/hydro.py:44-213. -/
structure Water where
  SWL : ℕ → ℝ
  Hs : ℕ → ℝ
  Tp : ℕ → ℝ
  R : ℕ → ℝ
  eta : ℕ → ℝ
  sigma : ℕ → ℝ
  TWL : ℕ → ℝ
  DSWL : ℕ → ℝ
  Hsmix : ℕ → ℝ
  zs : ℕ → ℝ

/-- Deep water wave length, aeolis/hydro.py:636,652. -/
def waveLength (Tp : ℝ) : ℝ := 9.81 * Tp * Tp / (2 * Real.pi)

/-- Iribarren number, aeolis/hydro.py:637,653; for a zero wave length numpy divides by infinity. -/
def iribarren (Ho Tp beta : ℝ) : ℝ :=
  if waveLength Tp = 0 then 0 else beta / Real.sqrt (Ho / waveLength Tp)

/-- Setup, swash and runup for dissipative conditions, aeolis/hydro.py:640-642,656-658. -/
def dissipative (Ho Tp : ℝ) : ℝ × ℝ × ℝ :=
  let q := Real.sqrt (Ho * waveLength Tp)
  let R := 0.043 * q
  let sigma := 0.046 * q / 2
  (R - sigma, sigma, R)

/-- Setup, swash and runup otherwise, aeolis/hydro.py:646-648,662-664. -/
def reflective (Ho Tp beta : ℝ) : ℝ × ℝ × ℝ :=
  let eta := 0.35 * beta * Real.sqrt (Ho * waveLength Tp)
  let sigma := Real.sqrt (Ho * waveLength Tp * (0.563 * (beta * beta) + 0.0004)) * 2 / 2 / 2
  (eta, sigma, 1.1 * (eta + sigma))

/-- `calc_runup_stockdon` for numbers, aeolis/hydro.py:651-670: setup, swash, runup. -/
def stockdon (Ho Tp beta : ℝ) : ℝ × ℝ × ℝ :=
  if 0 < Ho ∧ 0 < Tp ∧ 0 < beta then
    if iribarren Ho Tp beta < 0.3 then dissipative Ho Tp else reflective Ho Tp beta
  else (0, 0, 0)

/-- `calc_runup_stockdon` for arrays, aeolis/hydro.py:632-648, for one element. -/
def stockdonArray (Ho Tp beta : ℝ) : ℝ × ℝ × ℝ :=
  let r : ℝ × ℝ × ℝ := (0, 0, 0)
  let r := if 0 < Ho ∧ iribarren Ho Tp beta < 0.3 then dissipative Ho Tp else r
  if 0 < Ho ∧ 0.3 < iribarren Ho Tp beta then reflective Ho Tp beta else r

/-- Interpolated value of a series; an empty series raises `ValueError`.
Used in the code at aeolis/hydro.py:70-119. -/
def series (ts : List (ℝ × ℝ)) (t : ℝ) : Except PyErr ℝ :=
  match interpCircular ts t with
  | none => .error .valueError
  | some v => .ok v

/-- Still water level, aeolis/hydro.py:67-79,105-106. -/
def stillWater (c : WaterConfig) (r : Row) (t : ℝ) : Except PyErr (ℕ → ℝ) :=
  if c.processTide then
    match c.tideFile with
    | none => .ok fun j => applyMask (r.tideMask j) 0
    | some ts =>
      match series ts t with
      | .error e => .error e
      | .ok v => .ok fun j => applyMask (r.tideMask j) v
  else .ok fun j => r.zb j * 0

/-- Wave height and period, aeolis/hydro.py:110-135. -/
def waves (c : WaterConfig) (r : Row) (t : ℝ) (SWL : ℕ → ℝ) : Except PyErr ((ℕ → ℝ) × (ℕ → ℝ)) :=
  match c.processWave, c.waveFile with
  | true, some ts =>
    match series (ts.map fun x => (x.1, x.2.1)) t, series (ts.map fun x => (x.1, x.2.2)) t with
    | .ok H, .ok T =>
      .ok (fun j => applyMask (r.waveMask j) (min (max 0 (SWL j - r.zb j) * c.gamma) H),
        fun j => applyMask (r.waveMask j) T)
    | .error e, _ => .error e
    | _, .error e => .error e
  | _, _ => .ok (fun j => r.zb j * 0, fun j => r.zb j * 0)

/-- Runup, aeolis/hydro.py:143-164; levels are left as they are if runup is off. -/
def runup (c : WaterConfig) (r : Row) (w : Water) : Water :=
  if c.processRunup then
    let e := stockdon (w.Hs 0) (w.Tp 0) c.beachSlope
    let mask := fun (v : ℝ) (j : ℕ) => match r.runupMask with
      | none => v
      | some m => applyMask (m j) v
    { w with
      R := mask e.2.2, eta := mask e.1, sigma := fun _ => e.2.1,
      TWL := fun j => w.SWL j + mask e.2.2 j,
      DSWL := fun j => w.SWL j + mask e.1 j }
  else w

/-- Wave height for mixing, aeolis/hydro.py:179-190. -/
def mixing (c : WaterConfig) (r : Row) (t : ℝ) (w : Water) : Except PyErr (ℕ → ℝ) :=
  match c.processWave, c.waveFile with
  | true, some ts =>
    match series (ts.map fun x => (x.1, x.2.1)) t with
    | .error e => .error e
    | .ok H =>
      .ok fun j => applyMask (r.waveMask j) (min (max 0 (w.TWL j - r.zb j) * c.gamma) H)
  | _, _ => .ok w.Hsmix

/-- `interpolate`, aeolis/hydro.py:44-213, without the meteorological series. -/
def interpolate (c : WaterConfig) (r : Row) (t : ℝ) (w : Water) : Except PyErr Water :=
  match stillWater c r t with
  | .error e => .error e
  | .ok SWL =>
    match waves c r t SWL with
    | .error e => .error e
    | .ok (Hs, Tp) =>
      let w := runup c r { w with SWL := SWL, Hs := Hs, Tp := Tp }
      match mixing c r t w with
      | .error e => .error e
      | .ok Hsmix =>
        .ok { w with Hsmix := Hsmix, zs := fun j => if w.SWL j < r.zb j then r.zb j else w.SWL j }

end

end Aeolis.Hydro
