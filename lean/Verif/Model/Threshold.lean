import Verif.Model.XReal
import Verif.Model.State
import Verif.Model.PyStr
import Mathlib.Algebra.BigOperators.Fin
import Mathlib.Analysis.SpecialFunctions.Trigonometric.Basic

/-!
Model of the shear velocity threshold, aeolis/threshold.py, for one grid cell with all its fractions
(every operation of the module treats the cells separately).

* Model parameters that are divisors are taken to be nonzero in the theorems; division of an array by a
  zero parameter gives infinities in numpy, which is not modelled, except for the share of immobile
  mass (`sheltering`).
-/

namespace Aeolis.Threshold

open XR

noncomputable section

/-- Configuration read by `compute` (aeolis/constants.py:153-334). -/
structure Config (nf : ℕ) where
  processThreshold : Bool
  /-- `threshold_file` is given -/
  thresholdFile : Bool
  thGrainsize : Bool
  thBedslope : Bool
  thMoisture : Bool
  processTide : Bool
  thDrylayer : Bool
  thHumidity : Bool
  thSalt : Bool
  thSheltering : Bool
  thNelayer : Bool
  methodMoistThreshold : String
  /-- the configuration file defines the undocumented key `method_moist` -/
  hasMethodMoist : Bool
  Aa : ℝ
  rhog : ℝ
  rhoa : ℝ
  rhow : ℝ
  g : ℝ
  porosity : ℝ
  reswMoist : ℝ
  w15 : ℝ
  csalt : ℝ
  /-- `m` has no default value (commented out, aeolis/constants.py:249) -/
  m : Option ℝ
  beta : ℝ
  sigma : ℝ
  eps : ℝ
  grainSize : Fin nf → ℝ
  grainDist : Fin nf → ℝ

/-- State of a cell read by `compute`. Models aeolis/threshold.py:43-108. -/
structure Cell (nf : ℕ) where
  zb : ℝ
  zs : ℝ
  moist : ℝ
  salt : ℝ
  ustar : ℝ
  /-- mass of the top layer -/
  mass : Fin nf → ℝ
  maskRe : ℝ
  maskIm : ℝ
  /-- level of the non-erodible layer; `none` is NaN (no `ne_file`) -/
  zne : Option ℝ

/-- Thresholds of a cell. Models aeolis/threshold.py:43-108. -/
structure Thr (nf : ℕ) where
  uth : Fin nf → XR
  uthf : Fin nf → XR
  uth0 : Fin nf → XR

variable {nf : ℕ}

/-- `compute_grainsize`, aeolis/threshold.py:111-134. -/
def grainsizeThreshold (c : Config nf) (i : Fin nf) : XR :=
  fin c.Aa * XR.sqrt (fin ((c.rhog - c.rhoa) / c.rhoa * c.g * c.grainSize i))

/-- Gravimetric moisture, aeolis/threshold.py:179. -/
def gravimetric (c : Config nf) (vol : ℝ) : ℝ := vol * c.rhow / (c.rhog * (1 - c.porosity))

/-- The mask `ix` of cells with a moisture correction, aeolis/threshold.py:181. -/
def moistCell (c : Config nf) (moist : ℝ) : Prop :=
  c.reswMoist * c.rhow / (c.rhog * (1 - c.porosity)) + 0.005 < gravimetric c moist

/-- `np.log10` with its values outside the positive numbers. Used in the code at aeolis/threshold.py:185. -/
def log10 (x : ℝ) : XR := if 0 < x then fin (Real.logb 10 x) else if x = 0 then ninf else nan

/-- `np.maximum(1., a)`. Used in the code at aeolis/threshold.py:185. -/
def max1 : XR → XR
  | fin r => fin (max 1 r)
  | pinf => pinf
  | ninf => fin 1
  | nan => nan

/-- Mean grain size, aeolis/threshold.py:197,212,221,229. -/
def meanGrain (c : Config nf) : ℝ := ∑ k, c.grainSize k * c.grainDist k

/-- The coefficient of `dong_2002` for a mean grain size in millimetres, aeolis/threshold.py:198-209. -/
def dongK (d : ℝ) : ℝ :=
  if d < 0.135 then 2.51
  else if d < 0.150 then 2.05
  else if d < 0.200 then 2.75
  else if d < 0.250 then 1.59
  else if d < 0.400 then 1.87
  else 2.15

/-- aeolis/threshold.py:185. -/
def bellyJohnson (mg : ℝ) (uth : XR) : XR := uth * max1 (fin 1.8 + fin 0.6 * log10 (mg * 100))

/-- aeolis/threshold.py:187. -/
def hotta (mg : ℝ) (uth : XR) : XR := uth + fin (7.5 * mg)

/-- aeolis/threshold.py:189. -/
def chepil (c : Config nf) (mg : ℝ) (uth : XR) : XR :=
  XR.sqrt (XR.sq uth + fin (0.6 * mg ^ 2 / (c.rhoa * c.w15 ^ 2)))

/-- aeolis/threshold.py:191. -/
def salehFryear (c : Config nf) (mg : ℝ) (_ : XR) : XR :=
  fin (0.305 + 0.022 * mg / c.w15 + 0.506 * (mg / c.w15) ^ 2)

/-- aeolis/threshold.py:193. -/
def salehFryearMod (c : Config nf) (mg : ℝ) (uth : XR) : XR :=
  uth + fin (0.022 * mg / c.w15 + 0.506 * (mg / c.w15) ^ 2)

/-- aeolis/threshold.py:195. -/
def shao (mg : ℝ) (uth : XR) : XR := uth * fin (Real.exp (22.7 * mg))

/-- aeolis/threshold.py:196-210. -/
def dong2002 (c : Config nf) (mg : ℝ) (uth : XR) : XR :=
  uth * XR.sqrt (fin (1 + dongK (meanGrain c * 1000) * 100 * mg))

/-- aeolis/threshold.py:211-219. -/
def gregoryDarwish (c : Config nf) (mg : ℝ) (uth : XR) : XR :=
  let d := meanGrain c
  let wdiff := max (mg - 0.5 * c.w15) 0
  uth * XR.sqrt (fin (1 + mg + 6 / Real.pi * 6.12e-05 / (c.rhog * c.g * d ^ 2)
    + 738.8 / (c.rhow * c.g * d) * Real.exp (-0.1 * mg / c.w15) * wdiff))

/-- aeolis/threshold.py:220-227. -/
def cornelis (c : Config nf) (mg : ℝ) (_ : XR) : XR :=
  let d := meanGrain c
  XR.sqrt (fin (0.013 * (1 + mg + 1.7e-4 / ((c.rhog - c.rhoa) * c.g * d ^ 2)
    * (1 + 3e14 * 0.075 ^ 2 * d / (10 ^ 9 * Real.exp (-6.5 * mg / c.w15)))
    * (c.rhog - c.rhoa) / c.rhoa * c.g * d)))

/-- aeolis/threshold.py:228-230. -/
def dong2007 (c : Config nf) (mg : ℝ) (_ : XR) : XR :=
  let d := meanGrain c
  fin 0.16 * XR.sqrt (fin ((c.rhog - c.rhoa) / c.rhoa * c.g * d)) * fin (1 + 478.2 * mg ^ (1.52 : ℝ))

/-- The branches of aeolis/threshold.py:184-230 by name (all names differ, so the order of the tests does
not matter). -/
def moistTable (c : Config nf) (mg : ℝ) : List (String × (XR → XR)) :=
  [("belly_johnson", bellyJohnson mg), ("hotta", hotta mg), ("chepil", chepil c mg),
   ("saleh_fryear", salehFryear c mg), ("saleh_fryear_mod", salehFryearMod c mg), ("shao", shao mg),
   ("dong_2002", dong2002 c mg), ("gregory_darwish", gregoryDarwish c mg), ("cornelis", cornelis c mg),
   ("dong_2007", dong2007 c mg)]

/-- The change of the threshold in a moist cell with gravimetric moisture `mg`,
aeolis/threshold.py:184-232.  For an unknown name the error message itself looks up
`p['method_moist']`, which does not exist unless the user defines it: `KeyError` instead of
`ValueError`. -/
def moistUpdate (c : Config nf) (mg : ℝ) : Except PyErr (XR → XR) :=
  match (moistTable c mg).lookup (lower c.methodMoistThreshold) with
  | some f => .ok f
  | none => if c.hasMethodMoist then .error .valueError else .error .keyError

open Classical in
/-- `compute_moisture`, aeolis/threshold.py:157-239: the change of the threshold of every fraction. -/
def moisture (c : Config nf) (moist : ℝ) : Except PyErr (XR → XR) :=
  match moistUpdate c (gravimetric c moist) with
  | .error e => .error e
  | .ok f => .ok fun uth =>
    let v := if moistCell c moist then f uth else uth
    if 0.064 < gravimetric c moist then pinf else v

/-- The factor of `compute_salt`, aeolis/threshold.py:295-296. -/
def saltFactor (c : Config nf) (salt : ℝ) : ℝ :=
  1.03 * Real.exp (0.1027 * 1e3 * (c.csalt * (1 - salt)))

/-- Division of two reals in numpy. Used in the code at aeolis/threshold.py:304-395. -/
def divR (a b : ℝ) : XR := if b = 0 then infSign a else fin (a / b)

open Classical in
/-- Mass share of the immobile fractions, aeolis/threshold.py:380-386. -/
def immobile (x : Cell nf) (uth : Fin nf → XR) : XR :=
  divR (∑ i, if leOf x.ustar (uth i) then x.mass i else 0) (∑ i, x.mass i)

/-- The roughness factor `Rti` of `compute_sheltering`, aeolis/threshold.py:389. -/
def shelterFactor (m beta sigma : ℝ) (gd : XR) : XR :=
  XR.sqrt ((fin 1 - fin m * gd) * (fin 1 + fin (m * beta / sigma) * gd))

/-- `compute_sheltering`, aeolis/threshold.py:304-393. -/
def sheltering (c : Config nf) (x : Cell nf) (uth : Fin nf → XR) : Except PyErr (Fin nf → XR) :=
  match c.m with
  | none => .error .keyError
  | some m =>
    if c.sigma = 0 then .error .zeroDivision
    else .ok fun i => uth i * shelterFactor m c.beta c.sigma (immobile x uth)

open Classical in
/-- The body of the first condition of `compute`, aeolis/threshold.py:79-101: the new `uth`, before the
mask. -/
def corrections (c : Config nf) (x : Cell nf) (uth : Fin nf → XR) : Except PyErr (Fin nf → XR) :=
  let wet : Except PyErr (Fin nf → XR) :=
    if c.thMoisture then
      match moisture c x.moist with
      | .error e => .error e
      | .ok f => .ok fun i => f (uth i)
    else if c.processTide ∧ x.zb - x.zs < -c.eps then .ok fun _ => pinf
    else .ok uth
  match wet with
  | .error e => .error e
  | .ok u =>
    if c.thDrylayer then .error .nameError
    else if c.thHumidity then .error .nameError
    else
      let u := if c.thSalt then fun i => u i * fin (saltFactor c x.salt) else u
      if c.thSheltering then sheltering c x u else .ok u

/-- `apply_mask`, aeolis/utils.py:280-316. -/
def masked (x : Cell nf) (u : XR) : XR := u * fin x.maskRe + fin x.maskIm

/-- The test of `non_erodible`, aeolis/threshold.py:416-420. -/
def exposed (x : Cell nf) : Prop := ∃ z, x.zne = some z ∧ x.zb ≤ z + 0.01

open Classical in
/-- `compute`, aeolis/threshold.py:43-108. -/
def compute (c : Config nf) (x : Cell nf) (s : Thr nf) : Except PyErr (Thr nf) :=
  let first : Except PyErr (Thr nf) :=
    if c.processThreshold ∧ ¬ c.thresholdFile then
      let s := if c.thGrainsize then
        { s with uth := grainsizeThreshold c, uth0 := grainsizeThreshold c } else s
      match corrections c x s.uth with
      | .error e => .error e
      | .ok u =>
        let u := fun i => masked x (u i)
        .ok { s with uth := u, uthf := u }
    else .ok s
  match first with
  | .error e => .error e
  | .ok s => .ok (if c.thNelayer ∧ exposed x then { s with uth := fun _ => pinf } else s)

end

end Aeolis.Threshold
