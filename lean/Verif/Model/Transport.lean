import Verif.Model.XReal
import Verif.Model.State
import Verif.Model.PyStr

/-!
Model of the grain speed and equilibrium concentration, aeolis/transport.py:203-369, for one cell and
one fraction (all operations are element by element).

* `duran_grainspeed` (aeolis/transport.py:40-200) is modelled in `Verif.Model.Duran`; here its result is an input.
* `str.lower` is modelled for ASCII letters.
-/

namespace Aeolis.Transport

open XR

noncomputable section

/-- Parameters of `equilibrium`. Models aeolis/transport.py:203-368. -/
structure Params where
  processTransport : Bool
  methodTransport : String
  methodGrainspeed : String
  Cb : ℝ
  Ck : ℝ
  Cl : ℝ
  Cdk : ℝ
  rhoa : ℝ
  g : ℝ
  accfac : ℝ
  /-- planar grid (`ny > 0`) -/
  planar : Bool

/-- Wind and shear velocity of a cell. Models aeolis/transport.py:203-368. -/
structure Wind where
  uw : ℝ
  uws : ℝ
  uwn : ℝ
  ustar : ℝ
  ustars : ℝ
  ustarn : ℝ
  ustar0 : ℝ

/-- Grain speed and its components. Models aeolis/transport.py:203-300. -/
structure Speed where
  u : ℝ
  us : ℝ
  un : ℝ

/-- `constant_grainspeed`, aeolis/transport.py:203-253; `np.hypot` is `√(x² + y²)`. -/
def constantGrainspeed (w : Wind) : Speed :=
  let us := if w.ustar ≠ 0 then 1 * w.ustars / w.ustar else 0
  let un := if w.ustar ≠ 0 then 1 * w.ustarn / w.ustar else 0
  let us := if w.ustar = 0 ∧ w.uw ≠ 0 then 1 * w.uws / w.uw else us
  let un := if w.ustar = 0 ∧ w.uw ≠ 0 then 1 * w.uwn / w.uw else un
  ⟨Real.sqrt (us ^ 2 + un ^ 2), us, un⟩

/-- Selection of the grain speed, aeolis/transport.py:279-300; `duran` is the result of
`duran_grainspeed`.  For other names the local variable `u` is missing (`NameError`). -/
def grainspeed (p : Params) (w : Wind) (duran : Speed) : Except PyErr Speed :=
  if p.methodGrainspeed = "duran" then .ok duran
  else if p.methodGrainspeed = "windspeed" then .ok ⟨w.uw, w.uws, w.uwn⟩
  else if p.methodGrainspeed = "constant" then .ok (constantGrainspeed w)
  else .error .nameError

/-- Equilibrium concentrations of a cell and fraction. Models aeolis/transport.py:302-368. -/
structure Conc where
  Cu : XR
  Cuf : XR
  Cu0 : XR

/-- Thresholds of a cell and fraction. Models aeolis/transport.py:302-316. -/
structure Thresholds where
  uth : XR
  uthf : XR
  uth0 : XR

/-- `Cb * rhoa / g * (ustar - uth)**3 / u`, aeolis/transport.py:320. -/
def bagnold (c u ustar : ℝ) (uth : XR) : XR := max0 (fin c * cube (fin ustar - uth) * fin (1 / u))

/-- aeolis/transport.py:334. -/
def kawamura (c u ustar : ℝ) (uth : XR) : XR :=
  max0 (fin c * sq (fin ustar + uth) * (fin ustar - uth) * fin (1 / u))

/-- aeolis/transport.py:338. -/
def lettau (c u ustar : ℝ) (uth : XR) : XR :=
  max0 (fin c * sq (fin ustar) * (fin ustar - uth) * fin (1 / u))

/-- aeolis/transport.py:342. -/
def dk (c u ustar : ℝ) (uth : XR) : XR :=
  max0 (fin (c * 0.8) * uth * (sq (fin ustar) - sq (fin 0.8 * uth)) * fin (1 / u))

/-- aeolis/transport.py:349. -/
def sauermann (c ustar : ℝ) (uth : XR) : XR := max0 (fin c * (sq (fin ustar) - sq uth))

/-- aeolis/transport.py:355. -/
def vanRijn (c u ustar : ℝ) (uth : XR) : XR :=
  max0 (fin c * (cube (fin ustar) - cube uth) * fin (1 / u))

/-- The values of `Cu`, `Cuf`, `Cu0` (`none`: not assigned) in a cell with wind, per formulation,
aeolis/transport.py:319-361.  `d` is the grain size of the fraction. -/
def formulation (p : Params) (d u : ℝ) (w : Wind) (th : Thresholds) :
    Except PyErr (XR × XR × Option XR) :=
  let m := lower p.methodTransport
  let k := p.rhoa / p.g
  if m = "bagnold" then
    let c := p.Cb * k
    .ok (bagnold c u w.ustar th.uth, bagnold c u w.ustar th.uthf, some (bagnold c u w.ustar0 th.uth0))
  else if m = "bagnold_gs" then
    -- the array of grain sizes has one row only: indexing it with the mask of a planar grid raises
    if p.planar then .error .indexError
    else
      let c := p.Cb * Real.sqrt (d / 0.00025) * k
      let v := bagnold c u w.ustar th.uth
      .ok (v, v, some v)
  else if m = "kawamura" then
    let c := p.Ck * k
    .ok (kawamura c u w.ustar th.uth, kawamura c u w.ustar th.uthf, none)
  else if m = "lettau" then
    let c := p.Cl * k
    .ok (lettau c u w.ustar th.uth, lettau c u w.ustar th.uthf, none)
  else if m = "dk" then
    let c := p.Cdk * k
    .ok (dk c u w.ustar th.uth, dk c u w.ustar th.uthf, some (dk c u w.ustar0 th.uth0))
  else if m = "sauermann" then
    let c := 2 * 0.35 * k
    .ok (sauermann c w.ustar th.uth, sauermann c w.ustar th.uthf, some (sauermann c w.ustar0 th.uth0))
  else if m = "vanrijn_strypsteen" then
    let c := p.Cb * k
    let v := vanRijn c u w.ustar th.uth
    .ok (v, v, some (vanRijn c u w.ustar0 th.uth0))
  else .error .valueError

/-- `equilibrium`, aeolis/transport.py:271-368, with the concentrations of the previous step. -/
def equilibrium (p : Params) (d : ℝ) (w : Wind) (duran : Speed) (th : Thresholds) (old : Conc) :
    Except PyErr Conc :=
  let scale (c : Conc) : Conc := ⟨c.Cu * fin p.accfac, c.Cuf * fin p.accfac, c.Cu0 * fin p.accfac⟩
  if p.processTransport then
    match grainspeed p w duran with
    | .error e => .error e
    | .ok s =>
      match formulation p d s.u w th with
      | .error e => .error e
      | .ok (a, b, c) =>
        if w.ustar ≠ 0 ∧ s.u ≠ 0 then .ok (scale ⟨a, b, c.getD old.Cu0⟩)
        else .ok (scale ⟨fin 0, fin 0, old.Cu0⟩)
  else .ok (scale old)

end

end Aeolis.Transport
