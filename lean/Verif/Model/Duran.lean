import Verif.Model.Transport
import Mathlib.Analysis.SpecialFunctions.Log.Basic
import Mathlib.Analysis.SpecialFunctions.Pow.Real

/-!
Model of `duran_grainspeed`, aeolis/transport.py:40-200, for one cell and one fraction (all operations other than the slopes are element by
element), and of the slopes on the grid.

Simplifications: real numbers; where the code divides by zero in a way that makes the result infinite or not a number there is none.
-/

namespace Aeolis.Duran

open Aeolis.Transport

noncomputable section

/-- Parameters: viscosity, gravity, densities, constant of the threshold, von Kármán's constant and grain size.
Models aeolis/transport.py:60-91. -/
structure Params where
  v : ℝ
  g : ℝ
  rhog : ℝ
  rhoa : ℝ
  Aa : ℝ
  kappa : ℝ
  d : ℝ

namespace Params

variable (p : Params)

/-- `srho`, aeolis/transport.py:81. -/
def srho : ℝ := p.rhog / p.rhoa
/-- `tv` aeolis/transport.py:96. -/
def tv : ℝ := (p.v / p.g ^ 2) ^ (1 / 3 : ℝ)
/-- `lv`, aeolis/transport.py:98. -/
def lv : ℝ := (p.v ^ 2 / (p.Aa ^ 2 * p.g * (p.srho - 1))) ^ (1 / 3 : ℝ)
/-- `zm` with `r = 1` and `c = 14 / (1 + 1.4 r)`, aeolis/transport.py:93-94, 100. -/
def zm (uth : ℝ) : ℝ := 14 / (1 + 1.4 * 1) * uth * p.tv
/-- `z0`, aeolis/transport.py:101. -/
def z0 : ℝ := p.d / 20
/-- `z1`, aeolis/transport.py:102. -/
def z1 : ℝ := 35 * p.lv
/-- `alpha`, aeolis/transport.py:104. -/
def alpha : ℝ := 0.17 * p.d / p.lv
/-- `Sstar`, aeolis/transport.py:106. -/
def Sstar : ℝ := p.d / (4 * p.v) * Real.sqrt (p.g * p.d * (p.srho - 1))
/-- `Cd` with `A = 0.95` and `B = 5.12`, aeolis/transport.py:83-84, 107. -/
def Cd : ℝ := 4 / 3 * (0.95 + Real.sqrt (2 * p.alpha) * 5.12 / p.Sstar) ^ 2
/-- `uf`, the settling velocity, aeolis/transport.py:109. -/
def uf : ℝ := Real.sqrt (4 / (3 * p.Cd) * (p.srho - 1) * p.g * p.d)
/-- Wind velocity that drives the grains, aeolis/transport.py:175-176. -/
def ueff (uth ustar : ℝ) : ℝ := uth / p.kappa * (Real.log (p.z1 / p.z0) + p.z1 / p.zm uth * (ustar / uth - 1))

end Params

/-- What the speed in a cell depends on: wind, the threshold `uth0`, slopes of the bed, bed level and separation surface.
Models aeolis/transport.py:62-77. -/
structure Cell where
  w : Wind
  uth0 : ℝ
  dhs : ℝ
  dhn : ℝ
  zb : ℝ
  zsep : ℝ

/-- Direction of the wind, that of the shear if it is at least 0.05 m/s, aeolis/transport.py:152-156; none without wind and shear. -/
def direction (w : Wind) : Option (ℝ × ℝ) :=
  if 0.05 ≤ w.ustar then some (w.ustars / w.ustar, w.ustarn / w.ustar)
  else if w.uw = 0 then none
  else some (w.uws / w.uw, w.uwn / w.uw)

/-- The speed `u0` of grains driven by the undisturbed shear velocity, aeolis/transport.py:176, 180; none (not a number in the code) if the
threshold is zero. -/
def speed0 (p : Params) (x : Cell) : Option ℝ :=
  if x.uth0 = 0 then none else some (p.ueff x.uth0 x.w.ustar0 - p.uf / Real.sqrt (2 * p.alpha))

/-- Whether a cell is in a separation bubble, aeolis/transport.py:193. -/
def InBubble (x : Cell) : Prop := x.zb + 0.01 < x.zsep

open Classical in
/-- The velocity of the grains in a cell and its magnitude, aeolis/transport.py:158-198. None (not a number in the code) if there is neither
wind nor shear, or, outside of separation bubbles, if the threshold is zero or `Ax` is zero. -/
def velocity (p : Params) (x : Cell) : Option Speed :=
  match direction x.w with
  | none => none
  | some e =>
    let Axs := e.1 + 2 * p.alpha * x.dhs
    let Axn := e.2 + 2 * p.alpha * x.dhn
    let Ax := Real.sqrt (Axs ^ 2 + Axn ^ 2)
    if InBubble x then
      let us := 0.1 * e.1
      let un := 0.1 * e.2
      some ⟨Real.sqrt (us ^ 2 + un ^ 2), us, un⟩
    else if x.uth0 = 0 ∨ Ax = 0 then none
    else
      let ueff := if x.uth0 ≤ x.w.ustar then p.ueff x.uth0 x.w.ustar else 0
      let us := (ueff - p.uf / (Real.sqrt (2 * p.alpha) * Ax)) * e.1 - Real.sqrt (2 * p.alpha) * p.uf / Ax * x.dhs
      let un := (ueff - p.uf / (Real.sqrt (2 * p.alpha) * Ax)) * e.2 - Real.sqrt (2 * p.alpha) * p.uf / Ax * x.dhn
      some ⟨Real.sqrt (us ^ 2 + un ^ 2), us, un⟩

/-- Slope of the bed along the rows, aeolis/transport.py:134-145: central differences, in a planar grid copied to the ends, in a transect
zero at the ends. -/
def slopeS (nx ny : ℕ) (z x : ℕ → ℕ → ℝ) (i j : ℕ) : ℝ :=
  let inner (j : ℕ) : ℝ := if 1 ≤ j ∧ j < nx then (z i (j + 1) - z i (j - 1)) / (x i (j + 1) - x i (j - 1)) else 0
  if 0 < ny ∧ j = nx then
    (if nx - 1 = 0 then inner 1 else inner (nx - 1))
  else if 0 < ny ∧ j = 0 then inner 1
  else inner j

/-- Slope of the bed across the rows, aeolis/transport.py:135-145. -/
def slopeN (ny : ℕ) (z y : ℕ → ℕ → ℝ) (i j : ℕ) : ℝ :=
  let inner (i : ℕ) : ℝ := if 1 ≤ i ∧ i < ny then (z (i - 1) j - z (i + 1) j) / (y (i - 1) j - y (i + 1) j) else 0
  if 0 < ny ∧ i = ny then
    (if ny - 1 = 0 then inner 1 else inner (ny - 1))
  else if 0 < ny ∧ i = 0 then inner 1
  else inner i

end

end Aeolis.Duran
