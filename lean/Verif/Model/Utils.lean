import Mathlib.Algebra.BigOperators.Fin
import Mathlib.Algebra.Order.Field.Basic
import Mathlib.Algebra.Order.Floor.Ring
import Mathlib.Data.Fintype.BigOperators

/-!
Model of the numerical helpers in `aeolis/utils.py`.

Numbers are elements of an arbitrary linearly ordered field `K` (exact arithmetic instead of
floating point).  A numpy axis of length `n` is `Fin n → K`.
-/

namespace Aeolis

open Finset

section
variable {K : Type*} [Field K] [LinearOrder K]

/-- `utils.normalize(x, fill=fill)` along one axis, aeolis/utils.py:144-170 (`ref is None`
branch, 165-170): `ref = sum(x)` repeated, `y = zeros + fill`, `y[ix] = x[ix]/ref[ix]` where
`ref != 0`.  Modelled for one line along the axis; numpy repeats this for every other index. -/
def normalize {n : ℕ} (fill : K) (x : Fin n → K) : Fin n → K :=
  fun i => if (∑ j, x j) ≠ 0 then x i / ∑ j, x j else fill

/-- `utils.normalize(x, ref, fill=fill)` with an explicit reference array, one element,
aeolis/utils.py:167-170. -/
def normalizeRef (fill x ref : K) : K :=
  if ref ≠ 0 then x / ref else fill

/-- `utils.prevent_tiny_negatives`, one element, aeolis/utils.py:192-195. -/
def preventTinyNegatives (maxError replacement x : K) : K :=
  if x < 0 ∧ -maxError < x then replacement else x

/-- `utils.apply_mask`, one element, aeolis/utils.py:306-316: the complex mask is the pair
`(re, im)`; `arr *= real(mask)`, `arr += imag(mask)`. -/
def applyMask (mask : K × K) (x : K) : K :=
  x * mask.1 + mask.2

/-- `utils.apply_mask` on an array whose leading index `c` ranges over the mask and whose trailing
dimensions are the index type `ι`; the mask is repeated over the trailing dimensions,
aeolis/utils.py:308-316. -/
def applyMaskArr {C ι : Type*} (mask : C → K × K) (arr : C → ι → K) : C → ι → K :=
  fun c i => applyMask (mask c) (arr c i)

/-- `utils.calc_mean_grain_size` for one cell, aeolis/utils.py:400-409: `weights =
mass/sum(mass)`, `sum(diameters*weights)`.  numpy yields nan when the mass is zero; the model
returns `none` there. -/
def meanGrainSize {n : ℕ} (d mass : Fin n → K) : Option K :=
  if (∑ j, mass j) = 0 then none else some (∑ i, d i * (mass i / ∑ j, mass j))

end

end Aeolis
