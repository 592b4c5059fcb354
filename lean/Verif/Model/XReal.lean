import Mathlib.Analysis.SpecialFunctions.Pow.Real
import Mathlib.Analysis.SpecialFunctions.Log.Base
import Mathlib.Data.Real.Sqrt

/-!
Real numbers extended with the infinities and NaN of floating point arithmetic, with the operations of
numpy used for shear velocity thresholds (which are set to `np.inf` in cells without transport,
aeolis/threshold.py:88,239,430).  Rounding is left out: finite values are exact real numbers.
-/

namespace Aeolis

noncomputable section

/-- Extended real numbers with NaN.
Floats of numpy in aeolis/threshold.py:43-395 and aeolis/transport.py:302-368. -/
inductive XR where
  | fin (r : ℝ)
  | pinf
  | ninf
  | nan

namespace XR

/-- Infinity with the sign of `s` (NaN for zero), the result of a product with an infinity.
Arithmetic of numpy in aeolis/transport.py:319-361. -/
def infSign (s : ℝ) : XR := if 0 < s then pinf else if s < 0 then ninf else nan

/-- Negation. Arithmetic of numpy in aeolis/transport.py:319-361. -/
def neg : XR → XR
  | fin r => fin (-r)
  | pinf => ninf
  | ninf => pinf
  | nan => nan

/-- Addition. Arithmetic of numpy in aeolis/transport.py:319-361. -/
def add : XR → XR → XR
  | nan, _ => nan
  | _, nan => nan
  | fin a, fin b => fin (a + b)
  | pinf, ninf => nan
  | ninf, pinf => nan
  | pinf, _ => pinf
  | _, pinf => pinf
  | ninf, _ => ninf
  | _, ninf => ninf

/-- Multiplication. Arithmetic of numpy in aeolis/transport.py:319-361. -/
def mul : XR → XR → XR
  | nan, _ => nan
  | _, nan => nan
  | fin a, fin b => fin (a * b)
  | fin a, pinf => infSign a
  | fin a, ninf => infSign (-a)
  | pinf, fin b => infSign b
  | ninf, fin b => infSign (-b)
  | pinf, pinf => pinf
  | ninf, ninf => pinf
  | pinf, ninf => ninf
  | ninf, pinf => ninf

instance : Neg XR := ⟨neg⟩
instance : Add XR := ⟨add⟩
instance : Mul XR := ⟨mul⟩
instance : Sub XR := ⟨fun a b => a + -b⟩
instance : Coe ℝ XR := ⟨fin⟩

/-- Square and cube (`**2`, `**3`). Models aeolis/transport.py:319-361. -/
def sq (a : XR) : XR := a * a
/-- See `sq`. Models aeolis/transport.py:319-361. -/
def cube (a : XR) : XR := a * a * a

/-- `np.maximum(0., a)`; NaN is kept. Models aeolis/transport.py:319-361. -/
def max0 : XR → XR
  | fin r => fin (max 0 r)
  | pinf => pinf
  | ninf => fin 0
  | nan => nan

/-- `np.sqrt`. Used in the code at aeolis/threshold.py:111-301. -/
def sqrt : XR → XR
  | fin r => if 0 ≤ r then fin (Real.sqrt r) else nan
  | pinf => pinf
  | ninf => nan
  | nan => nan

/-- `a <= b` for finite `a`. Used in the code at aeolis/threshold.py:157-239. -/
def leOf (a : ℝ) : XR → Prop
  | fin b => a ≤ b
  | pinf => True
  | ninf => False
  | nan => False

/-- A threshold: finite and not negative, or infinite.
Values produced by aeolis/threshold.py:43-108. -/
def IsThreshold : XR → Prop
  | fin r => 0 ≤ r
  | pinf => True
  | _ => False

/-- Order of thresholds. Comparison of values produced by aeolis/threshold.py:43-108. -/
def le : XR → XR → Prop
  | fin a, fin b => a ≤ b
  | fin _, pinf => True
  | pinf, pinf => True
  | _, _ => False

end XR

end

end Aeolis
