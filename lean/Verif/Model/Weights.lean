import Verif.Model.Utils

/-!
Model of the transport weights, aeolis/transport.py:371-435, for one cell with `nf` fractions.
-/

namespace Aeolis

open Finset

section
variable {K : Type*} [Field K] [LinearOrder K] {nf : ℕ}

/-- `w_air = normalize(Ct, Cu)`, aeolis/transport.py:395. -/
def weightsAir (Ct Cu : Fin nf → K) : Fin nf → K := fun k => normalizeRef 0 (Ct k) (Cu k)

/-- `w_bed = normalize(mass[:,:,0,:], axis=2)`, aeolis/transport.py:396. -/
def weightsBed (mass : Fin nf → K) : Fin nf → K := normalize 0 mass

/-- `compute_weights`, aeolis/transport.py:395-402: the returned `w`. -/
def computeWeights (bi : K) (Ct Cu mass : Fin nf → K) : Fin nf → K :=
  let air := weightsAir Ct Cu
  let bed := weightsBed mass
  normalize 0 fun k => (1 - bi) * air k + (1 - min 1 ((1 - bi) * ∑ l, air l)) * bed k

/-- `normalize(w[ix:])` with the slice written in place of the entries `≥ ix`: `x / sum of the slice`,
or 0 if that sum is zero. Models aeolis/transport.py:431-433. -/
def normalizeTail (ix : ℕ) (w : Fin nf → K) : Fin nf → K := fun k =>
  let s := ∑ l : Fin nf, if ix ≤ (l : ℕ) then w l else 0
  if s ≠ 0 then w k / s else 0

/-- `renormalize_weights`, aeolis/transport.py:428-435. -/
def renormalizeWeights (ix : ℕ) (w : Fin nf → K) : Fin nf → K :=
  let f := ∑ l : Fin nf, if (l : ℕ) < ix then w l else 0
  let w' : Fin nf → K := fun k => if ix ≤ (k : ℕ) then normalizeTail ix w k * (1 - f) else w k
  normalize (1 / (nf : K)) w'

end

end Aeolis
