import Mathlib.Analysis.SpecialFunctions.Trigonometric.Arctan
import Mathlib.Algebra.Order.Floor.Ring
import Mathlib.Data.Real.Archimedean

/-! Specification of flow separation behind a dune. -/

namespace Aeolis.Spec

noncomputable section

/-- Cubic that starts at level `start` with slope `s` and ends after a distance `len` at level `start - h` with slope zero. -/
def hermite (start s h len x : ℝ) : ℝ := start + s * x * (1 - x / len) ^ 2 - h * (x / len) ^ 2 * (3 - 2 * (x / len))

/-- Angle (degrees) of the bed between column `i` and the second column downwind; at the end of the row that of the last three
columns. -/
def bedAngle (n : ℕ) (dx : ℝ) (z : ℕ → ℝ) (i : ℕ) : ℝ :=
  Real.arctan ((z (min i (n - 3) + 2) - z (min i (n - 3))) / (2 * dx)) * 180 / Real.pi

/-- Height of the brink in column `i` above the first column, five or more columns downwind, from where the bed does not descend
(`angle`: of the bed); above datum if there is none. -/
def IsDrop (angle : ℕ → ℝ) (n : ℕ) (z : ℕ → ℝ) (i : ℕ) (h : ℝ) : Prop :=
  (∃ m, i + 5 ≤ m ∧ m < n ∧ 0 ≤ angle m ∧ (∀ k, i + 5 ≤ k → k < m → angle k < 0) ∧ h = z i - z m) ∨
  ((∀ m, i + 5 ≤ m → m < n → angle m < 0) ∧ h = z i)

/-- A bubble begins in column `i`: there, and not in the two columns upwind, the bed descends by more than `mu` degrees. At the
upwind end of the row one column is looked at. -/
def StartsAt (n : ℕ) (dx : ℝ) (z : ℕ → ℝ) (mu : ℝ) (i : ℕ) : Prop :=
  i + 1 < n ∧ if i ≤ 1 then ¬ bedAngle n dx z 0 < -mu ∧ bedAngle n dx z 1 < -mu
    else ¬ bedAngle n dx z (i - 2) < -mu ∧ ¬ bedAngle n dx z (i - 1) < -mu ∧ bedAngle n dx z i < -mu

/-- A bubble that begins in column `i` and covers the columns before `stop`: `line` is the separating streamline, a cubic from the
brink, where it has the slope of the three cells upwind, down to the level of reattachment. -/
def IsBubble (n : ℕ) (dx : ℝ) (x z : ℕ → ℝ) (c mu : ℝ) (i stop : ℕ) (line : ℕ → ℝ) : Prop :=
  StartsAt n dx z mu i ∧ ∃ h s len : ℝ, IsDrop (bedAngle n dx z) n z i h ∧
    s = (z i - z (if 3 ≤ i then i - 3 else n + i - 3)) / (3 * dx) ∧
    len = min (max (3 * h / (2 * c) * (1 + s / c / 4 + (s / c) ^ 2 / 8)) 0.1) 200 ∧
    stop = min (i + ⌊len / dx⌋₊ + 1) (n - 1) ∧
    ∀ m, line m = hermite (z i) s h len (x m - x i)

/-- Angle (degrees) of the bed from point `i` of a transect to the next one; at both ends that of the neighbour. -/
def stepAngle (n : ℕ) (dx : ℝ) (z : ℕ → ℝ) (i : ℕ) : ℝ :=
  let k := if i = 0 then 1 else if i + 1 = n then n - 2 else i
  Real.arctan ((z (k + 1) - z k) / dx) * 180 / Real.pi

/-- The bed of a transect descends by more than `mu` degrees at point `i`, and did not at the two points upwind. -/
def SteepensAt (n : ℕ) (dx : ℝ) (z : ℕ → ℝ) (mu : ℝ) (i : ℕ) : Prop :=
  1 ≤ i ∧ i < n ∧ stepAngle n dx z i < -mu ∧ ¬ stepAngle n dx z (i - 1) < -mu ∧
    (2 ≤ i → ¬ stepAngle n dx z (i - 2) < -mu)

/-- A bubble over a transect begins at point `i`, two points from either end at least: the bed steepens three points downwind. At
the last two points: it steepens at the next one. -/
def StartsAt1 (n : ℕ) (dx : ℝ) (z : ℕ → ℝ) (mu : ℝ) (i : ℕ) : Prop :=
  2 ≤ i ∧ if i + 2 < n then SteepensAt n dx z mu (i + 3) else SteepensAt n dx z mu (i + 1)

end

end Aeolis.Spec
