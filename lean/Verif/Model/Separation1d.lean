import Verif.Model.Shear
import Verif.Model.Wind

/-!
Model of `separation1d`, the separation surface over a transect, aeolis/wind.py:358-512.  The polynomials are those of the
two-dimensional module (`Shear.streamline`, `Shear.bubbleLength`), whose lines are repeated here.
-/

namespace Aeolis.Wind

open Aeolis.Shear

noncomputable section

open Classical

/-- Wind direction brought to one turn, aeolis/wind.py:377-382. -/
def oneTurn (udir : ℝ) : ℝ :=
  let u := if udir < 360 then udir + 360 else udir
  if 360 < u then u - 360 else u

/-- Distance between grid points along the wind and whether the wind blows towards lower indices, aeolis/wind.py:377-399. -/
def alongWind (dx udir : ℝ) : ℝ × Bool :=
  let u := oneTurn udir
  if 180 < u ∧ u < 360 then (dx / Real.cos (|u - 270| * Real.pi / 180), false)
  else if u = 180 ∨ u = 360 then (0.0001, false)
  else (dx / Real.cos (|u - 90| * Real.pi / 180), true)

/-- Bed slope angle in a transect with `n ≥ 3` points, aeolis/wind.py:426-428. -/
def forwardAngle (n : ℕ) (dx : ℝ) (z : ℕ → ℝ) (i : ℕ) : ℝ :=
  let k := if i = 0 then 1 else if i + 1 = n then n - 2 else i
  Real.arctan ((z (k + 1) - z k) / dx) * 180 / Real.pi

/-- Start of a bubble, shifted back by two points, aeolis/wind.py:440-445.  The last two points keep their value. -/
def bubble1 (n : ℕ) (mu : ℝ) (dzx : ℕ → ℝ) (i : ℕ) : Prop :=
  2 ≤ i ∧ if i + 2 < n then brink0 n mu dzx (i + 2) else brink0 n mu dzx i

/-- Surfaces of one of the three equal rows, aeolis/wind.py:418-421. -/
structure Sep1 where
  zsep0 : ℕ → ℝ
  zsep1 : ℕ → ℝ
  zsep : ℕ → ℝ

/-- What does not change: number of points, distance along the wind, coordinates, largest coordinate, bed (in the direction of the
wind), slope parameters. Models aeolis/wind.py:362-403. -/
structure Sep1In where
  n : ℕ
  dx : ℝ
  x : ℕ → ℝ
  xmax : ℝ
  z : ℕ → ℝ
  c : ℝ
  mu : ℝ

/-- Work on bubble number `k`, which begins at point `i`, aeolis/wind.py:459-499.  As the loop variable replaces the array of wave
indices, the filter multiplies the whole surface by one number. -/
def Sep1In.work (S : Sep1In) (k i : ℕ) (st : Sep1) : Sep1 :=
  let s0 := (S.z (i - 1) - S.z (i - 2)) / S.dx
  let h := brinkHeight S.z i (firstRise S.n (forwardAngle S.n S.dx S.z) i)
  let len := bubbleLength S.c h s0
  let stop := min (i + ⌊len / S.dx⌋₊) (S.n - 1)
  let γ := Real.exp (-(2 * Real.pi / S.xmax * k * S.dx) ^ 2 / (2 * 1.5 ^ 2))
  let zsep0 := fun m => γ * (if i ≤ m ∧ m < stop then streamline h s0 len (S.z i) (S.x m - S.x i) else st.zsep0 m)
  let s1 := (zsep0 (i - 1) - zsep0 (i - 2)) / S.dx
  let len1 := bubbleLength S.c (S.z i) s1
  let stop1 := min (i + ⌊len1 / S.dx⌋₊) (S.n - 1)
  let zsep1 := fun m => if i ≤ m ∧ m < stop1 then streamline (S.z i) s1 len1 (S.z i) (S.x m - S.x i) else st.zsep1 m
  { zsep0 := zsep0, zsep1 := zsep1,
    zsep := fun m => if i ≤ m ∧ m < stop then max (zsep1 m) (S.z m) else st.zsep m }

/-- Points where bubbles begin, aeolis/wind.py:449-457. -/
def Sep1In.bubbles (S : Sep1In) : List ℕ :=
  (List.range S.n).filter fun i => decide (bubble1 S.n S.mu (forwardAngle S.n S.dx S.z) i)

/-- All bubbles of a row, numbered from `k`, aeolis/wind.py:459-499. -/
def Sep1In.walk (S : Sep1In) : ℕ → List ℕ → Sep1 → Sep1
  | _, [], st => st
  | k, i :: l, st => S.walk (k + 1) l (S.work k i st)

/-- Surface in row `r` (0, 1 or 2), aeolis/wind.py:418-499. -/
def Sep1In.row (S : Sep1In) (r : ℕ) : ℕ → ℝ :=
  (S.walk (r * S.bubbles.length) S.bubbles ⟨fun _ => 0, fun _ => 0, S.z⟩).zsep

/-- Surface in the middle row after `gaussian_filter1d` with `sigma=0.2` over the three rows, raised to the bed,
aeolis/wind.py:502-507. -/
def Sep1In.surface (S : Sep1In) (m : ℕ) : ℝ :=
  let e := Real.exp (-12.5) / (1 + 2 * Real.exp (-12.5))
  let v := e * S.row 0 m + (1 - 2 * e) * S.row 1 m + e * S.row 2 m
  if v < S.z m then S.z m else v

/-- `separation1d` on a transect with points `0..nx`, `nx ≥ 2`, aeolis/wind.py:358-512.  Coordinates are not flipped. -/
def separation1d (nx : ℕ) (dx : ℝ) (x : ℕ → ℝ) (xmax : ℝ) (z : ℕ → ℝ) (c mu udir : ℝ) : ℕ → ℝ :=
  let w := alongWind dx udir
  let z' := if w.2 then mirror nx z else z
  let out := Sep1In.surface ⟨nx + 1, w.1, x, xmax, z', c, mu⟩
  if w.2 then mirror nx out else out

end

end Aeolis.Wind
