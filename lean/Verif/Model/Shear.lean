import Verif.Model.Resample
import Verif.Model.State
import Mathlib.Analysis.SpecialFunctions.Complex.Log
import Mathlib.Analysis.SpecialFunctions.Pow.Complex
import Mathlib.Analysis.SpecialFunctions.Log.Basic

/-!
Model of `WindShear`, the wind shear over a two-dimensional topography, aeolis/shear.py:47-882.  Arrays are functions of row and
column together with their sizes; numbers are reals (complex numbers in the spectrum).
-/

namespace Aeolis.Shear

open Aeolis.Resample

noncomputable section

open Classical

/-! ### Computational grid -/

/-- `maxDiff` of the first `n` entries, aeolis/shear.py:622-634. -/
def maxDiff (n : ℕ) (a : ℕ → ℝ) : ℝ :=
  (List.range n).foldl (fun r i => ((List.range (n - i)).map (· + i)).foldl
    (fun r j => if r < |a i - a j| + |(i : ℝ) - j| then |a i - a j| + |(i : ℝ) - j| else r) r) 0

/-- Directions parallel to the axes are turned by a tenth of a degree, aeolis/shear.py:332-339. -/
def offAxis (udir : ℝ) : ℝ :=
  if ∃ k < 24, |udir - (-1080 + 90 * (k : ℕ))| ≤ 0.001 then udir - 0.1 else udir

/-- Slope of the line through a corner in direction `udir`: `np.polyfit` of degree 1 through two points, aeolis/shear.py:344-348. -/
def lineSlope (udir : ℝ) (pt : ℝ × ℝ) : ℝ :=
  (pt.2 - (pt.2 - Real.cos (udir / 180 * Real.pi))) / (pt.1 - (pt.1 - Real.sin (udir / 180 * Real.pi)))

/-- Its intercept, aeolis/shear.py:344-348. -/
def lineIntercept (udir : ℝ) (pt : ℝ × ℝ) : ℝ := pt.2 - lineSlope udir pt * pt.1

/-- Corners of the input grid, aeolis/shear.py:322-330. -/
def corner (R C : ℕ) (g : ℕ → ℕ → ℝ × ℝ) : ℕ → ℝ × ℝ
  | 0 => g 0 0
  | 1 => g (R - 1) 0
  | 2 => g 0 (C - 1)
  | _ => g (R - 1) (C - 1)

/-- Distance between the outermost lines in direction `udir` through the corners plus twice the buffer,
aeolis/shear.py:341-356. -/
def extent (R C : ℕ) (g : ℕ → ℕ → ℝ × ℝ) (buffer udir : ℝ) : ℝ :=
  |maxDiff 4 (fun k => lineIntercept udir (corner R C g k))| / Real.sqrt (lineSlope udir (corner R C g 3) ^ 2 + 1) + buffer * 2

/-- `np.mean(gi['x']), np.mean(gi['y'])`, aeolis/shear.py:314. -/
def centre (R C : ℕ) (g : ℕ → ℕ → ℝ × ℝ) : ℝ × ℝ :=
  ((∑ j ∈ Finset.range R, ∑ i ∈ Finset.range C, (g j i).1) / (R * C),
    (∑ j ∈ Finset.range R, ∑ i ∈ Finset.range C, (g j i).2) / (R * C))

/-- Computational grid before rotation: centre, first coordinates, cell sizes and numbers of rows and columns.
Models aeolis/shear.py:300-369. -/
structure CGrid where
  origin : ℝ × ℝ
  xlo : ℝ
  ylo : ℝ
  dx : ℝ
  dy : ℝ
  rows : ℕ
  cols : ℕ

/-- Node of the computational grid, aeolis/shear.py:359-361,366-367. -/
def CGrid.node (c : CGrid) (q p : ℕ) : ℝ × ℝ := (axisNode c.xlo c.dx p, axisNode c.ylo c.dy q)

/-- `set_computational_grid`, aeolis/shear.py:300-369: `Length` is the extent across lines perpendicular to the wind, `Width`
that across lines parallel to it. -/
def computationalGrid (R C : ℕ) (g : ℕ → ℕ → ℝ × ℝ) (dx dy buffer udir : ℝ) : CGrid :=
  let u := offAxis udir
  let width := extent R C g buffer u
  let length := extent R C g buffer (u - 90)
  let o := centre R C g
  { origin := o, xlo := o.1 - length / 2, ylo := o.2 - width / 2, dx := dx, dy := dy,
    rows := axisCount (o.2 - width / 2) (o.2 + width / 2) dy,
    cols := axisCount (o.1 - length / 2) (o.1 + length / 2) dx }

/-! ### Shear stress perturbation -/

/-- `np.fft.fftfreq(n, d)[k]`, used at aeolis/shear.py:547-548. -/
def fftfreq (n : ℕ) (d : ℝ) (k : ℕ) : ℝ := (if k ≤ (n - 1) / 2 then (k : ℝ) else (k : ℝ) - n) / (n * d)

/-- `2. * np.pi * np.fft.fftfreq(n+1, d)[1:]` at position `k`, aeolis/shear.py:547-548. -/
def wavenumber (n : ℕ) (d : ℝ) (k : ℕ) : ℝ := 2 * Real.pi * fftfreq (n + 1) d (k + 1)

/-- `np.fft.fft2`, used at aeolis/shear.py:550. -/
def fft2 (R C : ℕ) (z : ℕ → ℕ → ℂ) (q p : ℕ) : ℂ :=
  ∑ j ∈ Finset.range R, ∑ i ∈ Finset.range C,
    z j i * Complex.exp (-(2 * Real.pi * Complex.I * ((q * j : ℂ) / R + (p * i : ℂ) / C)))

/-- `np.fft.ifft2`, used at aeolis/shear.py:595-596. -/
def ifft2 (R C : ℕ) (z : ℕ → ℕ → ℂ) (j i : ℕ) : ℂ :=
  (∑ q ∈ Finset.range R, ∑ p ∈ Finset.range C,
    z q p * Complex.exp (2 * Real.pi * Complex.I * ((q * j : ℂ) / R + (p * i : ℂ) / C))) / (R * C)

/-- Tapering of one direction in `filter_highfrequenies`, aeolis/shear.py:668-677, for `nfilter = (n1, n2)`, `n1 ≤ n2`: `len` is
the wave length in grid cells, `s` the width of the sigmoid. -/
def taper (n1 n2 s len : ℝ) : ℝ := 1 / (1 + Real.exp (-(len + n1 - n2) / s))

/-- Factor applied by `filter_highfrequenies`, aeolis/shear.py:668-677. -/
def filterFactor (n1 n2 dx dy kx ky : ℝ) : ℝ :=
  let px := 2 * Real.pi / dx / |kx|
  let py := 2 * Real.pi / dy / |ky|
  let s1 := n1 / Real.log (1 / 0.01 - 1)
  let s2 := -n2 / Real.log (1 / 0.99 - 1)
  taper n1 n2 s1 px * taper n1 n2 s2 py

/-- Height of the inner layer after five iterations, aeolis/shear.py:554,558,566-567. -/
def innerLayer (L l z0 : ℝ) : ℝ := (fun l => 2 * 0.41 ^ 2 * (L / 4) / Real.log (l / z0))^[5] l

/-- Height of the middle layer after five iterations, aeolis/shear.py:570-572. -/
def middleLayer (L z0 : ℝ) : ℝ := (fun h => (L / 4) / Real.sqrt (Real.log (h / z0)))^[5] 1

/-- Non-dimensional velocity, aeolis/shear.py:575. -/
def innerVelocity (L l z0 : ℝ) : ℝ := Real.log (innerLayer L l z0 / z0) / Real.log (middleLayer L z0 / z0)

/-- `sigma`, aeolis/shear.py:579: the principal square root. -/
def sigma (L l z0 kx : ℝ) : ℂ := (Complex.I * ((L / 4 : ℝ) : ℂ) * kx * z0 / innerLayer L l z0) ^ (1 / 2 : ℂ)

/-- Ratio of the spectra of stress perturbation (along the wind) and topography, aeolis/shear.py:586-588. `kv` stands for
`sc_kv` (the modified Bessel function of the second kind, aeolis/utils.py:337-338), which is not modelled. -/
def transferX (kv : ℝ → ℂ → ℂ) (L l z0 kx ky : ℝ) : ℂ :=
  let k := Real.sqrt (kx ^ 2 + ky ^ 2)
  let σ := sigma L l z0 kx
  let ul := innerVelocity L l z0
  ((kx ^ 2 / k * 2 / ul ^ 2 : ℝ) : ℂ) *
    (-1 + ((2 * Real.log (innerLayer L l z0 / z0) + k ^ 2 / kx ^ 2 : ℝ) : ℂ) * σ * kv 1 (2 * σ) / kv 0 (2 * σ))

/-- The same across the wind, aeolis/shear.py:591-592. -/
def transferY (kv : ℝ → ℂ → ℂ) (L l z0 kx ky : ℝ) : ℂ :=
  let k := Real.sqrt (kx ^ 2 + ky ^ 2)
  let σ := sigma L l z0 kx
  let ul := innerVelocity L l z0
  ((kx * ky / k * 2 / ul ^ 2 : ℝ) : ℂ) * 2 * ((Real.sqrt 2 : ℝ) : ℂ) * σ * kv 1 (2 * ((Real.sqrt 2 : ℝ) : ℂ) * σ)

/-- Perturbation with a given ratio of the spectra, aeolis/shear.py:550-551,586-596. -/
def response (R C : ℕ) (T : ℕ → ℕ → ℂ) (z : ℕ → ℕ → ℝ) (j i : ℕ) : ℝ :=
  (ifft2 R C (fun q p => fft2 R C (fun j i => (z j i : ℂ)) q p * T q p) j i).re

/-- Parameters of the shear model: `L`, `l` (aeolis/shear.py:139-142) and the Bessel function. -/
structure Params where
  L : ℝ
  l : ℝ
  kv : ℝ → ℂ → ℂ

/-- Ratios of the spectra with tapering on a computational grid, aeolis/shear.py:547-592. `z0` is the roughness on the
computational grid (aeolis/shear.py:560-564; constant for a scalar roughness). -/
def spectralX (P : Params) (c : CGrid) (z0 : ℕ → ℕ → ℝ) (q p : ℕ) : ℂ :=
  let kx := wavenumber c.cols c.dx p
  let ky := wavenumber c.rows c.dy q
  (filterFactor 1 2 c.dx c.dy kx ky : ℂ) * transferX P.kv P.L P.l (z0 q p) kx ky

/-- The same across the wind, aeolis/shear.py:547-592. -/
def spectralY (P : Params) (c : CGrid) (z0 : ℕ → ℕ → ℝ) (q p : ℕ) : ℂ :=
  let kx := wavenumber c.cols c.dx p
  let ky := wavenumber c.rows c.dy q
  (filterFactor 1 2 c.dx c.dy kx ky : ℂ) * transferY P.kv P.L P.l (z0 q p) kx ky

/-- `compute_shear`, aeolis/shear.py:524-596: relative perturbation along and across the wind. -/
def computeShear (P : Params) (c : CGrid) (z0 : ℕ → ℕ → ℝ) (u0 : ℝ) (z : ℕ → ℕ → ℝ) (q p : ℕ) : ℝ × ℝ :=
  if u0 = 0 then (0, 0)
  else (response c.rows c.cols (spectralX P c z0) z q p, response c.rows c.cols (spectralY P c z0) z q p)

/-- `add_shear` in a cell, aeolis/shear.py:700-730. -/
def addShear (tau dtau : ℝ × ℝ) : ℝ × ℝ :=
  let t := Real.sqrt (tau.1 ^ 2 + tau.2 ^ 2)
  if t ≠ 0 then (t * (tau.1 / t + dtau.1), t * (tau.2 / t + dtau.2)) else tau

/-- Factor of `separation_shear`, aeolis/shear.py:611-615. -/
def sepFactor (hsep : ℝ) : ℝ := min (max (1 - 1 / (0.2 * 0.5) * hsep) 0) 1

/-! ### Flow separation -/

/-- Bed slope angle along the wind in a row with `n ≥ 3` columns, aeolis/shear.py:404-407. -/
def slopeAngle (n : ℕ) (dx : ℝ) (z : ℕ → ℝ) (i : ℕ) : ℝ :=
  let k := min i (n - 3)
  Real.arctan ((z (k + 2) - z k) / (2 * dx)) * 180 / Real.pi

/-- Slope angle steeper than streamlines can follow, aeolis/shear.py:414. -/
def steep (mu : ℝ) (dzx : ℕ → ℝ) (i : ℕ) : Prop := mu < |dzx i| ∧ dzx i < 0

/-- Stall, aeolis/shear.py:414-416.  The third argument of `np.logical_and` is its output array, so the cell downwind is not
looked at. -/
def stall (n : ℕ) (mu : ℝ) (dzx : ℕ → ℝ) (i : ℕ) : Prop :=
  steep mu dzx i ∨ (1 ≤ i ∧ i + 1 < n ∧ ¬ steep mu dzx i ∧ steep mu dzx (i - 1))

/-- Start of stall, aeolis/shear.py:419. -/
def brink0 (n : ℕ) (mu : ℝ) (dzx : ℕ → ℝ) (i : ℕ) : Prop :=
  i + 1 < n ∧ ¬ stall n mu dzx i ∧ stall n mu dzx (i + 1)

/-- Start of a separation bubble, shifted by one column, aeolis/shear.py:422-424.  The first column keeps its value. -/
def brink (n : ℕ) (mu : ℝ) (dzx : ℕ → ℝ) (i : ℕ) : Prop :=
  i + 1 < n ∧ if i = 0 then brink0 n mu dzx 0 else brink0 n mu dzx (i - 1)

/-- `z[j,i-3]`: negative positions count from the end, aeolis/shear.py:454,490. -/
def threeBack (n i : ℕ) : ℕ := if 3 ≤ i then i - 3 else n + i - 3

/-- First column from the fifth after the brink on where the bed does not descend, aeolis/shear.py:446-451. -/
def firstRise (n : ℕ) (dzx : ℕ → ℝ) (i : ℕ) : Option ℕ :=
  (List.range n).find? (fun m => decide (i + 5 ≤ m ∧ 0 ≤ dzx m))

/-- Height of the brink, aeolis/shear.py:448-451,484-487. -/
def brinkHeight (z : ℕ → ℝ) (i : ℕ) : Option ℕ → ℝ
  | none => z i
  | some m => z i - z m

/-- Length of the bubble, aeolis/shear.py:456-457. `s`: slope at the brink. -/
def bubbleLength (c h s : ℝ) : ℝ :=
  let a := s / c
  min (max (3 * h / (2 * c) * (1 + a / 4 + a ^ 2 / 8)) 0.1) 200

/-- Third order polynomial of the separating streamline, aeolis/shear.py:459-460,469. -/
def streamline (h s len start x : ℝ) : ℝ :=
  let a2 := -3 * h / len ^ 2 - 2 * s / len
  let a3 := 2 * h / len ^ 3 + s / len ^ 2
  a3 * x ^ 3 + a2 * x ^ 2 + s * x + start

/-- Separation surface and most recent polynomial, both zero at the start, aeolis/shear.py:399-400. -/
structure SepState where
  zsep : ℕ → ℕ → ℝ
  znew : ℕ → ℕ → ℝ

/-- What does not change during `separation`. Models aeolis/shear.py:373-407. -/
structure SepInput where
  /-- Columns of the computational grid. -/
  cols : ℕ
  dx : ℝ
  /-- Coordinate of a column. -/
  x : ℕ → ℝ
  /-- `np.max(x)`. -/
  xmax : ℝ
  z : ℕ → ℕ → ℝ
  c : ℝ
  mu : ℝ

/-- Maximum of bed, surface and new polynomial in row `j`, aeolis/shear.py:472,510. -/
def SepInput.raise (S : SepInput) (j : ℕ) (st : SepState) : SepState :=
  { st with zsep := fun j' i => if j' = j then max (max (S.z j i) (st.zsep j i)) (st.znew j i) else st.zsep j' i }

/-- Polynomial in columns `i ≤ m < stop` of row `j`, aeolis/shear.py:464-469,502-507. -/
def SepInput.fit (S : SepInput) (j i stop : ℕ) (h s len start : ℝ) (znew : ℕ → ℕ → ℝ) : ℕ → ℕ → ℝ :=
  fun j' m => if j' = j ∧ i ≤ m ∧ m < stop then streamline h s len start (S.x m - S.x i) else znew j' m

/-- First part of the work on bubble at column `i` of row `j`, aeolis/shear.py:446-472.  Only the case of a stress that is not
negative along the wind (`idir = 1`) is modelled, which is that of a wind-aligned grid. -/
def SepInput.first (S : SepInput) (j i : ℕ) (st : SepState) : SepState :=
  let z := S.z j
  let rise := firstRise S.cols (slopeAngle S.cols S.dx z) i
  let h := brinkHeight z i rise
  let s := (z i - z (threeBack S.cols i)) / (3 * S.dx)
  let len := bubbleLength S.c h s
  let stop := min (i + ⌊len / S.dx⌋₊ + 1) (S.cols - 1)
  S.raise j { st with znew := S.fit j i stop h s len (z i) st.znew }

/-- One `filter` iteration for bubble number `k`, aeolis/shear.py:474-510.  The loop variable `k` has replaced the array of wave
indices, so the spectrum is multiplied by one number, and so is the surface. -/
def SepInput.filter (S : SepInput) (k j i : ℕ) (st : SepState) : SepState :=
  let γ := Real.exp (-(2 * Real.pi / S.xmax * k * S.dx) ^ 2 / (2 * 1.5 ^ 2))
  let zf := fun m => γ * st.zsep j m
  let rise := firstRise S.cols (slopeAngle S.cols S.dx (S.z j)) i
  let h := brinkHeight zf i rise
  let s := (zf i - zf (threeBack S.cols i)) / (3 * S.dx)
  let len := bubbleLength S.c h s
  let stop := min (i + ⌊len / S.dx⌋₊) (S.cols - 1)
  S.raise j { st with znew := S.fit j i stop h s len h (fun _ _ => 0) }

/-- Bubbles in the order of `np.where`, aeolis/shear.py:430. -/
def SepInput.bubbles (S : SepInput) (rows : ℕ) : List (ℕ × ℕ) :=
  (List.range rows).flatMap fun j => ((List.range S.cols).filter fun i =>
    decide (brink S.cols S.mu (slopeAngle S.cols S.dx (S.z j)) i)).map fun i => (j, i)

/-- Work on one bubble, aeolis/shear.py:435-510.  `zfft` has as many rows as the grid has columns (aeolis/shear.py:383,402), so
filtering raises in rows beyond. -/
def SepInput.bubble (S : SepInput) (iterations k : ℕ) (b : ℕ × ℕ) (st : SepState) : Except PyErr SepState :=
  let st1 := S.first b.1 b.2 st
  if iterations = 0 then .ok st1
  else if S.cols ≤ b.1 then .error .indexError
  else .ok ((S.filter k b.1 b.2)^[iterations] st1)

/-- All bubbles, numbered from `k`, aeolis/shear.py:435-510. -/
def SepInput.walk (S : SepInput) (iterations : ℕ) : ℕ → List (ℕ × ℕ) → SepState → Except PyErr SepState
  | _, [], st => .ok st
  | k, b :: bs, st =>
    match S.bubble iterations k b st with
    | .ok st => S.walk iterations (k + 1) bs st
    | .error e => .error e

/-- `separation`, aeolis/shear.py:373-521. `weights`: how `gaussian_filter1d` combines the rows, if that is switched on. -/
def SepInput.surface (S : SepInput) (rows iterations : ℕ) (weights : Option (ℕ → ℕ → ℝ)) : Except PyErr (ℕ → ℕ → ℝ) :=
  match S.walk iterations 0 (S.bubbles rows) ⟨fun _ _ => 0, fun _ _ => 0⟩ with
  | .error e => .error e
  | .ok st =>
    let zsep := match weights with
      | none => st.zsep
      | some w => fun j i => ∑ k ∈ Finset.range rows, w j k * st.zsep k i
    .ok fun j i => if zsep j i < S.z j i then S.z j i else zsep j i

/-! ### Call -/

/-- Roughness length: one number or a field on the input grid, aeolis/shear.py:560-564. -/
inductive Rough where
  | scalar (z0 : ℝ)
  | field (z0 : ℕ → ℕ → ℝ)

/-- Settings of flow separation, aeolis/shear.py:146-147. -/
structure SepParams where
  c : ℝ
  mu : ℝ
  iterations : ℕ
  weights : Option (ℕ → ℕ → ℝ)

/-- Settings of a `WindShear` object, aeolis/shear.py:92-142. -/
structure Settings where
  dx : ℝ
  dy : ℝ
  buffer : ℝ
  params : Params
  rough : Rough

/-- What a call computes on the input grid: stress components and height of the separation bubble. Models
aeolis/shear.py:264-268. -/
structure Result where
  taux : ℕ → ℕ → ℝ
  tauy : ℕ → ℕ → ℝ
  hsep : Option (ℕ → ℕ → ℝ)

/-- Stress on the computational grid aligned with the wind, before it is rotated back, aeolis/shear.py:226-243: `sep` is the
separation surface, `pert` maps a bed to the relative perturbation, `tau` is the undisturbed stress. -/
def stressField (z : ℕ → ℕ → ℝ) (sep : Option (ℕ → ℕ → ℝ)) (pert : (ℕ → ℕ → ℝ) → ℕ → ℕ → ℝ × ℝ) (tau : ℝ × ℝ) (q p : ℕ) : ℝ × ℝ :=
  let zmax := match sep with
    | none => z
    | some zs => fun q p => max (z q p) (zs q p)
  let t := addShear tau (pert zmax q p)
  let t := (max t.1 0, t.2)
  match sep with
  | none => t
  | some _ => let f := sepFactor (zmax q p - z q p); (t.1 * f, t.2 * f)

/-- `WindShear.__call__`, aeolis/shear.py:145-296, on an input grid `g` with `R` rows and `C` columns (both at least 2) and bed
`z`; `tau0` is `(taus0, taun0)`.  Plotting is left out. -/
def call (S : Settings) (R C : ℕ) (g : ℕ → ℕ → ℝ × ℝ) (z : ℕ → ℕ → ℝ) (u0 udir : ℝ) (sep : Option SepParams) (tau0 : ℝ × ℝ) :
    Except PyErr Result :=
  let angle := 270 - udir
  let c := computationalGrid R C g S.dx S.dy S.buffer udir
  let o := c.origin
  -- rotated to the wind and filled
  let gc := fun q p => rotatePt (-angle) o (c.node q p)
  let zc := fun q p => interpolate R C o g z 0 (gc q p)
  -- back to horizontal
  let gc := fun q p => rotatePt angle o (gc q p)
  let gi := fun j i => rotatePt angle o (g j i)
  let tau := rotatePt angle (0, 0) tau0
  let z0 := match S.rough with
    | .scalar v => fun _ _ => v
    | .field f => fun q p => interpolate R C o gi f 0 (gc q p)
  let surface : Except PyErr (Option (ℕ → ℕ → ℝ)) := match sep with
    | none => .ok none
    | some s => (SepInput.surface ⟨c.cols, c.dx, fun p => (gc 0 p).1, (gc 0 (c.cols - 1)).1, zc, s.c, s.mu⟩
        c.rows s.iterations s.weights).map some
  match surface with
  | .error e => .error e
  | .ok zs =>
    let field := stressField zc zs (computeShear S.params c z0 u0) tau
    -- original orientation
    let gc := fun q p => rotatePt (-angle) o (gc q p)
    let gi := fun j i => rotatePt (-angle) o (gi j i)
    let field := fun q p => rotatePt (-angle) (0, 0) (field q p)
    .ok {
      taux := fun j i => interpolate c.rows c.cols o gc (fun q p => (field q p).1) tau0.1 (gi j i)
      tauy := fun j i => interpolate c.rows c.cols o gc (fun q p => (field q p).2) tau0.2 (gi j i)
      hsep := zs.map fun zs => fun j i =>
        interpolate c.rows c.cols o gc (fun q p => max (zc q p) (zs q p) - zc q p) 0 (gi j i) }

end

end Aeolis.Shear
