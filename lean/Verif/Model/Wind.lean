import Verif.Model.Interp
import Verif.Model.Utils
import Verif.Model.State
import Mathlib.Analysis.SpecialFunctions.Complex.Arg
import Mathlib.Analysis.SpecialFunctions.Log.Basic
import Mathlib.Algebra.Order.Archimedean.Real.Basic

/-!
Model of the wind and its shear, aeolis/wind.py:46-355.  The wind is uniform over the grid; fields are modelled per cell
unless cells interact.
-/

namespace Aeolis.Wind

noncomputable section

/-- Shear velocity and shear stress in a cell, with components along the two grid axes,
aeolis/wind.py:210-301. -/
@[ext]
structure Shear where
  ustar : ℝ
  ustars : ℝ
  ustarn : ℝ
  tau : ℝ
  taus : ℝ
  taun : ℝ

/-- `np.hypot`. Used in the code at aeolis/wind.py:134,227,279. -/
def hypot (a b : ℝ) : ℝ := Real.sqrt (a ^ 2 + b ^ 2)

/-- `np.arctan2(y, x)`: the argument of the complex number `x + iy`, 0 at the origin.  (The sign of zero is not
modelled: numpy returns `-π` for `y = -0.0`, `x < 0`.) Used in the code at aeolis/wind.py:118. -/
def arctan2 (y x : ℝ) : ℝ := Complex.arg ⟨x, y⟩

open Classical in
/-- `velocity_stress`, aeolis/wind.py:272-286. -/
def velocityStress (rhoa : ℝ) (c : Shear) : Shear :=
  let tau := rhoa * c.ustar ^ 2
  let taus := if 0 < c.ustar then tau * c.ustars / c.ustar else c.taus
  let taun := if 0 < c.ustar then tau * c.ustarn / c.ustar else c.taun
  let tau := hypot taus taun
  if c.ustar = 0 then { c with taus := 0, taun := 0, tau := 0 } else { c with taus := taus, taun := taun, tau := tau }

open Classical in
/-- `stress_velocity`, aeolis/wind.py:288-301. -/
def stressVelocity (rhoa : ℝ) (c : Shear) : Shear :=
  let ustar := Real.sqrt (c.tau / rhoa)
  let ustars := if 0 < c.tau then ustar * c.taus / c.tau else c.ustars
  let ustarn := if 0 < c.tau then ustar * c.taun / c.tau else c.ustarn
  if c.tau = 0 then { c with ustar := 0, ustars := 0, ustarn := 0 }
  else { c with ustar := ustar, ustars := ustars, ustarn := ustarn }

/-- A record of the wind file: time, speed, direction in degrees. Models aeolis/wind.py:113-119. -/
abbrev Record := ℝ × ℝ × ℝ

open Classical in
/-- Wind direction convention, aeolis/wind.py:51-68. -/
def applyConvention (convention : String) (file : List Record) : Except PyErr (List Record) :=
  if convention = "nautical" then
    .ok (file.map fun r => if r.2.2 = 0 then (r.1, r.2.1, 0.01) else r)
  else if convention = "cartesian" then
    .ok ((file.map fun r => if r.2.2 = 270 then (r.1, r.2.1, 270.01) else r).map
      fun r => (r.1, r.2.1, 270 - r.2.2))
  else .error .valueError

/-- Wind speed and direction at a time, aeolis/wind.py:113-119; `none` for an empty file. -/
def windAt (file : List Record) (t : ℝ) : Option (ℝ × ℝ) :=
  let rad : ℝ → ℝ := fun d => d / 180 * Real.pi
  match interpCircular (file.map fun r => (r.1, r.2.1)) t,
    interpCircular (file.map fun r => (r.1, Real.sin (rad r.2.2))) t,
    interpCircular (file.map fun r => (r.1, Real.cos (rad r.2.2))) t with
  | some uw, some s, some c => some (uw, arctan2 s c * 180 / Real.pi)
  | _, _, _ => none

/-- Wind components along the grid axes, aeolis/wind.py:121-122. -/
def components (alfa uw udir : ℝ) : ℝ × ℝ :=
  (-uw * Real.sin ((-alfa + udir) / 180 * Real.pi), -uw * Real.cos ((-alfa + udir) / 180 * Real.pi))

/-- Wind speed and shear in a cell after `interpolate`, aeolis/wind.py:121-144.  `uw`, `udir`: speed and direction at the current
time; `z0`: roughness of the cell; `old`: the previous values. -/
def interpolateCell (alfa kappa z rhoa : ℝ) (uw udir z0 : ℝ) (old : Shear) : ℝ × Shear :=
  let uws := (components alfa uw udir).1
  let uwn := (components alfa uw udir).2
  let ustars := uws * kappa / Real.log (z / z0)
  let ustarn := uwn * kappa / Real.log (z / z0)
  (|uw|, velocityStress rhoa { old with ustars := ustars, ustarn := ustarn, ustar := hypot ustars ustarn })

/-- What the roughness depends on: roughness parameter, constants, grain sizes with initial and actual composition, wind
speed. Models aeolis/wind.py:148-207. -/
structure Rough (n : ℕ) where
  k : ℝ
  z : ℝ
  kappa : ℝ
  rhog : ℝ
  rhoa : ℝ
  g : ℝ
  size : Fin n → ℝ
  dist : Fin n → ℝ
  mass : Fin n → ℝ
  uw : ℝ

open Classical in
/-- Van Rijn and Strypsteen's roughness from the median and the 90th percentile, aeolis/wind.py:189-206; `none` is NaN. -/
def vanRijn (kappa z rhog rhoa g uw d50 d90 : ℝ) : Option ℝ :=
  let us := kappa * (uw / Real.log (30 * z / d90))
  let ut := 0.1 * Real.sqrt ((rhog - rhoa) / rhoa * g * d50)
  let T := (us ^ 2 - ut ^ 2) / ut ^ 2
  if T = 0 then none else some ((d90 + 15 * (1 + 1 / T) * d50 * T) / 30)

/-- `calculate_z0`, aeolis/wind.py:148-207, in a cell; inner `none` is NaN.  An unknown method leaves `z0` unbound. -/
def roughness {n : ℕ} (method : String) (r : Rough n) : Except PyErr (Option ℝ) :=
  if method = "constant" then .ok (some r.k)
  else if method = "constant_nikuradse" then .ok (some (r.k / 30))
  else if method = "mean_grainsize_initial" then .ok (some ((∑ i, r.size i * r.dist i) / 30))
  else if method = "mean_grainsize_adaptive" then .ok ((meanGrainSize r.size r.mass).map (· / 30))
  else if method = "median_grainsize_adaptive" then
    .ok ((grainSizePercentile (List.ofFn r.size) (List.ofFn r.mass) 50).map (fun d => 2 * d / 30))
  else if method = "vanrijn_strypsteen" then
    if h : n = 1 then
      let d50 := r.size ⟨0, by omega⟩
      .ok (vanRijn r.kappa r.z r.rhog r.rhoa r.g r.uw d50 (2 * d50))
    else
      match grainSizePercentile (List.ofFn r.size) (List.ofFn r.mass) 50,
        grainSizePercentile (List.ofFn r.size) (List.ofFn r.mass) 90 with
      | some d50, some d90 => .ok (vanRijn r.kappa r.z r.rhog r.rhoa r.g r.uw d50 d90)
      | _, _ => .ok none
  else .error .nameError

/-- Central bed slope of a transect with cells `0..nx`, zero at both ends, aeolis/wind.py:327-331. -/
def slope (nx : ℕ) (dx : ℝ) (z : ℕ → ℝ) (i : ℕ) : ℝ :=
  if 1 ≤ i ∧ i < nx then (z (i + 1) - z (i - 1)) / 2 / dx else 0

/-- Ratio of the stress to that over a flat bed, aeolis/wind.py:332-343, for wind in the direction of increasing index. -/
def stressRatio (nx : ℕ) (dx : ℝ) (z : ℕ → ℝ) (i : ℕ) : ℝ :=
  let integ := ∑ j ∈ Finset.Icc ((i : ℤ) - nx) ((i : ℤ) - 1),
    if j ≠ 0 then slope nx dx z ((i : ℤ) - j).toNat / (j * Real.pi) else 0
  max (3 * (integ + 1 * slope nx dx z i) + 1) 0.1

/-- `np.flip` of a transect with cells `0..nx`. Models aeolis/wind.py:322-324,348-349. -/
def mirror (nx : ℕ) (f : ℕ → ℝ) (i : ℕ) : ℝ := f (nx - i)

open Classical in
/-- `compute_shear1d`, aeolis/wind.py:305-355, on a transect with cells `0..nx`, `1 ≤ nx`. -/
def shear1d (nx : ℕ) (x z : ℕ → ℝ) (c : ℕ → Shear) (i : ℕ) : Shear :=
  let ets := fun i => if (c i).tau ≠ 0 then (c i).taus / (c i).tau else 0
  let etn := fun i => if (c i).tau ≠ 0 then (c i).taun / (c i).tau else 0
  let back := ∑ i ∈ Finset.range (nx + 1), (c i).taus < 0
  let x' := if back then mirror nx x else x
  let z' := if back then mirror nx z else z
  let ratio := stressRatio nx |x' 1 - x' 0| z'
  let ratio := if back then mirror nx ratio else ratio
  let tau := (c i).tau * ratio i
  { c i with tau := tau, taus := tau * ets i, taun := tau * etn i }

/-- Reduction by flow separation, aeolis/wind.py:244-248: `zsep` is the separation surface. -/
def separationFactor (zsep zb : ℝ) : ℝ := min (max (1 - 1 / (0.2 * 0.5) * (zsep - zb)) 0) 1

/-- Last step of `separation1d`, aeolis/wind.py:503-504: the (smoothed) surface is nowhere below the bed.  The construction of
the surface before that is modelled in `separation1d` (Model/Separation1d.lean). -/
def liftSurface (raw zb : ℝ) : ℝ := if raw < zb then zb else raw

/-- `shear` for transects, aeolis/wind.py:237-251. `raw`: the separation surface before the last step, if separation is on. -/
def shearTransect (rhoa : ℝ) (nx : ℕ) (x z : ℕ → ℝ) (raw : Option (ℕ → ℝ)) (c : ℕ → Shear) (i : ℕ) : Shear :=
  let c1 := stressVelocity rhoa (shear1d nx x z c i)
  match raw with
  | none => c1
  | some raw =>
    let f := separationFactor (liftSurface (raw i) (z i)) (z i)
    stressVelocity rhoa { c1 with taus := c1.taus * f, taun := c1.taun * f }

end

end Aeolis.Wind
