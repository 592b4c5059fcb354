import Verif.Spec.Threshold

/-!
Specification of the moisture formulations of the threshold: formulas over the real numbers.
-/

namespace Aeolis.Spec

open Aeolis.Threshold Finset

noncomputable section

/-- What a moisture formulation reads: water per dry mass, its value at 1.5 MPa, densities of air, grains and water, gravity and mean grain
size. -/
structure WetSand where
  V : ℝ
  w15 : ℝ
  rhoa : ℝ
  rhog : ℝ
  rhow : ℝ
  g : ℝ
  D : ℝ

/-- The sand of a configuration with a volumetric water content. -/
def wetSand {nf : ℕ} (c : Config nf) (vol : ℝ) : WetSand :=
  ⟨waterRatio c vol, c.w15, c.rhoa, c.rhog, c.rhow, c.g, ∑ k, c.grainSize k * c.grainDist k⟩

/-- Weight of a grain in air per area and density of the air, `(ρg - ρa) / ρa g D`. -/
def WetSand.weight (s : WetSand) : ℝ := (s.rhog - s.rhoa) / s.rhoa * s.g * s.D

/-- The coefficient of Dong (2002) for a mean grain size in millimetres. -/
def dongCoefficient (d : ℝ) : ℝ :=
  if 0.4 ≤ d then 2.15 else if 0.25 ≤ d then 1.87 else if 0.2 ≤ d then 1.59 else if 0.15 ≤ d then 2.75
  else if 0.135 ≤ d then 2.05 else 2.51

/-- The threshold over moist sand if it is `v` over dry sand, by name of the formulation. -/
def wetThreshold (s : WetSand) (v : ℝ) : List (String × ℝ) :=
  [("belly_johnson", v * max 1 (1.8 + 0.6 * Real.logb 10 (100 * s.V))),
   ("hotta", v + 7.5 * s.V),
   ("chepil", Real.sqrt (v ^ 2 + 0.6 * (s.V / s.w15) ^ 2 / s.rhoa)),
   ("saleh_fryear", 0.305 + 0.022 * (s.V / s.w15) + 0.506 * (s.V / s.w15) ^ 2),
   ("saleh_fryear_mod", v + 0.022 * (s.V / s.w15) + 0.506 * (s.V / s.w15) ^ 2),
   ("shao", v * Real.exp (22.7 * s.V)),
   ("dong_2002", v * Real.sqrt (1 + 100 * dongCoefficient (1000 * s.D) * s.V)),
   ("gregory_darwish", v * Real.sqrt (1 + s.V + 6 * 6.12e-05 / (Real.pi * s.rhog * s.g * s.D ^ 2)
      + 738.8 / (s.rhow * s.g * s.D) * Real.exp (-(0.1 * s.V / s.w15)) * max (s.V - s.w15 / 2) 0)),
   ("cornelis", Real.sqrt (0.013 * (1 + s.V + 1.7e-4 / (s.rhoa * s.D) *
      (1 + 3e14 * 0.075 ^ 2 * s.D / 1e9 * Real.exp (6.5 * s.V / s.w15))))),
   ("dong_2007", 0.16 * Real.sqrt s.weight * (1 + 478.2 * s.V ^ (1.52 : ℝ)))]

end

end Aeolis.Spec
