import Verif.Model.Threshold

/-!
Specification of the threshold properties.
-/

namespace Aeolis.Spec

open Aeolis.Threshold

/-- Moisture formulations that correct the threshold. -/
def incrementalMoist : List String :=
  ["belly_johnson", "hotta", "chepil", "saleh_fryear_mod", "shao", "dong_2002", "gregory_darwish"]

/-- Moisture formulations that replace the threshold. -/
def replacingMoist : List String := ["saleh_fryear", "cornelis", "dong_2007"]

/-- Physical parameters. -/
structure PhysicalBed {nf : ℕ} (c : Config nf) : Prop where
  Aa : 0 < c.Aa
  rhoa : 0 < c.rhoa
  rhog : c.rhoa < c.rhog
  rhow : 0 < c.rhow
  g : 0 < c.g
  porosity : c.porosity < 1
  resw : 0 ≤ c.reswMoist
  w15 : 0 < c.w15
  grain : 0 < ∑ k, c.grainSize k * c.grainDist k
  size : ∀ k, 0 ≤ c.grainSize k

/-- Water mass per dry sediment mass for a volumetric water content. -/
noncomputable def waterRatio {nf : ℕ} (c : Config nf) (vol : ℝ) : ℝ :=
  vol * c.rhow / (c.rhog * (1 - c.porosity))

end Aeolis.Spec
