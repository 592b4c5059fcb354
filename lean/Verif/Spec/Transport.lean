import Verif.Model.Transport

/-!
Specification of the transport capacity and its thresholds, independent of the formulations.
-/

namespace Aeolis.Spec

open Aeolis.Transport XR

/-- The transport formulations of the documentation. -/
def transportMethods : List String :=
  ["bagnold", "bagnold_gs", "kawamura", "lettau", "dk", "sauermann", "vanrijn_strypsteen"]

/-- The grain speed methods of the documentation. -/
def grainspeedMethods : List String := ["duran", "windspeed", "constant"]

/-- Shear velocity `s` picks up nothing over threshold `th`: it does not exceed the threshold.  The
formulation 'dk' uses 80 % of the threshold (the impact threshold) and is proportional to it. -/
def NoPickup (method : String) (s : ℝ) (th : XR) : Prop :=
  if lower method = "dk" then th = fin 0 ∨ leOf s (fin 0.8 * th) else leOf s th

/-- Physical parameters: positive coefficients, densities, gravity. -/
structure Physical (p : Params) : Prop where
  Cb : 0 < p.Cb
  Ck : 0 < p.Ck
  Cl : 0 < p.Cl
  Cdk : 0 < p.Cdk
  rhoa : 0 < p.rhoa
  g : 0 < p.g
  accfac : 0 < p.accfac

end Aeolis.Spec
