import Verif.Model.Runner

/-! Specification of a run: the chain of states it goes through. -/

namespace Aeolis.Spec

open Aeolis.Runner

variable {K W : Type*} [LinearOrder K]

/-- The state after the callback. -/
def afterCallback (e : Engine K W) (w : W) : W :=
  match e.callback with
  | none => w
  | some f => (f w).1

/-- `Path e tstop w ws v`: starting from `w`, rounds (callback, then update) are made from the states `ws`,
each not beyond the stop time, and the first state beyond it is `v`. -/
inductive Path (e : Engine K W) (tstop : K) : W → List W → W → Prop
  | stop (w : W) : tstop < e.time w → Path e tstop w [] w
  | step (w w' : W) (ws : List W) (v : W) : e.time w ≤ tstop → e.update (afterCallback e w) = .ok w' →
      Path e tstop w' ws v → Path e tstop w (w :: ws) v

/-- Same as `afterCallback`, on the flag that the runner needs: some value was asked from it. -/
def asks (e : Engine K W) (w : W) : Bool :=
  match e.callback with
  | none => false
  | some f => (f w).2

end Aeolis.Spec
