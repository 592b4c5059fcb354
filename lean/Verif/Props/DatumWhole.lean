import Verif.Props.WholeExamples

/-!
C160: the chain from wind to bed does not depend on the datum of the levels.
-/

namespace Aeolis.Props

open Finset Aeolis.Spec Aeolis.Sand Aeolis.Solver Aeolis.Whole

variable {nx ny nf : ℕ}

/-- A cell with bed and water level raised. -/
def higherCell (h : ℝ) (b : Bed.Cell ℝ nf) : Bed.Cell ℝ nf := { b with zb := b.zb + h, zs := b.zs + h }

/-- The state with bed and water levels raised; the sand is the same. -/
def higher (h : ℝ) (σ : Whole.State nx ny nf) : Whole.State nx ny nf :=
  { σ with sand := { σ.sand with bed := fun c => higherCell h (σ.sand.bed c) } }

/-- The second step differs from the first in the levels only: water and non-erodible layer are raised, and so are the results of the later
changes of the bed levels. -/
structure HigherEnv (h : ℝ) (E E' : Env nx ny nf) : Prop where
  same : E' = { E with zs := fun c => E.zs c + h, zne := fun c => (E.zne c).map (· + h), levels := E'.levels }
  levels : ∀ l c, E'.levels (fun c => ((l c).1 + h, (l c).2.1 + h, (l c).2.2)) c =
    ((E.levels l c).1 + h, (E.levels l c).2.1 + h, (E.levels l c).2.2)

theorem compute_higher (h : ℝ) (c : Threshold.Config nf) (x : Threshold.Cell nf) (s : Threshold.Thr nf) :
    Threshold.compute c { x with zb := x.zb + h, zs := x.zs + h, zne := x.zne.map (· + h) } s = Threshold.compute c x s := by
  have h1 : Threshold.exposed { x with zb := x.zb + h, zs := x.zs + h, zne := x.zne.map (· + h) } ↔ Threshold.exposed x := by
    unfold Threshold.exposed
    dsimp only
    cases x.zne with
    | none => simp
    | some z =>
      simp only [Option.map_some, Option.some.injEq, exists_eq_left']
      constructor <;> intro k <;> linarith
  have h2 : ∀ u, Threshold.corrections c { x with zb := x.zb + h, zs := x.zs + h, zne := x.zne.map (· + h) } u =
      Threshold.corrections c x u := by
    intro u
    unfold Threshold.corrections
    dsimp only
    rw [show x.zb + h - (x.zs + h) = x.zb - x.zs by ring]
    rfl
  unfold Threshold.compute
  dsimp only
  rw [h2, propext h1]
  rfl

theorem update_higher (h : ℝ) (p : Bed.Params ℝ nf) (b : Bed.Cell ℝ nf) : Bed.update p (higherCell h b) = higherCell h (Bed.update p b) := by
  unfold Bed.update higherCell
  dsimp only
  congr 1 <;> split_ifs <;> ring

theorem exchange_higher (sp : LinSolve nx ny) (C : Whole.Config nf) {h : ℝ} {E E' : Env nx ny nf} (hE : HigherEnv h E E')
    (σ : Whole.State nx ny nf) (thr : Fin (cells nx ny) → Threshold.Thr nf) (cap : Fin (cells nx ny) → Fin nf → Capacity)
    (speed : Fin (cells nx ny) → Fin nf → Transport.Speed) :
    Whole.exchange sp C E' (higher h σ) thr cap speed = (Whole.exchange sp C E σ thr cap speed).map (higher h) := by
  have h1 : matrices C E' speed = matrices C E speed := by rw [hE.same]; rfl
  have h2 : ∀ A, solverIn sp C E' (higher h σ) cap speed A = solverIn sp C E σ cap speed A := by intro A; rw [hE.same]; rfl
  have h3 : initialWeights C E' (higher h σ) cap = initialWeights C E σ cap := by rw [hE.same]; rfl
  unfold Whole.exchange
  rw [h1]
  cases matrices C E speed with
  | error e => rfl
  | ok A =>
    dsimp only
    rw [h2, h3]
    change (match solve (solverIn sp C E σ cap speed A) σ.sand.Ct (fun c => (σ.sand.bed c).pickup) (initialWeights C E σ cap) with
      | .error e => _
      | .ok o => _) = _
    cases solve (solverIn sp C E σ cap speed A) σ.sand.Ct (fun c => (σ.sand.bed c).pickup) (initialWeights C E σ cap) with
    | error e => rfl
    | ok o =>
      refine congrArg Except.ok ?_
      unfold higher
      dsimp only
      congr 2
      funext c
      exact update_higher h C.setup.bed { σ.sand.bed c with pickup := o.pickup c }

theorem transport_higher (sp : LinSolve nx ny) (C : Whole.Config nf) {h : ℝ} {E E' : Env nx ny nf} (hE : HigherEnv h E E')
    (σ : Whole.State nx ny nf) : Whole.transport sp C E' (higher h σ) = (Whole.transport sp C E σ).map fun r => r.map (higher h) := by
  have h1 : thresholds C E' (higher h σ) = thresholds C E σ := by
    unfold thresholds
    congr 1
    funext c
    rw [hE.same]
    exact compute_higher h C.thr (thrCell E σ c) (σ.thr c)
  have h2 : speeds C E' (higher h σ) = speeds C E σ := by rw [hE.same]; rfl
  have h3 : ∀ thr, capacities C E' (higher h σ) thr = capacities C E σ thr := by intro thr; rw [hE.same]; rfl
  unfold Whole.transport
  rw [h1, h2]
  cases thresholds C E σ with
  | error e => rfl
  | ok thr =>
    dsimp only
    cases speeds C E σ with
    | error e => rfl
    | ok speed =>
      dsimp only
      rw [h3]
      cases capacities C E σ thr with
      | error e => rfl
      | ok cap =>
        dsimp only
        cases reals fun x => (cap x).Cu with
        | none => rfl
        | some Cu =>
          cases reals fun x => (cap x).Cuf with
          | none => rfl
          | some Cuf =>
            cases reals fun x => (cap x).Cu0 with
            | none => rfl
            | some Cu0 =>
              dsimp only
              rw [exchange_higher sp C hE]
              rfl

theorem waves_higher (C : Whole.Config nf) {h : ℝ} {E E' : Env nx ny nf} (hE : HigherEnv h E E') (σ : Whole.State nx ny nf) :
    Whole.waves C E' (higher h σ) = higher h (Whole.waves C E σ) := by
  rw [hE.same]
  rfl

theorem relevel_higher {h : ℝ} {E E' : Env nx ny nf} (hE : HigherEnv h E E') (σ : Whole.State nx ny nf) :
    relevel E' (higher h σ) = higher h (relevel E σ) := by
  unfold relevel higher
  dsimp only
  congr 2
  funext c
  have := hE.levels (fun c => ((σ.sand.bed c).zb, (σ.sand.bed c).zs, (σ.sand.bed c).dzb)) c
  unfold higherCell
  dsimp only at this ⊢
  rw [this]

/-- **C160** A step of the chain from wind to bed: with bed, water and non-erodible layer raised by the same height the step ends in the same
way, with the same sand in bed and air, thresholds, capacities and weights, and with the levels raised by that height. -/
theorem C160_step (sp : LinSolve nx ny) (C : Whole.Config nf) (h : ℝ) (E E' : Env nx ny nf) (hE : HigherEnv h E E')
    (σ : Whole.State nx ny nf) : Whole.step sp C E' (higher h σ) = (Whole.step sp C E σ).map fun r => r.map (higher h) := by
  have hw : ∑ c, (E'.wind c).uw = ∑ c, (E.wind c).uw := by rw [hE.same]
  unfold Whole.step
  dsimp only
  rw [hw, waves_higher C hE, transport_higher sp C hE]
  split_ifs
  · cases Whole.transport sp C E (Whole.waves C E σ) with
    | none => rfl
    | some r =>
      cases r with
      | error e => rfl
      | ok τ => exact congrArg (fun x => some (Except.ok x)) (relevel_higher hE τ)
  · exact congrArg (fun x => some (Except.ok x)) (relevel_higher hE _)

/-- **C160** A run of the chain, whatever the wind, the water levels and the moisture. -/
theorem C160_chain (sp : LinSolve nx ny) (C : Whole.Config nf) (h : ℝ) (Es Es' : List (Env nx ny nf)) (hE : List.Forall₂ (HigherEnv h) Es Es')
    (σ : Whole.State nx ny nf) : Whole.run sp C Es' (higher h σ) = (Whole.run sp C Es σ).map fun r => r.map (higher h) := by
  induction hE generalizing σ with
  | nil => rfl
  | cons hE _ ih =>
    unfold Whole.run
    rw [C160_step sp C h _ _ hE]
    cases Whole.step sp C _ σ with
    | none => rfl
    | some r =>
      cases r with
      | error e => rfl
      | ok τ => exact ih τ

/-- A storm over the beach, at the datum and five metres above. -/
example (moist : Fin (cells 2 0) → ℝ) (n : ℕ) :
    ∃ τ, Whole.run byInverse duneConfig (List.replicate n (duneEnv 2 0 0.5 moist)) (duneState 2 0) = some (.ok τ) ∧
      Whole.run byInverse duneConfig (List.replicate n { duneEnv 2 0 0.5 moist with zs := fun _ => 5 }) (higher 5 (duneState 2 0)) =
        some (.ok (higher 5 τ)) := by
  obtain ⟨τ, hτ⟩ := C125_run_total byInverse duneConfig duneConfig_ok duneConfig_names duneGrid
    (List.replicate n (duneEnv 2 0 0.5 moist)) (fun E hE _ => by rw [List.eq_of_mem_replicate hE]; exact duneEnv_ok 0.5 (by norm_num) moist)
    (duneState 2 0) fun _ _ => le_rfl
  refine ⟨τ, hτ, ?_⟩
  rw [C160_chain byInverse duneConfig 5 (List.replicate n (duneEnv 2 0 0.5 moist)) _ ?_ (duneState 2 0), hτ]
  · rfl
  · refine List.forall₂_iff_get.mpr ⟨by simp, fun i h1 h2 => ?_⟩
    simp only [List.get_eq_getElem, List.getElem_replicate]
    refine ⟨?_, fun l c => rfl⟩
    simp [duneEnv]

end Aeolis.Props
