import Verif.Model.Planar
import Verif.Proofs.Full
import Verif.Props.WholeBudget
import Verif.Props.SandAvalanche

/-!
Lemmas about a complete time step on a planar grid.
-/

set_option linter.unusedSectionVars false

namespace Aeolis.Planar

open Aeolis.Sand Aeolis.Solver Aeolis.Whole Aeolis.Wind
open Aeolis.Full (Now turn velocityStress_ustar stressVelocity_nonneg)

variable {nx ny nf : ℕ}

theorem grid_apply (X : Fin (cells nx ny) → ℝ) (c : Fin (cells nx ny)) : grid X (rowOf c) (colOf c) = X c := Props.onGrid_index X c

theorem grid_at (f : ℕ → ℕ → ℝ) (i j : ℕ) (hi : i ≤ ny) (hj : j ≤ nx) :
    grid (nx := nx) (ny := ny) (fun c => f (rowOf c) (colOf c)) i j = f i j := Props.onGrid_cell f i j hi hj

/-- Shear velocity of the undisturbed wind. -/
theorem shear0_ustar (C : Config nx ny nf) (σ : State nx ny nf) (w : ℝ × ℝ) (z0 : Fin (cells nx ny) → ℝ) (c : Fin (cells nx ny)) :
    (shear0 C σ w z0 c).ustar = |w.1| * |C.wind.kappa / Real.log (C.wind.z / z0 c)| := by
  have hv : ∀ s : Shear, (velocityStress C.wind.rhoa s).ustar = s.ustar := velocityStress_ustar _
  unfold shear0 turn interpolateCell
  simp only [hv]
  unfold components hypot
  rw [← abs_mul, ← Real.sqrt_sq_eq_abs]
  congr 1
  have := Real.sin_sq_add_cos_sq ((-C.wind.alfa + w.2) / 180 * Real.pi)
  simp only [mul_div_assoc]
  generalize C.wind.kappa / Real.log (C.wind.z / z0 c) = q
  linear_combination (w.1 * q) ^ 2 * this

theorem shear1_nonneg (C : Config nx ny nf) (r : Option Shear.Result) (s : Fin (cells nx ny) → Shear) (hs : ∀ c, 0 ≤ (s c).ustar)
    (c : Fin (cells nx ny)) : 0 ≤ (shear1 C r s c).ustar := by
  unfold shear1
  cases r with
  | none => exact hs c
  | some r => exact stressVelocity_nonneg _ _

theorem shear2_nonneg (C : Config nx ny nf) (σ : State nx ny nf) (now : Now) (s : Fin (cells nx ny) → Shear) (hs : ∀ c, 0 ≤ (s c).ustar)
    (c : Fin (cells nx ny)) : 0 ≤ (shear2 C σ now s c).ustar := by
  unfold shear2
  split_ifs
  · dsimp only
    rw [velocityStress_ustar]
    exact Real.sqrt_nonneg _
  · exact hs c

theorem shear3_nonneg (C : Config nx ny nf) (hw : ∀ i k, 0 ≤ C.shelter.vegWeights i k) (σ : State nx ny nf) (s : Fin (cells nx ny) → Shear)
    (hs : ∀ c, 0 ≤ (s c).ustar) (c : Fin (cells nx ny)) : 0 ≤ (shear3 C σ s c).ustar := by
  unfold shear3
  split_ifs
  · rw [velocityStress_ustar]
    unfold Lee.raupach
    refine mul_nonneg (hs c) (Finset.sum_nonneg fun k _ => mul_nonneg (hw _ _) ?_)
    unfold Lee.raupachFactor
    exact one_div_nonneg.mpr (Real.sqrt_nonneg _)
  · exact hs c

theorem shearNow_nonneg (C : Config nx ny nf) (hw : ∀ i k, 0 ≤ C.shelter.vegWeights i k) (σ : State nx ny nf) (now : Now)
    (r : Option Shear.Result) (w : ℝ × ℝ) (z0 : Fin (cells nx ny) → ℝ) (c : Fin (cells nx ny)) :
    0 ≤ (shearNow C σ now r (shear0 C σ w z0) c).ustar := by
  refine shear3_nonneg C hw σ _ (shear2_nonneg C σ _ _ (shear1_nonneg C r _ fun c => ?_)) c
  rw [shear0_ustar]
  positivity

/-- The steps before the choice of the time step. -/
theorem update_ok {sp : LinSolve nx ny} {C : Config nx ny nf} {r : ℕ → ℕ → ℝ} {dt : ℝ} {σ τ : State nx ny nf} {b : Bool}
    (h : update sp C r dt σ = some (.ok (τ, b))) : ∃ w z0 res, windNow C σ = .ok w ∧ roughnesses C σ w.1 = some (.ok z0) ∧
      stresses C σ (windComponents C w) (shear0 C σ w z0) = .ok res ∧
      let P := prepared C σ (windComponents C w) res (shearNow C σ (windComponents C w) res (shear0 C σ w z0))
      let k := setTimestep C.ts (tsGrids C P (windComponents C w)) P.clock dt
      b = k.2 ∧ (b = false → τ = { P with clock := k.1 }) ∧
      (b = true → execute sp C r (windComponents C w) (shear0 C σ w z0) { P with clock := k.1 } = some (.ok τ)) := by
  unfold update at h
  match h1 : windNow C σ with
  | .error e => simp [h1] at h
  | .ok w =>
    simp only [h1] at h
    match h2 : roughnesses C σ w.1 with
    | none => simp [h2] at h
    | some (.error e) => simp [h2] at h
    | some (.ok z0) =>
      simp only [h2] at h
      match h4 : stresses C σ (windComponents C w) (shear0 C σ w z0) with
      | .error e => simp [h4] at h
      | .ok res =>
      simp only [h4] at h
      refine ⟨w, z0, res, rfl, h2, h4, ?_⟩
      intro P k
      split_ifs at h with hk
      · match h3 : execute sp C r (windComponents C w) (shear0 C σ w z0) { P with clock := k.1 } with
        | none => simp [k, P, h3] at h
        | some (.error e) => simp [k, P, h3] at h
        | some (.ok ρ) =>
          have h3' := h3
          simp only [k, P] at h3'
          simp only [h3'] at h
          have := Except.ok.inj (Option.some.inj h)
          simp only [Prod.mk.injEq] at this
          obtain ⟨rfl, rfl⟩ := this
          exact ⟨hk.symm, fun h => absurd h (by simp), fun _ => rfl⟩
      · have := Except.ok.inj (Option.some.inj h)
        simp only [Prod.mk.injEq] at this
        obtain ⟨rfl, rfl⟩ := this
        exact ⟨by simpa using hk, fun _ => rfl, fun h => absurd h (by simp)⟩

/-- The steps after the choice of the time step. -/
theorem execute_ok {sp : LinSolve nx ny} {C : Config nx ny nf} {r : ℕ → ℕ → ℝ} {now : Now} {u0 : Fin (cells nx ny) → Shear} {σ τ : State nx ny nf}
    (h : execute sp C r now u0 σ = some (.ok τ)) : ∃ met w m E ρ zb,
      meteoAt C (Hydro.lastTime C.ground σ.clock.t σ.clock.dt) = .ok met ∧ waters C σ σ.clock.t σ.clock.dt = .ok w ∧
      moistures C σ σ.clock.t σ.clock.dt now.uw met w = some (.ok m) ∧ env C σ now u0 σ.shear σ.clock.dt (fun i => (w i).water) m σ.zsep = some E ∧
      Whole.step sp C.core E σ.core = some (.ok ρ) ∧
      eroded C σ.clock.t σ.clock.dt (fun i => (w i).water) (grid fun c => (ρ.sand.bed c).zb) = .ok zb ∧ τ = finished C r σ w m (withLevels ρ zb) := by
  unfold execute at h
  match h0 : meteoAt C (Hydro.lastTime C.ground σ.clock.t σ.clock.dt) with
  | .error e => simp [h0] at h
  | .ok met =>
  simp only [h0] at h
  match h1 : waters C σ σ.clock.t σ.clock.dt with
  | .error e => simp [h1] at h
  | .ok w =>
    simp only [h1] at h
    match h2 : moistures C σ σ.clock.t σ.clock.dt now.uw met w with
    | none => simp [h2] at h
    | some (.error e) => simp [h2] at h
    | some (.ok m) =>
      simp only [h2] at h
      match h3 : env C σ now u0 σ.shear σ.clock.dt (fun i => (w i).water) m σ.zsep with
      | none => simp [h3] at h
      | some E =>
        simp only [h3] at h
        match h4 : Whole.step sp C.core E σ.core with
        | none => simp [h4] at h
        | some (.error e) => simp [h4] at h
        | some (.ok ρ) =>
          simp only [h4] at h
          match h5 : eroded C σ.clock.t σ.clock.dt (fun i => (w i).water) (grid fun c => (ρ.sand.bed c).zb) with
          | .error e => simp [h5] at h
          | .ok zb =>
            simp only [h5] at h
            exact ⟨met, w, m, E, ρ, zb, rfl, rfl, h2, h3, h4, h5, (Except.ok.inj (Option.some.inj h)).symm⟩

theorem execute_intro {sp : LinSolve nx ny} {C : Config nx ny nf} {r : ℕ → ℕ → ℝ} {now : Now} {u0 : Fin (cells nx ny) → Shear}
    {σ : State nx ny nf} {met w m E ρ zb} (h0 : meteoAt C (Hydro.lastTime C.ground σ.clock.t σ.clock.dt) = .ok met) (h1 : waters C σ σ.clock.t σ.clock.dt = .ok w)
    (h2 : moistures C σ σ.clock.t σ.clock.dt now.uw met w = some (.ok m)) (h3 : env C σ now u0 σ.shear σ.clock.dt (fun i => (w i).water) m σ.zsep = some E)
    (h4 : Whole.step sp C.core E σ.core = some (.ok ρ))
    (h5 : eroded C σ.clock.t σ.clock.dt (fun i => (w i).water) (grid fun c => (ρ.sand.bed c).zb) = .ok zb) :
    execute sp C r now u0 σ = some (.ok (finished C r σ w m (withLevels ρ zb))) := by
  unfold execute
  simp only [h0, h1, h2, h3, h4, h5]

theorem update_intro {sp : LinSolve nx ny} {C : Config nx ny nf} {r : ℕ → ℕ → ℝ} {dt : ℝ} {σ τ P : State nx ny nf} {w z0 res k}
    (h1 : windNow C σ = .ok w) (h2 : roughnesses C σ w.1 = some (.ok z0))
    (h4 : stresses C σ (windComponents C w) (shear0 C σ w z0) = .ok res)
    (hP : P = prepared C σ (windComponents C w) res (shearNow C σ (windComponents C w) res (shear0 C σ w z0)))
    (hk : setTimestep C.ts (tsGrids C P (windComponents C w)) P.clock dt = (k, true))
    (h3 : execute sp C r (windComponents C w) (shear0 C σ w z0) { P with clock := k } = some (.ok τ)) :
    update sp C r dt σ = some (.ok (τ, true)) := by
  subst hP
  unfold update
  simp only [h1, h2, h4, hk, h3, if_true]

/-- A call of the wind shear module that returned. -/
theorem stresses_called {C : Config nx ny nf} {σ : State nx ny nf} {now : Now} {s : Fin (cells nx ny) → Shear} {res : Option Shear.Result}
    (h : stresses C σ now s = .ok res) (hn : now.uw ≠ 0) (hp : C.wind.processShear = true) : ∃ q, res = some q ∧
      Shear.call C.shearModule (ny + 1) (nx + 1) C.g σ.zb now.uw now.udir
        (if C.wind.processSeparation = true then some ⟨C.wind.cb, C.wind.mu, C.sepIterations, C.sepWeights⟩ else none)
        ((s origin).taus, (s origin).taun) = .ok q := by
  unfold stresses at h
  rw [if_pos ⟨hn, hp⟩] at h
  revert h
  generalize Shear.call C.shearModule (ny + 1) (nx + 1) C.g σ.zb now.uw now.udir
        (if C.wind.processSeparation = true then some ⟨C.wind.cb, C.wind.mu, C.sepIterations, C.sepWeights⟩ else none)
        ((s origin).taus, (s origin).taun) = q
  intro h
  cases q with
  | error e => simp [Except.map] at h
  | ok q => exact ⟨q, (Except.ok.inj h).symm, rfl⟩

/-- Without separation bubbles the wind shear module returns. -/
theorem stresses_total (C : Config nx ny nf) (σ : State nx ny nf) (now : Now) (s : Fin (cells nx ny) → Shear)
    (hb : C.wind.processShear = true → C.wind.processSeparation = false) : ∃ res, stresses C σ now s = .ok res := by
  unfold stresses
  split_ifs with h hs
  · exact absurd (hb h.2) (by simp [hs])
  · unfold Shear.call
    exact ⟨_, rfl⟩
  · exact ⟨_, rfl⟩

/-- The components of the wind in the rotated grid have the length of the wind speed. -/
theorem components_square (C : Config nx ny nf) (w : ℝ × ℝ) :
    (windComponents C w).uws ^ 2 + (windComponents C w).uwn ^ 2 = (windComponents C w).uw ^ 2 := by
  unfold windComponents components rotatePt
  simp only [sq_abs]
  have h1 := Real.sin_sq_add_cos_sq ((-C.wind.alfa + w.2) / 180 * Real.pi)
  have h2 := Real.sin_sq_add_cos_sq (C.alpha / 180 * Real.pi)
  generalize Real.sin ((-C.wind.alfa + w.2) / 180 * Real.pi) = a at *
  generalize Real.cos ((-C.wind.alfa + w.2) / 180 * Real.pi) = b at *
  generalize Real.sin (C.alpha / 180 * Real.pi) = s at *
  generalize Real.cos (C.alpha / 180 * Real.pi) = k at *
  linear_combination w.1 ^ 2 * (a ^ 2 + b ^ 2) * h2 + w.1 ^ 2 * h1

/-- Components of the wind in the rotated grid. -/
theorem components_direction (C : Config nx ny nf) (w : ℝ × ℝ) :
    (windComponents C w).uws = -w.1 * Real.sin ((w.2 - C.wind.alfa + C.alpha) / 180 * Real.pi) ∧
      (windComponents C w).uwn = -w.1 * Real.cos ((w.2 - C.wind.alfa + C.alpha) / 180 * Real.pi) := by
  have e : (w.2 - C.wind.alfa + C.alpha) / 180 * Real.pi = (-C.wind.alfa + w.2) / 180 * Real.pi + C.alpha / 180 * Real.pi := by ring
  rw [e, Real.sin_add, Real.cos_add]
  unfold windComponents components rotatePt
  constructor <;> ring

/-- The vegetation does not increase the shear velocity of the undisturbed wind, without shear over the topography and fences. -/
theorem shearNow_le (C : Config nx ny nf) (hfe : C.shelter.processFences = false)
    (hp : C.shelter.processVegetation = true →
      0 ≤ C.shelter.vegRoughness ∧ (∀ i k, 0 ≤ C.shelter.vegWeights i k) ∧ ∀ i, ∑ k, C.shelter.vegWeights i k = 1)
    (σ : State nx ny nf) (hveg : ∀ i j, 0 ≤ (σ.veg i j).rho) (now : Now) (w : ℝ × ℝ) (z0 : Fin (cells nx ny) → ℝ) (c : Fin (cells nx ny)) :
    (shearNow C σ now none (shear0 C σ w z0) c).ustar ≤ (shear0 C σ w z0 c).ustar ∧
      (0 < (shear0 C σ w z0 c).ustar → 0 < (shearNow C σ now none (shear0 C σ w z0) c).ustar) := by
  have h0 : ∀ c : Fin (cells nx ny), 0 ≤ (shear0 C σ w z0 c).ustar := fun c => by
    rw [shear0_ustar]
    positivity
  have e1 : shear2 C σ now (shear1 C none (shear0 C σ w z0)) = shear0 C σ w z0 := by
    funext j
    unfold shear2
    rw [if_neg (by rw [hfe]; simp)]
    rfl
  unfold shearNow
  rw [e1]
  unfold shear3
  split_ifs with hv
  · rw [velocityStress_ustar]
    obtain ⟨g0, w0, w1⟩ := hp hv
    have hf : ∀ k : Fin (cells nx ny), 0 < Lee.raupachFactor C.shelter.vegRoughness (σ.veg (rowOf k) (colOf k)).rho ∧
        Lee.raupachFactor C.shelter.vegRoughness (σ.veg (rowOf k) (colOf k)).rho ≤ 1 := fun k => Props.raupachFactor_range g0 (hveg _ _)
    have hle : ∑ k : Fin (cells nx ny), C.shelter.vegWeights c k *
        Lee.raupachFactor C.shelter.vegRoughness (σ.veg (rowOf k) (colOf k)).rho ≤ 1 := by
      rw [← w1 c]
      exact Finset.sum_le_sum fun k _ => mul_le_of_le_one_right (w0 c k) (hf k).2
    have hpos : 0 < ∑ k : Fin (cells nx ny), C.shelter.vegWeights c k *
        Lee.raupachFactor C.shelter.vegRoughness (σ.veg (rowOf k) (colOf k)).rho := by
      obtain ⟨k, -, hk⟩ : ∃ k ∈ Finset.univ, 0 < C.shelter.vegWeights c k := by
        by_contra hno
        push Not at hno
        have : ∑ k, C.shelter.vegWeights c k ≤ 0 := Finset.sum_nonpos fun k hk => hno k hk
        rw [w1 c] at this
        linarith
      exact Finset.sum_pos' (fun k _ => mul_nonneg (w0 c k) (hf k).1.le) ⟨k, Finset.mem_univ _, mul_pos hk (hf k).1⟩
    show (shear0 C σ w z0 c).ustar * _ ≤ _ ∧ (_ → 0 < (shear0 C σ w z0 c).ustar * _)
    exact ⟨mul_le_of_le_one_right (h0 c) hle, fun h => mul_pos h hpos⟩
  · exact ⟨le_rfl, id⟩

/-- The same step with the dune erosion among the changes of the levels. -/
noncomputable def withErosion (C : Config nx ny nf) (dt : ℝ) (w : Fin (ny + 1) → Hydro.Water) (E : Env nx ny nf) : Env nx ny nf :=
  { E with levels := fun l c =>
      ((match eroded C E.t dt w (grid fun c => (E.levels l c).1) with
        | .ok zb => zb (rowOf c) (colOf c)
        | .error _ => (E.levels l c).1), (E.levels l c).2.1, (E.levels l c).2.2) }

theorem step_withErosion {sp : LinSolve nx ny} {C : Config nx ny nf} {dt : ℝ} {w : Fin (ny + 1) → Hydro.Water} {E : Env nx ny nf}
    {σ ρ : Whole.State nx ny nf} {zb : ℕ → ℕ → ℝ} (h : Whole.step sp C.core E σ = some (.ok ρ))
    (he : eroded C E.t dt w (grid fun c => (ρ.sand.bed c).zb) = .ok zb) :
    Whole.step sp C.core (withErosion C dt w E) σ = some (.ok (withLevels ρ zb)) := by
  have key : ∀ τ : Whole.State nx ny nf, ρ = relevel E τ → relevel (withErosion C dt w E) τ = withLevels ρ zb := by
    rintro τ rfl
    have he : eroded C E.t dt w (grid fun c => (E.levels (fun c => ((τ.sand.bed c).zb, (τ.sand.bed c).zs, (τ.sand.bed c).dzb)) c).1) =
      .ok zb := he
    unfold withLevels
    simp only [relevel, withErosion, he]
  have ht : ∀ τ, transport sp C.core (withErosion C dt w E) τ = transport sp C.core E τ := fun _ => rfl
  have hw : waves C.core (withErosion C dt w E) σ = waves C.core E σ := rfl
  unfold Whole.step at h ⊢
  simp only at h ⊢
  rw [hw, ht]
  by_cases hx : ∑ c, (E.wind c).uw ≠ 0
  · rw [if_pos hx] at h
    rw [if_pos (show ∑ c, ((withErosion C dt w E).wind c).uw ≠ 0 from hx)]
    match h1 : transport sp C.core E (waves C.core E σ) with
    | none => simp [h1] at h
    | some (.error e) => simp [h1] at h
    | some (.ok τ) =>
      simp only [h1] at h ⊢
      rw [key τ (Except.ok.inj (Option.some.inj h)).symm]
  · rw [if_neg hx] at h
    rw [if_neg (show ¬ ∑ c, ((withErosion C dt w E).wind c).uw ≠ 0 from hx)]
    rw [key _ (Except.ok.inj (Option.some.inj h)).symm]

end Aeolis.Planar
