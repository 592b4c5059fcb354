import Verif.Model.Full
import Verif.Props.WholeExamples
import Verif.Props.Lee
import Verif.Props.Hydro

/-!
Lemmas about a complete time step on a transect.
-/

set_option linter.unusedSectionVars false

namespace Aeolis.Full

open Aeolis.Sand Aeolis.Solver Aeolis.Whole Aeolis.Wind

variable {nx nf : ℕ}

theorem col_apply (X : Fin (cells nx 0) → ℝ) (c : Fin (cells nx 0)) : col X c = X c := by
  unfold col onGrid
  have h : 0 * (nx + 1) + (c : ℕ) < cells nx 0 := by rw [zero_mul, zero_add]; exact c.2
  rw [dif_pos h]
  congr 1
  ext
  simp

/-- Shear velocity of the undisturbed wind. -/
theorem shear0_ustar (C : Config nx nf) (σ : State nx nf) (w : ℝ × ℝ) (z0 : Fin (cells nx 0) → ℝ) (c : Fin (cells nx 0)) :
    (shear0 C σ w z0 c).ustar = |w.1| * |C.wind.kappa / Real.log (C.wind.z / z0 c)| := by
  have hv : ∀ s : Shear, (velocityStress C.wind.rhoa s).ustar = s.ustar := by
    intro s
    unfold velocityStress
    dsimp only
    split_ifs <;> rfl
  unfold shear0 turn interpolateCell
  simp only [hv, col_apply]
  unfold components hypot
  rw [← abs_mul, ← Real.sqrt_sq_eq_abs]
  congr 1
  have := Real.sin_sq_add_cos_sq ((-C.wind.alfa + w.2) / 180 * Real.pi)
  simp only [mul_div_assoc]
  generalize C.wind.kappa / Real.log (C.wind.z / z0 c) = q
  linear_combination (w.1 * q) ^ 2 * this

theorem velocityStress_ustar (rhoa : ℝ) (s : Shear) : (velocityStress rhoa s).ustar = s.ustar := by
  unfold velocityStress
  dsimp only
  split_ifs <;> rfl

theorem stressVelocity_nonneg (rhoa : ℝ) (s : Shear) : 0 ≤ (stressVelocity rhoa s).ustar := by
  unfold stressVelocity
  dsimp only
  split_ifs
  · exact le_rfl
  · exact Real.sqrt_nonneg _
  · exact Real.sqrt_nonneg _

theorem shearTransect_nonneg (rhoa : ℝ) (x z : ℕ → ℝ) (raw : Option (ℕ → ℝ)) (s : ℕ → Shear) (i : ℕ) :
    0 ≤ (shearTransect rhoa nx x z raw s i).ustar := by
  unfold shearTransect
  cases raw with
  | none => exact stressVelocity_nonneg _ _
  | some raw => exact stressVelocity_nonneg _ _

theorem shear1_nonneg (C : Config nx nf) (σ : State nx nf) (now : Now) (s : ℕ → Shear) (hs : ∀ c : Fin (cells nx 0), 0 ≤ (s c).ustar)
    (c : Fin (cells nx 0)) : 0 ≤ (shear1 C σ now s c).ustar := by
  unfold shear1
  split_ifs
  · exact shearTransect_nonneg _ _ _ _ _ _
  · exact hs c

theorem okin_nonneg (c1 ic dir : ℝ) (n : ℕ) (x height : ℕ → ℝ) (s : ℕ → Shear) (j : ℕ) : 0 ≤ (Lee.okin c1 ic dir n x height s j).ustar := by
  obtain ⟨f, -, -, e, -⟩ := Props.C70_reduces c1 ic dir n x height s j
  rw [e]
  exact le_trans (by norm_num) (le_max_left _ _)

theorem shear2_nonneg (C : Config nx nf) (σ : State nx nf) (now : Now) (s : ℕ → Shear) (hs : ∀ c : Fin (cells nx 0), 0 ≤ (s c).ustar)
    (c : Fin (cells nx 0)) : 0 ≤ (shear2 C σ now s c).ustar := by
  unfold shear2
  split_ifs
  · rw [velocityStress_ustar]
    exact okin_nonneg _ _ _ _ _ _ _ _
  · exact hs c

theorem shear3_nonneg (C : Config nx nf) (hw : ∀ i k, 0 ≤ C.shelter.vegWeights i k) (σ : State nx nf) (now : Now) (s : ℕ → Shear)
    (hs : ∀ c : Fin (cells nx 0), 0 ≤ (s c).ustar) (c : Fin (cells nx 0)) : 0 ≤ (shear3 C σ now s c).ustar := by
  unfold shear3
  split_ifs with h1 h2 h3
  · rw [velocityStress_ustar]
    exact okin_nonneg _ _ _ _ _ _ _ _
  · rw [velocityStress_ustar]
    unfold Lee.raupach
    refine mul_nonneg (hs c) (Finset.sum_nonneg fun k _ => mul_nonneg (hw _ _) ?_)
    unfold Lee.raupachFactor
    exact one_div_nonneg.mpr (Real.sqrt_nonneg _)
  · exact absurd c.2 h3
  · exact hs c

theorem shearNow_nonneg (C : Config nx nf) (hw : ∀ i k, 0 ≤ C.shelter.vegWeights i k) (σ : State nx nf) (w : ℝ × ℝ)
    (z0 : Fin (cells nx 0) → ℝ) (c : Fin (cells nx 0)) : 0 ≤ (shearNow C σ w z0 c).ustar := by
  refine shear3_nonneg C hw σ _ _ (shear2_nonneg C σ _ _ (shear1_nonneg C σ _ _ fun c => ?_)) c
  rw [shear0_ustar]
  positivity

/-- The steps before the choice of the time step. -/
theorem update_ok {sp : LinSolve nx 0} {C : Config nx nf} {r : ℕ → ℝ} {dt : ℝ} {σ τ : State nx nf} {b : Bool}
    (h : update sp C r dt σ = some (.ok (τ, b))) : ∃ w z0, windNow C σ = .ok w ∧ roughnesses C σ w.1 = some (.ok z0) ∧
      let k := setTimestep C.ts (tsGrids C (prepared C σ w z0) (windComponents C w)) (prepared C σ w z0).clock dt
      b = k.2 ∧ (b = false → τ = { prepared C σ w z0 with clock := k.1 }) ∧
      (b = true → execute sp C r (windComponents C w) (shear0 C σ w z0) { prepared C σ w z0 with clock := k.1 } = some (.ok τ)) := by
  unfold update at h
  match h1 : windNow C σ with
  | .error e => simp [h1] at h
  | .ok w =>
    simp only [h1] at h
    match h2 : roughnesses C σ w.1 with
    | none => simp [h2] at h
    | some (.error e) => simp [h2] at h
    | some (.ok z0) =>
      simp only [h2] at h
      refine ⟨w, z0, rfl, h2, ?_⟩
      intro k
      split_ifs at h with hk
      · match h3 : execute sp C r (windComponents C w) (shear0 C σ w z0) { prepared C σ w z0 with clock := k.1 } with
        | none => simp [k, h3] at h
        | some (.error e) => simp [k, h3] at h
        | some (.ok ρ) =>
          have h3' := h3
          simp only [k] at h3'
          simp only [h3'] at h
          have := Except.ok.inj (Option.some.inj h)
          simp only [Prod.mk.injEq] at this
          obtain ⟨rfl, rfl⟩ := this
          exact ⟨hk.symm, fun h => absurd h (by simp), fun _ => rfl⟩
      · have := Except.ok.inj (Option.some.inj h)
        simp only [Prod.mk.injEq] at this
        obtain ⟨rfl, rfl⟩ := this
        exact ⟨by simpa using hk, fun _ => rfl, fun h => absurd h (by simp)⟩

/-- The steps after the choice of the time step. -/
theorem execute_ok {sp : LinSolve nx 0} {C : Config nx nf} {r : ℕ → ℝ} {now : Now} {u0 : ℕ → Shear} {σ τ : State nx nf}
    (h : execute sp C r now u0 σ = some (.ok τ)) : ∃ met w m E ρ zb,
      meteoAt C (Hydro.lastTime C.ground σ.clock.t σ.clock.dt) = .ok met ∧
      Hydro.hydroStep C.water (row C σ) (groundIn C) σ.clock.t σ.clock.dt σ.hydro = .ok w ∧
      moistures C σ σ.clock.t σ.clock.dt now.uw met w = some (.ok m) ∧ env C σ now u0 σ.shear σ.clock.dt w m σ.zsep = some E ∧
      Whole.step sp C.core E σ.core = some (.ok ρ) ∧
      eroded C σ.clock.t σ.clock.dt w.water (col fun c => (ρ.sand.bed c).zb) = .ok zb ∧ τ = finished C r σ σ.zb w m (withLevels ρ zb) := by
  unfold execute at h
  match h0 : meteoAt C (Hydro.lastTime C.ground σ.clock.t σ.clock.dt) with
  | .error e => simp [h0] at h
  | .ok met =>
  simp only [h0] at h
  match h1 : Hydro.hydroStep C.water (row C σ) (groundIn C) σ.clock.t σ.clock.dt σ.hydro with
  | .error e => simp [h1] at h
  | .ok w =>
    simp only [h1] at h
    match h2 : moistures C σ σ.clock.t σ.clock.dt now.uw met w with
    | none => simp [h2] at h
    | some (.error e) => simp [h2] at h
    | some (.ok m) =>
      simp only [h2] at h
      match h3 : env C σ now u0 σ.shear σ.clock.dt w m σ.zsep with
      | none => simp [h3] at h
      | some E =>
        simp only [h3] at h
        match h4 : Whole.step sp C.core E σ.core with
        | none => simp [h4] at h
        | some (.error e) => simp [h4] at h
        | some (.ok ρ) =>
          simp only [h4] at h
          match h5 : eroded C σ.clock.t σ.clock.dt w.water (col fun c => (ρ.sand.bed c).zb) with
          | .error e => simp [h5] at h
          | .ok zb =>
            simp only [h5] at h
            exact ⟨met, w, m, E, ρ, zb, rfl, rfl, h2, h3, h4, h5, (Except.ok.inj (Option.some.inj h)).symm⟩

theorem execute_intro {sp : LinSolve nx 0} {C : Config nx nf} {r : ℕ → ℝ} {now : Now} {u0 : ℕ → Shear} {σ : State nx nf} {met w m E ρ zb}
    (h0 : meteoAt C (Hydro.lastTime C.ground σ.clock.t σ.clock.dt) = .ok met)
    (h1 : Hydro.hydroStep C.water (row C σ) (groundIn C) σ.clock.t σ.clock.dt σ.hydro = .ok w)
    (h2 : moistures C σ σ.clock.t σ.clock.dt now.uw met w = some (.ok m)) (h3 : env C σ now u0 σ.shear σ.clock.dt w m σ.zsep = some E)
    (h4 : Whole.step sp C.core E σ.core = some (.ok ρ))
    (h5 : eroded C σ.clock.t σ.clock.dt w.water (col fun c => (ρ.sand.bed c).zb) = .ok zb) :
    execute sp C r now u0 σ = some (.ok (finished C r σ σ.zb w m (withLevels ρ zb))) := by
  unfold execute
  simp only [h0, h1, h2, h3, h4, h5]

theorem update_intro {sp : LinSolve nx 0} {C : Config nx nf} {r : ℕ → ℝ} {dt : ℝ} {σ τ : State nx nf} {w z0 k} (h1 : windNow C σ = .ok w)
    (h2 : roughnesses C σ w.1 = some (.ok z0))
    (hk : setTimestep C.ts (tsGrids C (prepared C σ w z0) (windComponents C w)) (prepared C σ w z0).clock dt = (k, true))
    (h3 : execute sp C r (windComponents C w) (shear0 C σ w z0) { prepared C σ w z0 with clock := k } = some (.ok τ)) :
    update sp C r dt σ = some (.ok (τ, true)) := by
  unfold update
  simp only [h1, h2, hk, h3, if_true]

/-- The components of the wind in the rotated grid have the length of the wind speed. -/
theorem components_square (C : Config nx nf) (w : ℝ × ℝ) :
    (windComponents C w).uws ^ 2 + (windComponents C w).uwn ^ 2 = (windComponents C w).uw ^ 2 := by
  unfold windComponents components rotatePt
  simp only [sq_abs]
  have h1 := Real.sin_sq_add_cos_sq ((-C.wind.alfa + w.2) / 180 * Real.pi)
  have h2 := Real.sin_sq_add_cos_sq (C.alpha / 180 * Real.pi)
  generalize Real.sin ((-C.wind.alfa + w.2) / 180 * Real.pi) = a at *
  generalize Real.cos ((-C.wind.alfa + w.2) / 180 * Real.pi) = b at *
  generalize Real.sin (C.alpha / 180 * Real.pi) = s at *
  generalize Real.cos (C.alpha / 180 * Real.pi) = k at *
  linear_combination w.1 ^ 2 * (a ^ 2 + b ^ 2) * h2 + w.1 ^ 2 * h1

/-- Components of the wind in the rotated grid. -/
theorem components_direction (C : Config nx nf) (w : ℝ × ℝ) :
    (windComponents C w).uws = -w.1 * Real.sin ((w.2 - C.wind.alfa + C.alpha) / 180 * Real.pi) ∧
      (windComponents C w).uwn = -w.1 * Real.cos ((w.2 - C.wind.alfa + C.alpha) / 180 * Real.pi) := by
  have e : (w.2 - C.wind.alfa + C.alpha) / 180 * Real.pi = (-C.wind.alfa + w.2) / 180 * Real.pi + C.alpha / 180 * Real.pi := by ring
  rw [e, Real.sin_add, Real.cos_add]
  unfold windComponents components rotatePt
  constructor <;> ring

/-- The undisturbed shear velocity has the direction of the wind. -/
theorem shear0_direction (C : Config nx nf) (σ : State nx nf) (w : ℝ × ℝ) (z0 : Fin (cells nx 0) → ℝ) (c : Fin (cells nx 0)) :
    (shear0 C σ w z0 c).ustars = (windComponents C w).uws * (C.wind.kappa / Real.log (C.wind.z / z0 c)) ∧
      (shear0 C σ w z0 c).ustarn = (windComponents C w).uwn * (C.wind.kappa / Real.log (C.wind.z / z0 c)) := by
  have hv : ∀ s : Shear, (velocityStress C.wind.rhoa s).ustars = s.ustars ∧ (velocityStress C.wind.rhoa s).ustarn = s.ustarn := by
    intro s
    unfold velocityStress
    dsimp only
    split_ifs <;> exact ⟨rfl, rfl⟩
  unfold shear0 turn interpolateCell windComponents rotatePt
  simp only [(hv _).1, (hv _).2, col_apply]
  constructor <;> ring

/-- Fences and vegetation after Okin do not increase the shear velocity beyond 0.01 m/s. -/
theorem okin_le (c1 ic dir : ℝ) (n : ℕ) (x height : ℕ → ℝ) (s : ℕ → Shear) (j : ℕ) (h : 0 ≤ (s j).ustar) :
    (Lee.okin c1 ic dir n x height s j).ustar ≤ max 0.01 (s j).ustar ∧ 0 < (Lee.okin c1 ic dir n x height s j).ustar := by
  obtain ⟨f, h0, h1, e, -⟩ := Props.C70_reduces c1 ic dir n x height s j
  rw [e]
  exact ⟨max_le_max le_rfl (mul_le_of_le_one_left h h1), lt_of_lt_of_le (by norm_num) (le_max_left _ _)⟩

/-- The shear in vegetation and behind fences if the shear over the topography is not computed. -/
theorem shearNow_le (C : Config nx nf) (hs : C.wind.processShear = false)
    (hp : C.shelter.processVegetation = true → C.shelter.vegType ≠ "okin" →
      0 ≤ C.shelter.vegRoughness ∧ (∀ i k, 0 ≤ C.shelter.vegWeights i k) ∧ ∀ i, ∑ k, C.shelter.vegWeights i k = 1)
    (σ : State nx nf) (hveg : ∀ j, 0 ≤ (σ.veg j).rho) (w : ℝ × ℝ) (z0 : Fin (cells nx 0) → ℝ) (c : Fin (cells nx 0)) :
    (shearNow C σ w z0 c).ustar ≤ max 0.01 (shear0 C σ w z0 c).ustar ∧
      (0 < (shear0 C σ w z0 c).ustar → 0 < (shearNow C σ w z0 c).ustar) := by
  have h0 : ∀ c : Fin (cells nx 0), 0 ≤ (shear0 C σ w z0 c).ustar := fun c => by
    rw [shear0_ustar]
    positivity
  have e1 : shear1 C σ (windComponents C w) (shear0 C σ w z0) = shear0 C σ w z0 := by
    funext j
    unfold shear1
    rw [if_neg (by rw [hs]; simp)]
  unfold shearNow
  rw [e1]
  have h2 : ∀ c : Fin (cells nx 0), (shear2 C σ (windComponents C w) (shear0 C σ w z0) c).ustar ≤ max 0.01 (shear0 C σ w z0 c).ustar ∧
      (0 < (shear0 C σ w z0 c).ustar → 0 < (shear2 C σ (windComponents C w) (shear0 C σ w z0) c).ustar) := by
    intro c
    unfold shear2
    split_ifs
    · rw [velocityStress_ustar]
      exact ⟨(okin_le _ _ _ _ _ _ _ _ (h0 c)).1, fun _ => (okin_le _ _ _ _ _ _ _ _ (h0 c)).2⟩
    · exact ⟨le_max_right _ _, fun h => h⟩
  have h2' := shear2_nonneg C σ (windComponents C w) (shear0 C σ w z0) h0
  generalize shear2 C σ (windComponents C w) (shear0 C σ w z0) = s at h2 h2'
  unfold shear3
  split_ifs with hv hk hj
  · rw [velocityStress_ustar]
    obtain ⟨a, b⟩ := okin_le C.shelter.vegC1 C.shelter.vegIntercept (Lee.plantDir (windComponents C w).udir) (nx + 1) C.x
      (fun j => (σ.veg j).h) s c (h2' c)
    exact ⟨a.trans (max_le (le_max_left _ _) (h2 c).1), fun _ => b⟩
  · rw [velocityStress_ustar]
    obtain ⟨g0, w0, w1⟩ := hp hv hk
    have hf : ∀ k : Fin (cells nx 0), 0 < Lee.raupachFactor C.shelter.vegRoughness (σ.veg k).rho ∧
        Lee.raupachFactor C.shelter.vegRoughness (σ.veg k).rho ≤ 1 := fun k => Props.raupachFactor_range g0 (hveg k)
    have hle : ∑ k : Fin (cells nx 0), C.shelter.vegWeights c k * Lee.raupachFactor C.shelter.vegRoughness (σ.veg k).rho ≤ 1 := by
      rw [← w1 c]
      exact Finset.sum_le_sum fun k _ => mul_le_of_le_one_right (w0 c k) (hf k).2
    have hpos : 0 < ∑ k : Fin (cells nx 0), C.shelter.vegWeights c k * Lee.raupachFactor C.shelter.vegRoughness (σ.veg k).rho := by
      obtain ⟨k, -, hk⟩ : ∃ k ∈ Finset.univ, 0 < C.shelter.vegWeights c k := by
        by_contra hno
        push Not at hno
        have : ∑ k, C.shelter.vegWeights c k ≤ 0 := Finset.sum_nonpos fun k hk => hno k hk
        rw [w1 c] at this
        linarith
      exact Finset.sum_pos' (fun k _ => mul_nonneg (w0 c k) (hf k).1.le) ⟨k, Finset.mem_univ _, mul_pos hk (hf k).1⟩
    show (s c).ustar * _ ≤ _ ∧ (_ → 0 < (s c).ustar * _)
    exact ⟨(mul_le_of_le_one_right (h2' c) hle).trans (h2 c).1, fun h => mul_pos ((h2 c).2 h) hpos⟩
  · exact absurd c.2 hj
  · exact h2 c

/-- The moisture does not touch the salt. -/
theorem moisture_salt {c : Moisture.Config} {t dt : ℝ} {met : Option Moisture.Meteo} {x : Moisture.Input} {s s' : Moisture.Cell}
    {ix : Option Prop} (h : Moisture.moisture c t dt met x s = some (.ok (s', ix))) : s'.salt = s.salt := by
  unfold Moisture.moisture at h
  split_ifs at h
  · have := Except.ok.inj (Option.some.inj h)
    simp only [Prod.mk.injEq] at this
    rw [← this.1]
  · match met with
    | none => simp at h
    | some met =>
      simp only at h
      match hs : Moisture.surface c t dt met x s with
      | none => simp [hs] at h
      | some q =>
        simp only [hs] at h
        have := Except.ok.inj (Option.some.inj h)
        simp only [Prod.mk.injEq] at this
        rw [← this.1]
        have hcap : ∀ q q' : Moisture.Cell, Moisture.capillary c t x q = some q' → q'.salt = q.salt := by
          intro q q' hq
          unfold Moisture.capillary at hq
          split_ifs at hq
          · rw [← Option.some.inj hq]
          · unfold Moisture.scanning at hq
            match hd : Moisture.hdelta c x q with
            | none => simp [hd] at hq
            | some d =>
              simp only [hd] at hq
              rw [← Option.some.inj hq]
          · rw [← Option.some.inj hq]
          · rw [← Option.some.inj hq]
        unfold Moisture.surface at hs
        simp only at hs
        generalize (if x.zb < x.twl then _ else _ : ℝ) = m at hs
        match hd : Moisture.capillary c t x { s with moist := m } with
        | none => simp [hd] at hs
        | some r =>
          simp only [hd] at hs
          rw [← Option.some.inj hs]
          have := hcap _ _ hd
          exact this
  · simp at h
  · have := Except.ok.inj (Option.some.inj h)
    simp only [Prod.mk.injEq] at this
    rw [← this.1]

/-- The same step with the dune erosion among the changes of the levels. -/
noncomputable def withErosion (C : Config nx nf) (dt : ℝ) (w : Hydro.Water) (E : Env nx 0 nf) : Env nx 0 nf :=
  { E with levels := fun l c =>
      ((match eroded C E.t dt w (col fun c => (E.levels l c).1) with
        | .ok zb => zb c
        | .error _ => (E.levels l c).1), (E.levels l c).2.1, (E.levels l c).2.2) }

theorem step_withErosion {sp : LinSolve nx 0} {C : Config nx nf} {dt : ℝ} {w : Hydro.Water} {E : Env nx 0 nf} {σ ρ : Whole.State nx 0 nf}
    {zb : ℕ → ℝ} (h : Whole.step sp C.core E σ = some (.ok ρ))
    (he : eroded C E.t dt w (col fun c => (ρ.sand.bed c).zb) = .ok zb) :
    Whole.step sp C.core (withErosion C dt w E) σ = some (.ok (withLevels ρ zb)) := by
  have key : ∀ τ : Whole.State nx 0 nf, ρ = relevel E τ → relevel (withErosion C dt w E) τ = withLevels ρ zb := by
    rintro τ rfl
    have he : eroded C E.t dt w (col fun c => (E.levels (fun c => ((τ.sand.bed c).zb, (τ.sand.bed c).zs, (τ.sand.bed c).dzb)) c).1) =
      .ok zb := he
    unfold withLevels
    simp only [relevel, withErosion, he]
  have ht : ∀ τ, transport sp C.core (withErosion C dt w E) τ = transport sp C.core E τ := fun _ => rfl
  have hw : waves C.core (withErosion C dt w E) σ = waves C.core E σ := rfl
  unfold Whole.step at h ⊢
  simp only at h ⊢
  rw [hw, ht]
  by_cases hx : ∑ c, (E.wind c).uw ≠ 0
  · rw [if_pos hx] at h
    rw [if_pos (show ∑ c, ((withErosion C dt w E).wind c).uw ≠ 0 from hx)]
    match h1 : transport sp C.core E (waves C.core E σ) with
    | none => simp [h1] at h
    | some (.error e) => simp [h1] at h
    | some (.ok τ) =>
      simp only [h1] at h ⊢
      rw [key τ (Except.ok.inj (Option.some.inj h)).symm]
  · rw [if_neg hx] at h
    rw [if_neg (show ¬ ∑ c, ((withErosion C dt w E).wind c).uw ≠ 0 from hx)]
    rw [key _ (Except.ok.inj (Option.some.inj h)).symm]

end Aeolis.Full
