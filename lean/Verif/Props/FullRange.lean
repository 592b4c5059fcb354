import Verif.Props.FullRun
import Verif.Props.HydroStep
import Verif.Props.Moisture
import Verif.Props.VegetationMore

/-!
C137: water, moisture, salt, vegetation and the clock in runs on a transect from the input files.
-/

set_option linter.unusedSectionVars false

namespace Aeolis.Props

open Finset Aeolis.Spec Aeolis.Sand Aeolis.Solver Aeolis.Whole Aeolis.Full

variable {nx nf : ℕ}

/-- A property of states that every call keeps holds after every run. -/
theorem run_keeps (sp : LinSolve nx 0) (C : Full.Config nx nf) (P : Full.State nx nf → Prop)
    (hP : ∀ (r : ℕ → ℝ) (dt : ℝ) (σ τ : Full.State nx nf) (b : Bool), Full.update sp C r dt σ = some (.ok (τ, b)) → P σ → P τ)
    (calls : List ((ℕ → ℝ) × ℝ)) (σ τ : Full.State nx nf) (h : Full.run sp C calls σ = some (.ok τ)) (h0 : P σ) : P τ := by
  induction calls generalizing σ with
  | nil => rwa [← Except.ok.inj (Option.some.inj h)]
  | cons x xs ih =>
    unfold Full.run at h
    match h1 : Full.update sp C x.1 x.2 σ with
    | none => simp [h1] at h
    | some (.error e) => simp [h1] at h
    | some (.ok (ρ, b)) =>
      simp only [h1] at h
      exact ih ρ h (hP x.1 x.2 σ ρ b h1 h0)

theorem step_positive {C : Full.Config nx nf} (hC : Usable C) {t dt : ℝ} {E : Env nx 0 nf} (hS : StepOf C t dt E) : 0 < E.dt := by
  rw [hS.time.2]
  split_ifs with h
  exacts [h, hC.step.2.1]

/-- **C137** With the infiltration method the moisture content stays between zero and the porosity, in all cells and runs. -/
theorem C137_moisture_infiltration (sp : LinSolve nx 0) (C : Full.Config nx nf) (hC : Usable C) (hon : C.moist.processMoist = true)
    (hm : lower C.moist.method = "infiltration") (hp : 0 ≤ C.moist.porosity) (calls : List ((ℕ → ℝ) × ℝ)) (σ τ : Full.State nx nf)
    (h : Full.run sp C calls σ = some (.ok τ)) (h0 : ∀ c, 0 ≤ (σ.moist c).moist ∧ (σ.moist c).moist ≤ C.moist.porosity) :
    ∀ c, 0 ≤ (τ.moist c).moist ∧ (τ.moist c).moist ≤ C.moist.porosity := by
  refine run_keeps sp C (fun σ => ∀ c, 0 ≤ (σ.moist c).moist ∧ (σ.moist c).moist ≤ C.moist.porosity) ?_ calls σ τ h h0
  intro r dt σ τ b hu h0
  obtain ⟨-, hbf, hbt, -⟩ := C133_step sp C hC r dt σ τ b hu
  cases b with
  | false => rwa [(hbf rfl).2.2.1]
  | true =>
    obtain ⟨E, -, hF, -⟩ := hbt rfl
    obtain ⟨-, met, -, -, -, hmo⟩ := hF.moisture
    exact fun c => ⟨(C61_range _ _ _ _ _ _ _ hon hm hp (hmo c)).1, (C61_range _ _ _ _ _ _ _ hon hm hp (hmo c)).2.1⟩

/-- **C137** With the soil moisture method the moisture content stays between the residual and the saturated content. -/
theorem C137_moisture_surface (sp : LinSolve nx 0) (C : Full.Config nx nf) (hC : Usable C) (hon : C.moist.processMoist = true)
    (hm : lower C.moist.method = "surf_moisture") (hr : C.moist.resw ≤ C.moist.satd) (calls : List ((ℕ → ℝ) × ℝ)) (σ τ : Full.State nx nf)
    (h : Full.run sp C calls σ = some (.ok τ)) (h0 : ∀ c, C.moist.resw ≤ (σ.moist c).moist ∧ (σ.moist c).moist ≤ C.moist.satd) :
    ∀ c, C.moist.resw ≤ (τ.moist c).moist ∧ (τ.moist c).moist ≤ C.moist.satd := by
  refine run_keeps sp C (fun σ => ∀ c, C.moist.resw ≤ (σ.moist c).moist ∧ (σ.moist c).moist ≤ C.moist.satd) ?_ calls σ τ h h0
  intro r dt σ τ b hu h0
  obtain ⟨-, hbf, hbt, -⟩ := C133_step sp C hC r dt σ τ b hu
  cases b with
  | false => rwa [(hbf rfl).2.2.1]
  | true =>
    obtain ⟨E, -, hF, -⟩ := hbt rfl
    intro c
    obtain ⟨-, met, -, -, -, hmo⟩ := hF.moisture
    obtain ⟨h1, -, h2, -⟩ := C62_range _ _ _ _ _ _ _ hon hm (hmo c)
    exact ⟨by rwa [min_eq_left hr] at h2, h1⟩

/-- **C137** The salt content stays between zero and one, for precipitation that is never negative. -/
theorem C137_salt (sp : LinSolve nx 0) (C : Full.Config nx nf) (hC : Usable C) (hF : SeriesOk C) (hl : 0 < C.moist.layerThickness)
    (hRH : ∀ rows, C.meteoFile = some rows → ∀ x ∈ rows, 0 ≤ x.2 2) (calls : List ((ℕ → ℝ) × ℝ)) (σ τ : Full.State nx nf)
    (h : Full.run sp C calls σ = some (.ok τ)) (h0 : ∀ c, 0 ≤ (σ.moist c).salt ∧ (σ.moist c).salt ≤ 1) :
    ∀ c, 0 ≤ (τ.moist c).salt ∧ (τ.moist c).salt ≤ 1 := by
  refine run_keeps sp C (fun σ => ∀ c, 0 ≤ (σ.moist c).salt ∧ (σ.moist c).salt ≤ 1) ?_ calls σ τ h h0
  intro r dt σ τ b hu h0
  obtain ⟨-, hbf, hbt, hle, -⟩ := C133_step sp C hC r dt σ τ b hu
  cases b with
  | false => rwa [(hbf rfl).2.2.1]
  | true =>
    obtain ⟨E, hS, hE, -⟩ := hbt rfl
    refine fun c => ⟨?_, hle (fun c => (h0 c).2) c⟩
    obtain ⟨s, met, -, -, hmet, hm⟩ := hE.moisture
    have hm := hm c
    by_cases hs : C.moist.processSalt = true
    · obtain ⟨h1, h2, h3⟩ := hF.salt hs
      obtain ⟨rows, h3⟩ := Option.ne_none_iff_exists'.mp h3
      obtain ⟨m, rfl, -, -, hrh, -⟩ := hmet.1 rows h1 h2 h3
      have hpos : 0 ≤ m.RH := by
        obtain ⟨hne, hinc⟩ := hF.meteo rows h3
        obtain ⟨hi, hhi⟩ : ∃ hi, ∀ p ∈ rows.map fun x => (x.1, x.2 2), p.2 ≤ hi := by
          generalize rows.map (fun x => (x.1, x.2 2)) = l
          induction l with
          | nil => exact ⟨0, by simp⟩
          | cons p l ih =>
            obtain ⟨hi, ih⟩ := ih
            refine ⟨max p.2 hi, fun q hq => ?_⟩
            rcases List.mem_cons.mp hq with rfl | hq
            · exact le_max_left _ _
            · exact (ih q hq).trans (le_max_right _ _)
        obtain ⟨v, hv, h4, -⟩ := C10_within_data_range (rows.map fun x => (x.1, x.2 2)) (by simpa using hne) (by
          unfold Increasing
          rw [List.pairwise_map]
          exact hinc) s 0 hi (fun p hp => ⟨by
            obtain ⟨x, hx, rfl⟩ := List.mem_map.mp hp
            exact hRH rows h3 x hx, hhi p hp⟩)
        rw [hrh] at hv
        rw [Option.some.inj hv]
        exact h4
      exact (C66_range _ _ _ _ _ _ _ hs hpos (step_positive hC hS).le hl (h0 c).1 hm).1
    · have : (τ.moist c).salt = (σ.moist c).salt := by
        unfold Moisture.update at hm
        match hk : Moisture.moisture C.moist σ.clock.t E.dt met ⟨τ.hydro.water.TWL c, σ.zb c, τ.hydro.gw c, τ.hydro.gwPrev c,
          τ.hydro.wetting c, (E.wind c).uw⟩ (σ.moist c) with
        | none => simp [hk] at hm
        | some (.error e) => simp [hk] at hm
        | some (.ok (s', ix)) =>
          simp only [hk, if_neg hs] at hm
          rw [← Except.ok.inj (Option.some.inj hm), moisture_salt hk]
      rw [this]
      exact (h0 c).1

/-- **C137** Salt is computed with the soil moisture method and a meteorological file only: no call succeeds otherwise. -/
theorem C137_salt_fails (sp : LinSolve nx 0) (C : Full.Config nx nf) (hC : Usable C) (hs : C.moist.processSalt = true)
    (hno : ¬ (C.moist.processMoist = true ∧ lower C.moist.method = "surf_moisture" ∧ C.meteoFile ≠ none)) (r : ℕ → ℝ) (dt : ℝ)
    (σ τ : Full.State nx nf) : Full.update sp C r dt σ ≠ some (.ok (τ, true)) := by
  intro h
  obtain ⟨-, -, hbt, -⟩ := C133_step sp C hC r dt σ τ true h
  obtain ⟨E, -, hF, -⟩ := hbt rfl
  obtain ⟨s, met, -, -, hmet, hm⟩ := hF.moisture
  obtain rfl := hmet.2 hno
  obtain ⟨e, he⟩ := (C66_failures _ _ _ _ _ hs).1 _ (hm ⟨0, by simp [cells]⟩)
  cases he

/-- **C137** With the height-based growth model heights stay between zero and the maximum, the density between zero and one and equal to
the square of the relative height. -/
theorem C137_vegetation_height (sp : LinSolve nx 0) (C : Full.Config nx nf) (hC : Usable C) (horig : C.shelter.veg.orig = true)
    (hmax : 0 < C.shelter.veg.hmax) (calls : List ((ℕ → ℝ) × ℝ)) (σ τ : Full.State nx nf) (h : Full.run sp C calls σ = some (.ok τ))
    (h0 : ∀ j, 0 ≤ (σ.veg j).h ∧ (σ.veg j).h ≤ C.shelter.veg.hmax ∧ (σ.veg j).rho = ((σ.veg j).h / C.shelter.veg.hmax) ^ 2 ∧
      ((σ.veg j).lat = 0 ∨ (σ.veg j).lat = 1)) (j : ℕ) :
    0 ≤ (τ.veg j).h ∧ (τ.veg j).h ≤ C.shelter.veg.hmax ∧ (τ.veg j).rho = ((τ.veg j).h / C.shelter.veg.hmax) ^ 2 ∧
      0 ≤ (τ.veg j).rho ∧ (τ.veg j).rho ≤ 1 := by
  have key : ∀ j, 0 ≤ (τ.veg j).h ∧ (τ.veg j).h ≤ C.shelter.veg.hmax ∧ (τ.veg j).rho = ((τ.veg j).h / C.shelter.veg.hmax) ^ 2 ∧
      ((τ.veg j).lat = 0 ∨ (τ.veg j).lat = 1) := by
    refine run_keeps sp C (fun σ => ∀ j, 0 ≤ (σ.veg j).h ∧ (σ.veg j).h ≤ C.shelter.veg.hmax ∧
      (σ.veg j).rho = ((σ.veg j).h / C.shelter.veg.hmax) ^ 2 ∧ ((σ.veg j).lat = 0 ∨ (σ.veg j).lat = 1)) ?_ calls σ τ h h0
    intro r dt σ τ b hu h0
    obtain ⟨-, hbf, hbt, -⟩ := C133_step sp C hC r dt σ τ b hu
    cases b with
    | false => rwa [(hbf rfl).2.2.2.1]
    | true =>
      obtain ⟨E, -, hF, -⟩ := hbt rfl
      rw [hF.veg]
      split_ifs with hv
      · intro j
        have := Props.grow_range (c := { C.shelter.veg with dtOpt := E.dt }) horig hmax C.shelter.dx
          ⟨τ.zb j, col (fun c => (τ.core.sand.bed c).zs) j, τ.dzbveg j⟩
        exact ⟨(this _ _ _ (h0 j).2.2.2).1, (this _ _ _ (h0 j).2.2.2).2.1, (this _ _ _ (h0 j).2.2.2).2.2.2.2.1, (this _ _ _ (h0 j).2.2.2).2.2.2.2.2.2⟩
      · exact h0
  obtain ⟨h1, h2, h3, -⟩ := key j
  have a := div_nonneg h1 hmax.le
  have b := div_le_one_of_le₀ h2 hmax.le
  exact ⟨h1, h2, h3, by rw [h3]; positivity, by rw [h3]; exact pow_le_one₀ a b⟩

/-- **C137** With the density-based growth model the density stays between zero and the maximum, in steps no longer than the growth time. -/
theorem C137_vegetation_density (sp : LinSolve nx 0) (C : Full.Config nx nf) (hC : Usable C) (horig : C.shelter.veg.orig = false)
    (hmax : 0 < C.shelter.veg.hmax) (hV : 0 < C.shelter.veg.Vver) (ht : 0 < C.shelter.veg.tVeg) (hg : 0 ≤ C.shelter.veg.gamma)
    (hv : 0 ≤ C.shelter.veg.vGam) (hr : 0 ≤ C.shelter.veg.rhoMax) (hdt0 : 0 ≤ C.shelter.veg.dt * C.shelter.veg.accfac)
    (hdt : C.shelter.veg.dt * C.shelter.veg.accfac / Veg.year ≤ C.shelter.veg.tVeg / 365)
    (calls : List ((ℕ → ℝ) × ℝ)) (σ τ : Full.State nx nf) (h : Full.run sp C calls σ = some (.ok τ))
    (h0 : ∀ j, 0 ≤ (σ.veg j).rho ∧ (σ.veg j).rho ≤ C.shelter.veg.rhoMax) :
    ∀ j, 0 ≤ (τ.veg j).rho ∧ (τ.veg j).rho ≤ C.shelter.veg.rhoMax := by
  refine run_keeps sp C (fun σ => ∀ j, 0 ≤ (σ.veg j).rho ∧ (σ.veg j).rho ≤ C.shelter.veg.rhoMax) ?_ calls σ τ h h0
  intro r dt σ τ b hu h0
  obtain ⟨-, hbf, hbt, -⟩ := C133_step sp C hC r dt σ τ b hu
  cases b with
  | false => rwa [(hbf rfl).2.2.2.1]
  | true =>
    obtain ⟨E, -, hF, -⟩ := hbt rfl
    rw [hF.veg]
    split_ifs with hv'
    · intro j
      have := Props.grow_density (c := { C.shelter.veg with dtOpt := E.dt }) horig hmax hV ht hg hv hr hdt0 hdt C.shelter.dx
        ⟨τ.zb j, col (fun c => (τ.core.sand.bed c).zs) j, τ.dzbveg j⟩
      exact ⟨(this _ _ _ (h0 j).1 (h0 j).2).1, (this _ _ _ (h0 j).1 (h0 j).2).2.1⟩
    · exact h0

/-- **C137** After an executed call, with or without groundwater, the water level is nowhere below the bed before the call; the wave height is at most the given fraction of
the depth and zero on dry cells. -/
theorem C137_water (sp : LinSolve nx 0) (C : Full.Config nx nf) (hC : Usable C) (r : ℕ → ℝ) (dt : ℝ) (σ τ : Full.State nx nf)
    (h : Full.update sp C r dt σ = some (.ok (τ, true))) (c : Fin (cells nx 0)) :
    σ.zb c ≤ τ.hydro.water.zs c ∧
    (∀ ts hi, C.water.processWave = true → C.water.waveFile = some ts → ts.Pairwise (fun a b => a.1 < b.1) → (∀ x ∈ ts, 0 ≤ x.2.1 ∧ x.2.1 ≤ hi) → 0 ≤ C.water.gamma →
      C.waveMask c = (1, 0) → 0 ≤ τ.hydro.water.Hs c ∧ τ.hydro.water.Hs c ≤ C.water.gamma * (τ.hydro.water.zs c - σ.zb c) ∧
        τ.hydro.water.Hs c ≤ hi) := by
  obtain ⟨-, -, hbt, -⟩ := C133_step sp C hC r dt σ τ true h
  obtain ⟨E, -, hE, -⟩ := hbt rfl
  obtain ⟨u, -, hi⟩ := C123_some_time _ _ _ _ _ _ _ hE.water
  have hz := C60_water_level _ _ _ _ _ hi c
  refine ⟨hz.2.1, fun ts top hp hts hinc hH hg hm => ?_⟩
  obtain ⟨h1, h2, h3, -⟩ := C60_waves _ _ _ _ _ ts hp hts hinc top hH hg hi c hm
  refine ⟨h1, ?_, h3⟩
  rw [hz.1]
  refine h2.trans (mul_le_mul_of_nonneg_left ?_ hg)
  simp only
  rw [max_comm, max_sub_sub_right (τ.hydro.water.SWL c) (σ.zb c) (σ.zb c) |>.symm, sub_self]

/-- **C137** After an executed call with groundwater in steps of at least a second the groundwater is at the set-up level where the bed was below
it, and at most at the bed elsewhere. -/
theorem C137_groundwater (sp : LinSolve nx 0) (C : Full.Config nx nf) (hC : Usable C) (hon : C.ground.on = true) (ht : 1 ≤ C.ground.tfac)
    (r : ℕ → ℝ) (dt : ℝ) (hle : C.ground.tfac ≤ if 0 < dt then dt else C.ts.dt) (σ τ : Full.State nx nf)
    (h : Full.update sp C r dt σ = some (.ok (τ, true))) (j : ℕ) :
    (σ.zb j < τ.hydro.water.DSWL j → τ.hydro.gw j = τ.hydro.water.DSWL j) ∧ (τ.hydro.water.DSWL j ≤ σ.zb j → τ.hydro.gw j ≤ σ.zb j) := by
  obtain ⟨-, -, hbt, -⟩ := C133_step sp C hC r dt σ τ true h
  obtain ⟨E, hS, hE, -⟩ := hbt rfl
  rw [← hS.time.2] at hle
  exact C123_limits _ _ { C.ground with n := nx + 1, ds := C.core.ds 0, x := C.x } _ _ _ _ hon ht hle hE.water j

/-- **C137** The clock after a run: every executed call adds the step asked for, or the step of the configuration if none is asked for, times
the acceleration factor; a call with a step below -1 adds its size. -/
theorem C137_clock (sp : LinSolve nx 0) (C : Full.Config nx nf) (hC : Usable C) (calls : List ((ℕ → ℝ) × ℝ)) (σ τ : Full.State nx nf)
    (h : Full.run sp C calls σ = some (.ok τ)) :
    τ.clock.t = σ.clock.t +
      (calls.map fun x => if x.2 < -1 then -x.2 else (if 0 < x.2 then x.2 else C.ts.dt) * C.accfac).sum := by
  induction calls generalizing σ with
  | nil => rw [← Except.ok.inj (Option.some.inj h)]; simp
  | cons x xs ih =>
    unfold Full.run at h
    match h1 : Full.update sp C x.1 x.2 σ with
    | none => simp [h1] at h
    | some (.error e) => simp [h1] at h
    | some (.ok (ρ, b)) =>
      simp only [h1] at h
      rw [ih ρ h, List.map_cons, List.sum_cons, ← add_assoc]
      congr 1
      obtain ⟨hb, hbf, hbt, -⟩ := C133_step sp C hC x.1 x.2 σ ρ b h1
      cases b with
      | false => rw [if_pos (hb.mp rfl), (hbf rfl).2.1]; ring
      | true =>
        obtain ⟨E, hS, -, ht, -⟩ := hbt rfl
        have hn : ¬ x.2 < -1 := fun hlt => absurd (hb.mpr hlt) (by simp)
        rw [if_neg hn, ht, hS.time.2]

/-! ### Examples -/

/-- A windy coast with dunes and vegetation: every run returns, sand is never wetter than its pores allow, plants never higher than a metre. -/
example (calls : List ((ℕ → ℝ) × ℝ)) : ∃ τ, Full.run byInverse (coastConfig 20 true) calls coastState = some (.ok τ) ∧
    (∀ c, 0 ≤ (τ.moist c).moist ∧ (τ.moist c).moist ≤ 0.4) ∧ (∀ c, 0 ≤ (τ.moist c).salt ∧ (τ.moist c).salt ≤ 1) ∧
    (∀ j, 0 ≤ (τ.veg j).h ∧ (τ.veg j).h ≤ 1) := by
  obtain ⟨τ, h⟩ := C133_run_total byInverse _ (coast_usable 20 true) duneConfig_names (coast_files 20 true) calls coastState fun _ _ => le_rfl
  refine ⟨τ, h, ?_, ?_, fun j => ?_⟩
  · exact C137_moisture_infiltration byInverse (coastConfig 20 true) (coast_usable 20 true) rfl
      (by show lower "infiltration" = "infiltration"; decide) (by norm_num [coastConfig]) calls coastState τ h
      fun _ => by norm_num [coastState, coastConfig]
  · exact C137_salt byInverse (coastConfig 20 true) (coast_usable 20 true) (coast_files 20 true).toSeriesOk (by norm_num [coastConfig])
      (fun rows hm => by simp [coastConfig] at hm) calls coastState τ h fun _ => by norm_num [coastState]
  · have := C137_vegetation_height byInverse (coastConfig 20 true) (coast_usable 20 true) rfl (by norm_num [coastConfig]) calls coastState τ h
      (fun _ => by norm_num [coastState, coastConfig]) j
    exact ⟨this.1, this.2.1⟩

/-- The coast with soil moisture from rain and evaporation, and salt. -/
noncomputable def saltyConfig : Full.Config 2 1 :=
  { coastConfig 20 true with
    moist := { (coastConfig 20 true).moist with method := "surf_moisture", processSalt := true }
    meteoFile := some [(0, ![10, 5, 1, 101, 80]), (3600, ![12, 8, 0, 101, 70])] }

theorem salty_usable : Usable saltyConfig :=
  let h := coast_usable 20 true
  ⟨h.core, h.grid, h.speed, h.on, h.kappa, h.rough, h.weights, h.mask, h.step⟩

theorem salty_files : FilesOk saltyConfig :=
  let h := coast_files 20 true
  ⟨⟨h.wind, h.tide, h.wave, fun _ => Or.inr ⟨by show lower "surf_moisture" = "surf_moisture"; decide, rfl, by simp [saltyConfig]⟩,
    fun _ => ⟨rfl, by show lower "surf_moisture" = "surf_moisture"; decide, by simp [saltyConfig]⟩,
    fun rows h => by obtain rfl := Option.some.inj h; exact ⟨by simp, by norm_num⟩, h.dune⟩, h.ground⟩

/-- Every run on it returns, with salt contents between zero and one. -/
example (calls : List ((ℕ → ℝ) × ℝ)) : ∃ τ, Full.run byInverse saltyConfig calls coastState = some (.ok τ) ∧
    ∀ c, 0 ≤ (τ.moist c).salt ∧ (τ.moist c).salt ≤ 1 := by
  obtain ⟨τ, h⟩ := C133_run_total byInverse _ salty_usable duneConfig_names salty_files calls coastState fun _ _ => le_rfl
  refine ⟨τ, h, C137_salt byInverse _ salty_usable salty_files.toSeriesOk (by norm_num [saltyConfig, coastConfig]) (fun rows hr x hx => ?_) calls coastState
    τ h fun _ => by norm_num [coastState]⟩
  obtain rfl := Option.some.inj hr
  simp only [List.mem_cons, List.not_mem_nil, or_false] at hx
  rcases hx with rfl | rfl
  · exact zero_le_one
  · exact le_rfl

/-- Without the file every call fails. -/
example (r : ℕ → ℝ) (dt : ℝ) (σ τ : Full.State 2 1) :
    Full.update byInverse { saltyConfig with meteoFile := none } r dt σ ≠ some (.ok (τ, true)) :=
  let h := salty_usable
  C137_salt_fails byInverse { saltyConfig with meteoFile := none }
    ⟨h.core, h.grid, h.speed, h.on, h.kappa, h.rough, h.weights, h.mask, h.step⟩ rfl (fun h => h.2.2 rfl) r dt σ τ

/-- The first call on this coast: the tide at -1 m leaves the bed at 1 m dry. -/
example (τ : Full.State 2 1) (r : ℕ → ℝ) (h : Full.update byInverse (coastConfig 20 true) r 0 coastState = some (.ok (τ, true)))
    (c : Fin (cells 2 0)) : τ.hydro.water.Hs c ≤ 0.5 * (τ.hydro.water.zs c - coastState.zb c) :=
  ((C137_water byInverse _ (coast_usable 20 true) r 0 coastState τ h c).2 _ 2 rfl rfl (by norm_num) (by norm_num)
    (by norm_num [coastConfig]) rfl).2.1

/-- Ten calls with the time step of the configuration take ten hours. -/
example (r : ℕ → ℝ) (τ : Full.State 2 1)
    (h : Full.run byInverse (coastConfig 20 true) (List.replicate 10 (r, 0)) coastState = some (.ok τ)) : τ.clock.t = coastState.clock.t + 36000 := by
  rw [C137_clock byInverse _ (coast_usable 20 true) _ _ _ h]
  norm_num [coastConfig]

/-- A beach of ten cells with groundwater and the rising tide. -/
noncomputable def lagoonConfig : Full.Config 9 1 where
  core := duneConfig
  wind := (coastConfig 20 false).wind
  shelter := ⟨false, 4.8, 0.3, false, "okin", 4.8, 0.3, 16, fun _ _ => 1 / 10,
    ⟨true, true, 5, 1, 0, 1, 3600, 3600, 1, 1, 1, 0.5, 0, 0.05, 0.2⟩, 1⟩
  ts := ⟨3600, false, 1, 999⟩
  accfac := 1
  alpha := 0
  x := fun j => j
  water := floodConfig
  tideMask := fun _ => (1, 0)
  waveMask := fun _ => (1, 0)
  runupMask := none
  ground := floodGround
  moist := (coastConfig 20 false).moist
  meteoFile := none
  thresholdMask := fun _ => (1, 0)
  zne := fun _ => some (-10)
  ava := ⟨false, 9, 0, fun _ _ => 1, fun _ _ => 1, fun _ _ => none, 34, 33, 1000⟩
  wetReset := false
  Tbedreset := 86400
  zb0 := fun _ => 1
  avgTime := 86400
  dune := ⟨false, ⟨3, 0.1, 1e-4⟩, fun _ _ _ _ _ => 1⟩
  duran := (coastConfig 20 false).duran

theorem lagoon_usable : Usable lagoonConfig where
  core := duneConfig_ok
  grid := ⟨by norm_num, by norm_num, fun _ _ _ _ => zero_le_one, fun _ _ _ _ => zero_le_one, fun _ _ _ _ => zero_le_one, fun _ _ _ _ _ => rfl⟩
  speed := rfl
  on := Or.inl rfl
  kappa := by norm_num [lagoonConfig, coastConfig]
  rough := ⟨0.001, Or.inl ⟨rfl, rfl⟩, by norm_num, by norm_num [lagoonConfig, coastConfig]⟩
  weights := fun _ _ => by norm_num [lagoonConfig]
  mask := fun _ => by norm_num [lagoonConfig]
  step := ⟨rfl, by norm_num [lagoonConfig], rfl⟩

theorem lagoon_series : SeriesOk lagoonConfig where
  wind := (coast_files 20 false).wind
  tide := fun ts h => by
    obtain rfl : [((0 : ℝ), (0 : ℝ)), (3240, 1), (7200, 1)] = ts := Option.some.inj h
    exact ⟨by simp, flood_inc⟩
  wave := fun ts h => by cases h
  moist := fun _ => Or.inl (by show lower "infiltration" = "infiltration"; decide)
  salt := fun h => by cases h
  meteo := fun rows h => by cases h
  dune := fun h => by cases h

/-- C133, C137: on a beach that rises a metre from cell to cell a call with groundwater returns, and the groundwater in the dry part is at most at
the bed. -/
example (r : ℕ → ℝ) (σ : Full.State 9 1) (h0 : ∀ c f, 0 ≤ (σ.core.cap c f).Cu0) (hz : ∀ j < 10, σ.zb j = (j : ℝ) - 2) :
    ∃ τ b, Full.update byInverse lagoonConfig r 3600 σ = some (.ok (τ, b)) ∧
      ∀ j < 10, τ.hydro.water.DSWL j ≤ (j : ℝ) - 2 → τ.hydro.gw j ≤ (j : ℝ) - 2 := by
  obtain ⟨τ, b, h, -⟩ := (C133_returns byInverse lagoonConfig lagoon_usable duneConfig_names lagoon_series r 3600 σ h0).mpr (Or.inr (by
      rw [if_pos (by norm_num)]
      refine (C123_succeeds _ _ _ _ _ _ rfl (by norm_num [lagoonConfig, floodGround]) (by norm_num)).mpr
        ⟨_, _, flood_steps, by norm_num [lagoonConfig, floodGround], Or.inl (by decide +kernel), fun k _ => ?_⟩
      obtain ⟨w, hw⟩ := C60_never_fails floodConfig ⟨σ.zb, fun _ => (1, 0), fun _ => (1, 0), none⟩ (σ.clock.t + k * (360 : ℤ)) σ.hydro.water
        lagoon_series.tide lagoon_series.wave
      obtain ⟨h1, h2⟩ := rising_levels _ _ _ _ hw
      refine ⟨w, hw, ?_, ?_, 5, by norm_num, by norm_num, ?_⟩
      all_goals rw [h1]; dsimp only
      · rw [hz 0 (by norm_num)]; have := (h2 0).1; norm_num; linarith
      · rw [hz 1 (by norm_num)]; have := (h2 1).1; norm_num; linarith
      · rw [hz 5 (by norm_num)]; have := (h2 5).2; norm_num; linarith))
  refine ⟨τ, b, h, fun j hj hl => ?_⟩
  obtain rfl : b = true := by
    cases b with
    | true => rfl
    | false =>
      have := (C133_step byInverse lagoonConfig lagoon_usable r 3600 σ τ false h).1.mp rfl
      norm_num at this
  rw [← hz j hj] at hl ⊢
  exact (C137_groundwater byInverse lagoonConfig lagoon_usable rfl (by norm_num [lagoonConfig, floodGround]) r 3600
    (by norm_num [lagoonConfig, floodGround]) σ τ h j).2 hl

end Aeolis.Props
