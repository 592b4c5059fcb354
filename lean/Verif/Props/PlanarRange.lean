import Verif.Props.PlanarRun
import Verif.Props.HydroStep
import Verif.Props.Moisture
import Verif.Props.VegetationMore

/-!
C144: water, moisture, salt, vegetation and the clock in runs on a planar grid from the input files.
-/

set_option linter.unusedSectionVars false

namespace Aeolis.Props

open Finset Aeolis.Spec Aeolis.Sand Aeolis.Solver Aeolis.Whole Aeolis.Planar

variable {nx ny nf : ℕ}

/-- A property of states that every call keeps holds after every run. -/
theorem planar_run_keeps (sp : LinSolve nx ny) (C : Planar.Config nx ny nf) (P : Planar.State nx ny nf → Prop)
    (hP : ∀ (r : ℕ → ℕ → ℝ) (dt : ℝ) (σ τ : Planar.State nx ny nf) (b : Bool), Planar.update sp C r dt σ = some (.ok (τ, b)) → P σ → P τ)
    (calls : List ((ℕ → ℕ → ℝ) × ℝ)) (σ τ : Planar.State nx ny nf) (h : Planar.run sp C calls σ = some (.ok τ)) (h0 : P σ) : P τ := by
  induction calls generalizing σ with
  | nil => rwa [← Except.ok.inj (Option.some.inj h)]
  | cons x xs ih =>
    unfold Planar.run at h
    match h1 : Planar.update sp C x.1 x.2 σ with
    | none => simp [h1] at h
    | some (.error e) => simp [h1] at h
    | some (.ok (ρ, b)) =>
      simp only [h1] at h
      exact ih ρ h (hP x.1 x.2 σ ρ b h1 h0)

theorem planar_step_positive {C : Planar.Config nx ny nf} (hC : PlanarUsable C) {t dt : ℝ} {E : Env nx ny nf} (hS : PlanarStep C t dt E) : 0 < E.dt := by
  rw [hS.time.2]
  split_ifs with h
  exacts [h, hC.step.2.1]

/-- **C144** With the infiltration method the moisture content stays between zero and the porosity, in all cells and runs. -/
theorem C144_moisture_infiltration (sp : LinSolve nx ny) (C : Planar.Config nx ny nf) (hC : PlanarUsable C) (hon : C.moist.processMoist = true)
    (hm : lower C.moist.method = "infiltration") (hp : 0 ≤ C.moist.porosity) (calls : List ((ℕ → ℕ → ℝ) × ℝ)) (σ τ : Planar.State nx ny nf)
    (h : Planar.run sp C calls σ = some (.ok τ)) (h0 : ∀ c, 0 ≤ (σ.moist c).moist ∧ (σ.moist c).moist ≤ C.moist.porosity) :
    ∀ c, 0 ≤ (τ.moist c).moist ∧ (τ.moist c).moist ≤ C.moist.porosity := by
  refine planar_run_keeps sp C (fun σ => ∀ c, 0 ≤ (σ.moist c).moist ∧ (σ.moist c).moist ≤ C.moist.porosity) ?_ calls σ τ h h0
  intro r dt σ τ b hu h0
  obtain ⟨-, hbf, hbt, -⟩ := C140_step sp C hC r dt σ τ b hu
  cases b with
  | false => rwa [(hbf rfl).2.2.1]
  | true =>
    obtain ⟨E, -, hF, -⟩ := hbt rfl
    obtain ⟨-, met, -, -, -, hmo⟩ := hF.moisture
    exact fun c => ⟨(C61_range _ _ _ _ _ _ _ hon hm hp (hmo c)).1, (C61_range _ _ _ _ _ _ _ hon hm hp (hmo c)).2.1⟩

/-- **C144** With the soil moisture method the moisture content stays between the residual and the saturated content. -/
theorem C144_moisture_surface (sp : LinSolve nx ny) (C : Planar.Config nx ny nf) (hC : PlanarUsable C) (hon : C.moist.processMoist = true)
    (hm : lower C.moist.method = "surf_moisture") (hr : C.moist.resw ≤ C.moist.satd) (calls : List ((ℕ → ℕ → ℝ) × ℝ)) (σ τ : Planar.State nx ny nf)
    (h : Planar.run sp C calls σ = some (.ok τ)) (h0 : ∀ c, C.moist.resw ≤ (σ.moist c).moist ∧ (σ.moist c).moist ≤ C.moist.satd) :
    ∀ c, C.moist.resw ≤ (τ.moist c).moist ∧ (τ.moist c).moist ≤ C.moist.satd := by
  refine planar_run_keeps sp C (fun σ => ∀ c, C.moist.resw ≤ (σ.moist c).moist ∧ (σ.moist c).moist ≤ C.moist.satd) ?_ calls σ τ h h0
  intro r dt σ τ b hu h0
  obtain ⟨-, hbf, hbt, -⟩ := C140_step sp C hC r dt σ τ b hu
  cases b with
  | false => rwa [(hbf rfl).2.2.1]
  | true =>
    obtain ⟨E, -, hF, -⟩ := hbt rfl
    intro c
    obtain ⟨-, met, -, -, -, hmo⟩ := hF.moisture
    obtain ⟨h1, -, h2, -⟩ := C62_range _ _ _ _ _ _ _ hon hm (hmo c)
    exact ⟨by rwa [min_eq_left hr] at h2, h1⟩

/-- **C144** The salt content stays between zero and one, for precipitation that is never negative. -/
theorem C144_salt (sp : LinSolve nx ny) (C : Planar.Config nx ny nf) (hC : PlanarUsable C) (hF : PlanarSeries C) (hl : 0 < C.moist.layerThickness)
    (hRH : ∀ rows, C.meteoFile = some rows → ∀ x ∈ rows, 0 ≤ x.2 2) (calls : List ((ℕ → ℕ → ℝ) × ℝ)) (σ τ : Planar.State nx ny nf)
    (h : Planar.run sp C calls σ = some (.ok τ)) (h0 : ∀ c, 0 ≤ (σ.moist c).salt ∧ (σ.moist c).salt ≤ 1) :
    ∀ c, 0 ≤ (τ.moist c).salt ∧ (τ.moist c).salt ≤ 1 := by
  refine planar_run_keeps sp C (fun σ => ∀ c, 0 ≤ (σ.moist c).salt ∧ (σ.moist c).salt ≤ 1) ?_ calls σ τ h h0
  intro r dt σ τ b hu h0
  obtain ⟨-, hbf, hbt, hle, -⟩ := C140_step sp C hC r dt σ τ b hu
  cases b with
  | false => rwa [(hbf rfl).2.2.1]
  | true =>
    obtain ⟨E, hS, hE, -⟩ := hbt rfl
    refine fun c => ⟨?_, hle (fun c => (h0 c).2) c⟩
    obtain ⟨s₀, met, -, -, hmet, hm⟩ := hE.moisture
    have hm := hm c
    by_cases hs : C.moist.processSalt = true
    · obtain ⟨h1, h2, h3⟩ := hF.salt hs
      obtain ⟨rows, h3⟩ := Option.ne_none_iff_exists'.mp h3
      obtain ⟨m, rfl, -, -, hrh, -⟩ := hmet.1 rows h1 h2 h3
      have hpos : 0 ≤ m.RH := by
        obtain ⟨hne, hinc⟩ := hF.meteo rows h3
        obtain ⟨hi, hhi⟩ : ∃ hi, ∀ p ∈ rows.map fun x => (x.1, x.2 2), p.2 ≤ hi := by
          generalize rows.map (fun x => (x.1, x.2 2)) = l
          induction l with
          | nil => exact ⟨0, by simp⟩
          | cons p l ih =>
            obtain ⟨hi, ih⟩ := ih
            refine ⟨max p.2 hi, fun q hq => ?_⟩
            rcases List.mem_cons.mp hq with rfl | hq
            · exact le_max_left _ _
            · exact (ih q hq).trans (le_max_right _ _)
        obtain ⟨v, hv, h4, -⟩ := C10_within_data_range (rows.map fun x => (x.1, x.2 2)) (by simpa using hne) (by
          unfold Increasing
          rw [List.pairwise_map]
          exact hinc) s₀ 0 hi (fun p hp => ⟨by
            obtain ⟨x, hx, rfl⟩ := List.mem_map.mp hp
            exact hRH rows h3 x hx, hhi p hp⟩)
        rw [hrh] at hv
        rw [Option.some.inj hv]
        exact h4
      exact (C66_range _ _ _ _ _ _ _ hs hpos (planar_step_positive hC hS).le hl (h0 c).1 hm).1
    · have : (τ.moist c).salt = (σ.moist c).salt := by
        unfold Moisture.update at hm
        match hk : Moisture.moisture C.moist σ.clock.t E.dt met ⟨(τ.water (rowIx c)).TWL (colOf c),
          (σ.core.sand.bed c).zb, (τ.hydro (rowIx c)).gw (colOf c), (τ.hydro (rowIx c)).gwPrev (colOf c), (τ.hydro (rowIx c)).wetting (colOf c),
          (E.wind c).uw⟩ (σ.moist c) with
        | none => simp [hk] at hm
        | some (.error e) => simp [hk] at hm
        | some (.ok (s', ix)) =>
          simp only [hk, if_neg hs] at hm
          rw [← Except.ok.inj (Option.some.inj hm), Full.moisture_salt hk]
      rw [this]
      exact (h0 c).1

/-- **C144** Salt is computed with the soil moisture method and a meteorological file only: no call succeeds otherwise. -/
theorem C144_salt_fails (sp : LinSolve nx ny) (C : Planar.Config nx ny nf) (hC : PlanarUsable C) (hs : C.moist.processSalt = true)
    (hno : ¬ (C.moist.processMoist = true ∧ lower C.moist.method = "surf_moisture" ∧ C.meteoFile ≠ none)) (r : ℕ → ℕ → ℝ) (dt : ℝ)
    (σ τ : Planar.State nx ny nf) : Planar.update sp C r dt σ ≠ some (.ok (τ, true)) := by
  intro h
  obtain ⟨-, -, hbt, -⟩ := C140_step sp C hC r dt σ τ true h
  obtain ⟨E, -, hF, -⟩ := hbt rfl
  obtain ⟨_, met, -, -, hmet, hm⟩ := hF.moisture
  obtain rfl := hmet.2 hno
  obtain ⟨e, he⟩ := (C66_failures _ _ _ _ _ hs).1 _ (hm ⟨0, by simp [cells]⟩)
  cases he

/-- **C144** With the height-based growth model heights stay between zero and the maximum, the density between zero and one and equal to
the square of the relative height. -/
theorem C144_vegetation_height (sp : LinSolve nx ny) (C : Planar.Config nx ny nf) (hC : PlanarUsable C) (horig : C.shelter.veg.orig = true)
    (hmax : 0 < C.shelter.veg.hmax) (calls : List ((ℕ → ℕ → ℝ) × ℝ)) (σ τ : Planar.State nx ny nf) (h : Planar.run sp C calls σ = some (.ok τ))
    (h0 : ∀ i j, 0 ≤ (σ.veg i j).h ∧ (σ.veg i j).h ≤ C.shelter.veg.hmax ∧ (σ.veg i j).rho = ((σ.veg i j).h / C.shelter.veg.hmax) ^ 2 ∧
      ((σ.veg i j).lat = 0 ∨ (σ.veg i j).lat = 1)) (i j : ℕ) :
    0 ≤ (τ.veg i j).h ∧ (τ.veg i j).h ≤ C.shelter.veg.hmax ∧ (τ.veg i j).rho = ((τ.veg i j).h / C.shelter.veg.hmax) ^ 2 ∧
      0 ≤ (τ.veg i j).rho ∧ (τ.veg i j).rho ≤ 1 := by
  have key : ∀ i j, 0 ≤ (τ.veg i j).h ∧ (τ.veg i j).h ≤ C.shelter.veg.hmax ∧ (τ.veg i j).rho = ((τ.veg i j).h / C.shelter.veg.hmax) ^ 2 ∧
      ((τ.veg i j).lat = 0 ∨ (τ.veg i j).lat = 1) := by
    refine planar_run_keeps sp C (fun σ => ∀ i j, 0 ≤ (σ.veg i j).h ∧ (σ.veg i j).h ≤ C.shelter.veg.hmax ∧
      (σ.veg i j).rho = ((σ.veg i j).h / C.shelter.veg.hmax) ^ 2 ∧ ((σ.veg i j).lat = 0 ∨ (σ.veg i j).lat = 1)) ?_ calls σ τ h h0
    intro r dt σ τ b hu h0
    obtain ⟨-, hbf, hbt, -⟩ := C140_step sp C hC r dt σ τ b hu
    cases b with
    | false => rwa [(hbf rfl).2.2.2.1]
    | true =>
      obtain ⟨E, -, hF, -⟩ := hbt rfl
      rw [hF.veg]
      split_ifs with hv
      · intro i j
        have := Props.grow_range (c := { C.shelter.veg with dtOpt := E.dt }) horig hmax C.shelter.dx
          ⟨τ.zb i j, Planar.grid (fun c => (τ.core.sand.bed c).zs) i j, Planar.grid τ.dzbveg i j⟩
        exact ⟨(this _ _ _ (h0 i j).2.2.2).1, (this _ _ _ (h0 i j).2.2.2).2.1, (this _ _ _ (h0 i j).2.2.2).2.2.2.2.1, (this _ _ _ (h0 i j).2.2.2).2.2.2.2.2.2⟩
      · exact h0
  obtain ⟨h1, h2, h3, -⟩ := key i j
  have a := div_nonneg h1 hmax.le
  have b := div_le_one_of_le₀ h2 hmax.le
  exact ⟨h1, h2, h3, by rw [h3]; positivity, by rw [h3]; exact pow_le_one₀ a b⟩

/-- **C144** With the density-based growth model the density stays between zero and the maximum, in steps no longer than the growth time. -/
theorem C144_vegetation_density (sp : LinSolve nx ny) (C : Planar.Config nx ny nf) (hC : PlanarUsable C) (horig : C.shelter.veg.orig = false)
    (hmax : 0 < C.shelter.veg.hmax) (hV : 0 < C.shelter.veg.Vver) (ht : 0 < C.shelter.veg.tVeg) (hg : 0 ≤ C.shelter.veg.gamma)
    (hv : 0 ≤ C.shelter.veg.vGam) (hr : 0 ≤ C.shelter.veg.rhoMax) (hdt0 : 0 ≤ C.shelter.veg.dt * C.shelter.veg.accfac)
    (hdt : C.shelter.veg.dt * C.shelter.veg.accfac / Veg.year ≤ C.shelter.veg.tVeg / 365)
    (calls : List ((ℕ → ℕ → ℝ) × ℝ)) (σ τ : Planar.State nx ny nf) (h : Planar.run sp C calls σ = some (.ok τ))
    (h0 : ∀ i j, 0 ≤ (σ.veg i j).rho ∧ (σ.veg i j).rho ≤ C.shelter.veg.rhoMax) :
    ∀ i j, 0 ≤ (τ.veg i j).rho ∧ (τ.veg i j).rho ≤ C.shelter.veg.rhoMax := by
  refine planar_run_keeps sp C (fun σ => ∀ i j, 0 ≤ (σ.veg i j).rho ∧ (σ.veg i j).rho ≤ C.shelter.veg.rhoMax) ?_ calls σ τ h h0
  intro r dt σ τ b hu h0
  obtain ⟨-, hbf, hbt, -⟩ := C140_step sp C hC r dt σ τ b hu
  cases b with
  | false => rwa [(hbf rfl).2.2.2.1]
  | true =>
    obtain ⟨E, -, hF, -⟩ := hbt rfl
    rw [hF.veg]
    split_ifs with hv'
    · intro i j
      have := Props.grow_density (c := { C.shelter.veg with dtOpt := E.dt }) horig hmax hV ht hg hv hr hdt0 hdt C.shelter.dx
        ⟨τ.zb i j, Planar.grid (fun c => (τ.core.sand.bed c).zs) i j, Planar.grid τ.dzbveg i j⟩
      exact ⟨(this _ _ _ (h0 i j).1 (h0 i j).2).1, (this _ _ _ (h0 i j).1 (h0 i j).2).2.1⟩
    · exact h0

/-- **C144** After an executed call the water level is nowhere below the bed before the call; the wave height is at most the given fraction of
the depth and zero on dry cells. -/
theorem C144_water (sp : LinSolve nx ny) (C : Planar.Config nx ny nf) (hC : PlanarUsable C) (r : ℕ → ℕ → ℝ) (dt : ℝ)
    (σ τ : Planar.State nx ny nf) (h : Planar.update sp C r dt σ = some (.ok (τ, true))) (c : Fin (cells nx ny)) :
    let w := τ.water (rowIx c)
    let depth := w.zs (colOf c) - (σ.core.sand.bed c).zb
    0 ≤ depth ∧
    (∀ ts hi, C.water.processWave = true → C.water.waveFile = some ts → ts.Pairwise (fun a b => a.1 < b.1) →
      (∀ x ∈ ts, 0 ≤ x.2.1 ∧ x.2.1 ≤ hi) → 0 ≤ C.water.gamma → C.waveMask (rowOf c) (colOf c) = (1, 0) →
      0 ≤ w.Hs (colOf c) ∧ w.Hs (colOf c) ≤ C.water.gamma * depth ∧ w.Hs (colOf c) ≤ hi) := by
  intro w depth
  obtain ⟨-, -, hbt, -⟩ := C140_step sp C hC r dt σ τ true h
  obtain ⟨E, -, hE, -⟩ := hbt rfl
  obtain ⟨s₀, -, hi⟩ := C148_some_time _ _ _ _ _ _ _ _ hE.water
  have hi := hi (rowIx c)
  have hzb : σ.zb (rowIx c) (colOf c) = (σ.core.sand.bed c).zb := Planar.grid_apply (fun c => (σ.core.sand.bed c).zb) c
  have hz := C60_water_level _ _ _ _ _ hi (colOf c)
  refine ⟨sub_nonneg.mpr (hzb ▸ hz.2.1), fun ts top hp hts hinc hH hg hm => ?_⟩
  obtain ⟨h1, h2, h3, -⟩ := C60_waves _ _ _ _ _ ts hp hts hinc top hH hg hi (colOf c) hm
  refine ⟨h1, h2.trans (mul_le_mul_of_nonneg_left ?_ hg), h3⟩
  show _ ≤ (τ.hydro (rowIx c)).water.zs (colOf c) - (σ.core.sand.bed c).zb
  rw [hz.1]
  simp only
  rw [hzb, max_comm, max_sub_sub_right ((τ.hydro (rowIx c)).water.SWL (colOf c)) (σ.core.sand.bed c).zb (σ.core.sand.bed c).zb |>.symm, sub_self]

/-- **C144** After an executed call with groundwater in steps of at least a second the groundwater is at the set-up level where the bed was below
it, and at most at the bed elsewhere. -/
theorem C144_groundwater (sp : LinSolve nx ny) (C : Planar.Config nx ny nf) (hC : PlanarUsable C) (hon : C.ground.on = true)
    (ht : 1 ≤ C.ground.tfac) (r : ℕ → ℕ → ℝ) (dt : ℝ) (hle : C.ground.tfac ≤ if 0 < dt then dt else C.ts.dt) (σ τ : Planar.State nx ny nf)
    (h : Planar.update sp C r dt σ = some (.ok (τ, true))) (c : Fin (cells nx ny)) :
    let level := (τ.water (rowIx c)).DSWL (colOf c)
    let gw := (τ.hydro (rowIx c)).gw (colOf c)
    ((σ.core.sand.bed c).zb < level → gw = level) ∧ (level ≤ (σ.core.sand.bed c).zb → gw ≤ (σ.core.sand.bed c).zb) := by
  obtain ⟨-, -, hbt, -⟩ := C140_step sp C hC r dt σ τ true h
  obtain ⟨E, hS, hE, -⟩ := hbt rfl
  rw [← hS.time.2] at hle
  obtain ⟨d, m, -, hl⟩ := C148_limits _ _ { C.ground with n := nx + 1 } _ _ _ _ _ hon ht hle hE.water
  have := (hl (rowIx c)).2 (colOf c)
  have e : σ.zb (rowIx c) (colOf c) = (σ.core.sand.bed c).zb := Planar.grid_apply (fun c => (σ.core.sand.bed c).zb) c
  dsimp only at this
  rw [e] at this
  exact this

/-- **C144** The clock after a run: every executed call adds the step asked for, or the step of the configuration if none is asked for, times
the acceleration factor; a call with a step below -1 adds its size. -/
theorem C144_clock (sp : LinSolve nx ny) (C : Planar.Config nx ny nf) (hC : PlanarUsable C) (calls : List ((ℕ → ℕ → ℝ) × ℝ)) (σ τ : Planar.State nx ny nf)
    (h : Planar.run sp C calls σ = some (.ok τ)) :
    τ.clock.t = σ.clock.t +
      (calls.map fun x => if x.2 < -1 then -x.2 else (if 0 < x.2 then x.2 else C.ts.dt) * C.accfac).sum := by
  induction calls generalizing σ with
  | nil => rw [← Except.ok.inj (Option.some.inj h)]; simp
  | cons x xs ih =>
    unfold Planar.run at h
    match h1 : Planar.update sp C x.1 x.2 σ with
    | none => simp [h1] at h
    | some (.error e) => simp [h1] at h
    | some (.ok (ρ, b)) =>
      simp only [h1] at h
      rw [ih ρ h, List.map_cons, List.sum_cons, ← add_assoc]
      congr 1
      obtain ⟨hb, hbf, hbt, -⟩ := C140_step sp C hC x.1 x.2 σ ρ b h1
      cases b with
      | false => rw [if_pos (hb.mp rfl), (hbf rfl).2.1]; ring
      | true =>
        obtain ⟨E, hS, -, ht, -⟩ := hbt rfl
        have hn : ¬ x.2 < -1 := fun hlt => absurd (hb.mpr hlt) (by simp)
        rw [if_neg hn, ht, hS.time.2]

end Aeolis.Props
