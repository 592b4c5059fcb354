import Verif.Props.TimeOrigin
import Verif.Props.PlanarExamples
import Verif.Props.PlanarProgram

/-!
Property C161 on planar grids: the origin of time does not matter, and with a common period of all series a grid does the same a period later.
-/

namespace Aeolis.Props

open Aeolis.Sand Aeolis.Whole Aeolis.Planar

noncomputable section

variable {nx ny nf : ℕ}

/-! ### Two configurations with the same conditions, one later -/

/-- The configuration with other series and another start of the groundwater. -/
def planarRetimed (C : Planar.Config nx ny nf) (wind : Option (List Wind.Record)) (tide : Option (List (ℝ × ℝ))) (wave : Option (List (ℝ × ℝ × ℝ)))
    (meteo : Option (List (ℝ × (Fin 5 → ℝ)))) (tstart : ℝ) : Planar.Config nx ny nf :=
  { C with
    wind := { C.wind with file := wind }
    water := { C.water with tideFile := tide, waveFile := wave }
    meteoFile := meteo
    ground := { C.ground with tstart := tstart } }

/-- The second configuration differs from the first in series and start of the groundwater only, and its series have the values of the first `s` later. -/
structure PlanarDelayed (s : ℝ) (C C' : Planar.Config nx ny nf) : Prop where
  same : C' = planarRetimed C C'.wind.file C'.water.tideFile C'.water.waveFile C'.meteoFile C'.ground.tstart
  wind : SameStage (fun f f' => ∀ t, Wind.windAt f' (t + s) = Wind.windAt f t) C.wind.file C'.wind.file
  tide : SameStage (fun f f' => ∀ t, Hydro.series f' (t + s) = Hydro.series f t) C.water.tideFile C'.water.tideFile
  wave : SameStage (fun f f' : List (ℝ × ℝ × ℝ) => ∀ t,
    Hydro.series (f'.map fun x => (x.1, x.2.1)) (t + s) = Hydro.series (f.map fun x => (x.1, x.2.1)) t ∧
      Hydro.series (f'.map fun x => (x.1, x.2.2)) (t + s) = Hydro.series (f.map fun x => (x.1, x.2.2)) t) C.water.waveFile C'.water.waveFile
  meteo : SameStage (fun f f' : List (ℝ × (Fin 5 → ℝ)) => ∀ t (i : Fin 5),
    Hydro.series (f'.map fun x => (x.1, x.2 i)) (t + s) = Hydro.series (f.map fun x => (x.1, x.2 i)) t) C.meteoFile C'.meteoFile

/-- All series and the start of the groundwater delayed. -/
def planarDelayed (s : ℝ) (C : Planar.Config nx ny nf) : Planar.Config nx ny nf :=
  planarRetimed C (C.wind.file.map (delayedSeries s)) (C.water.tideFile.map (delayedSeries s)) (C.water.waveFile.map (delayedSeries s))
    (C.meteoFile.map (delayedSeries s)) (C.ground.tstart + s)

theorem planar_delayed_config (s : ℝ) (C : Planar.Config nx ny nf) : PlanarDelayed s C (planarDelayed s C) where
  same := rfl
  wind := sameStage_map (fun f t => windAt_delayed s f t) _
  tide := sameStage_map (fun f t => series_delayed s f t) _
  wave := sameStage_map (fun f t => ⟨by rw [delayedSeries_map s Prod.fst, series_delayed], by rw [delayedSeries_map s Prod.snd, series_delayed]⟩) _
  meteo := sameStage_map (fun f t i => by rw [delayedSeries_map s fun y : Fin 5 → ℝ => y i, series_delayed]) _

/-! ### Parts of a step -/

theorem planar_interpolate_delayed {s : ℝ} {C C' : Planar.Config nx ny nf} (D : PlanarDelayed s C C') (r : Hydro.Row) (t : ℝ) (w : Hydro.Water) :
    Hydro.interpolate C'.water r (t + s) w = Hydro.interpolate C.water r t w :=
  interpolate_series (W := C.water) (W' := C'.water) (congrArg Planar.Config.water D.same) D.tide D.wave r t w

open Classical in
theorem gridSubs_delayed {s : ℝ} {C C' : Planar.Config nx ny nf} (D : PlanarDelayed s C C') (r : Fin (ny + 1) → Hydro.Row)
    (g : Fin (ny + 1) → Hydro.GroundRow) (dtgw t : ℝ) (m : ℕ) : ∀ (i : ℕ) x,
    Hydro.gridSubs C'.water r (groundIn C') g dtgw (t + s) i m x = Hydro.gridSubs C.water r (groundIn C) g dtgw t i m x := by
  induction m with
  | zero => intro i x; rfl
  | succ m ih =>
    intro i x
    have h : Hydro.gridSub C'.water r (groundIn C') g dtgw (t + s + i * dtgw) x = Hydro.gridSub C.water r (groundIn C) g dtgw (t + i * dtgw) x := by
      unfold Hydro.gridSub
      rw [add_right_comm]
      simp only [planar_interpolate_delayed D]
      rw [D.same]
      rfl
    unfold Hydro.gridSubs
    rw [h]
    rcases Hydro.gridSub C.water r (groundIn C) g dtgw (t + i * dtgw) x with e | y
    · rfl
    · exact ih (i + 1) y

open Classical in
theorem gridStep_delayed {s : ℝ} {C C' : Planar.Config nx ny nf} (D : PlanarDelayed s C C') (r : Fin (ny + 1) → Hydro.Row)
    (g : Fin (ny + 1) → Hydro.GroundRow) (t dt : ℝ)
    (hg : C.ground.on = true → (t + s = C'.ground.tstart ↔ t = C.ground.tstart)) (x : Fin (ny + 1) → Hydro.HydroState) :
    Hydro.gridStep C'.water r (groundIn C') g (t + s) dt x = Hydro.gridStep C.water r (groundIn C) g t dt x := by
  unfold Hydro.gridStep
  simp only [planar_interpolate_delayed D]
  rcases (collect fun i => Hydro.interpolate C.water (r i) t (x i).water) with e | w
  · rfl
  dsimp only
  have hon : C'.ground.on = C.ground.on := by rw [D.same]; rfl
  unfold Hydro.gridGround
  by_cases h : C.ground.on = true
  · rw [if_pos (show (groundIn C').on = true from hon.trans h), if_pos (show (groundIn C).on = true from h)]
    have e1 : (groundIn C').inGw = (groundIn C).inGw := by rw [D.same]; rfl
    have e2 : (groundIn C').tfac = (groundIn C).tfac := by rw [D.same]; rfl
    have e3 : (t + s = (groundIn C').tstart) = (t = (groundIn C).tstart) := propext (hg h)
    have e4 : ∀ m w gw, Hydro.gridPrevious C'.water r (groundIn C') (t + s) m w gw = Hydro.gridPrevious C.water r (groundIn C) t m w gw := by
      intro m w gw
      unfold Hydro.gridPrevious
      simp only [planar_interpolate_delayed D]
      rw [D.same]
      rfl
    simp only [e1, e2, e3, e4, gridSubs_delayed D]
  · rw [if_neg (show ¬(groundIn C').on = true from fun q => h (hon.symm.trans q)), if_neg (show ¬(groundIn C).on = true from h)]

theorem planar_lastTime_delayed {s : ℝ} {C C' : Planar.Config nx ny nf} (D : PlanarDelayed s C C') (t dt : ℝ) :
    Hydro.lastTime C'.ground (t + s) dt = Hydro.lastTime C.ground t dt + s := by
  rw [D.same]
  unfold Hydro.lastTime
  show (if C.ground.on = true then _ else _) = _
  split_ifs
  · show (match Ground.substeps dt C.ground.tfac with | .error _ => _ | .ok (dtgw, m) => _) = _
    rcases Ground.substeps dt C.ground.tfac with e | ⟨d, m⟩
    · rfl
    · show t + s + _ = t + _ + s
      ring
  · rfl

open Classical in
theorem planar_meteoAt_delayed {s : ℝ} {C C' : Planar.Config nx ny nf} (D : PlanarDelayed s C C') (t : ℝ) : meteoAt C' (t + s) = meteoAt C t := by
  have hm := D.meteo
  have e1 : C'.moist = C.moist := by rw [D.same]; rfl
  unfold meteoAt
  rw [e1]
  revert hm
  generalize C.meteoFile = f
  generalize C'.meteoFile = f'
  intro hm
  rcases f with _ | f <;> rcases f' with _ | f'
  · rfl
  · exact hm.elim
  · exact hm.elim
  · dsimp only
    simp only [hm t]

theorem planar_eroded_delayed {s : ℝ} {C C' : Planar.Config nx ny nf} (D : PlanarDelayed s C C') (t dt : ℝ) (w : Fin (ny + 1) → Hydro.Water)
    (zb : ℕ → ℕ → ℝ) : Planar.eroded C' (t + s) dt w zb = Planar.eroded C t dt w zb := by
  have ht := D.tide
  have hv := D.wave
  have e1 : C'.dune = C.dune := by rw [D.same]; rfl
  have e2 : slid C' = slid C := by rw [D.same]; rfl
  have e3 : C'.g = C.g := by rw [D.same]; rfl
  unfold Planar.eroded
  rw [e1, e2, e3]
  revert ht hv
  generalize C.water.tideFile = a
  generalize C'.water.tideFile = a'
  generalize C.water.waveFile = b
  generalize C'.water.waveFile = b'
  intro ht hv
  rcases a with _ | a <;> rcases a' with _ | a'
  · rcases b with _ | b <;> rcases b' with _ | b' <;> rfl
  · exact ht.elim
  · exact ht.elim
  rcases b with _ | b <;> rcases b' with _ | b'
  · rfl
  · exact hv.elim
  · exact hv.elim
  · dsimp only
    rw [ht t, (hv t).2]

/-- Nothing is done at time zero only: the composition of the bed is read from a file, and there are no scanning curves of the moisture. -/
def PlanarTimeless (C : Planar.Config nx ny nf) : Prop :=
  C.core.bedcomp = true ∧ (C.moist.processMoist = true → lower C.moist.method = "surf_moisture" → C.moist.processScanning = false)

/-! ### The step -/

/-- The state with the clock moved. -/
def planarLater (s : ℝ) (σ : Planar.State nx ny nf) : Planar.State nx ny nf := { σ with clock := { σ.clock with t := σ.clock.t + s } }

open Classical in
theorem planar_execute_later (sp : LinSolve nx ny) {s : ℝ} {C C' : Planar.Config nx ny nf} (D : PlanarDelayed s C C') (r : ℕ → ℕ → ℝ) (now : Full.Now)
    (u0 : Fin (cells nx ny) → Wind.Shear) (σ : Planar.State nx ny nf)
    (hg : C.ground.on = true → (σ.clock.t + s = C'.ground.tstart ↔ σ.clock.t = C.ground.tstart))
    (h0 : (σ.clock.t + s = 0 ↔ σ.clock.t = 0) ∨ PlanarTimeless C) :
    execute sp C' r now u0 (planarLater s σ) = laterOutcome (planarLater s) (execute sp C r now u0 σ) := by
  unfold execute
  rw [show (planarLater s σ).clock.t = σ.clock.t + s from rfl, show (planarLater s σ).clock.dt = σ.clock.dt from rfl, planar_lastTime_delayed D,
    planar_meteoAt_delayed D]
  rcases meteoAt C (Hydro.lastTime C.ground σ.clock.t σ.clock.dt) with e | met
  · rfl
  dsimp only
  have hwat : waters C' (planarLater s σ) (σ.clock.t + s) σ.clock.dt = waters C σ σ.clock.t σ.clock.dt := by
    unfold waters
    have hrow : (fun i : Fin (ny + 1) => row C' (planarLater s σ) i) = fun i : Fin (ny + 1) => row C σ i := by rw [D.same]; rfl
    have hgr : groundRow C' = groundRow C := by rw [D.same]; rfl
    rw [hrow, hgr, show (planarLater s σ).hydro = σ.hydro from rfl, gridStep_delayed D _ _ _ _ hg]
  rw [hwat]
  rcases waters C σ σ.clock.t σ.clock.dt with e | h
  · rfl
  dsimp only
  have hm : moistures C' (planarLater s σ) (σ.clock.t + s) σ.clock.dt now.uw met h = moistures C σ σ.clock.t σ.clock.dt now.uw met h := by
    have e1 : C'.moist = C.moist := by rw [D.same]; rfl
    unfold moistures
    rw [e1]
    simp only [moisture_delayed C.moist s σ.clock.t σ.clock.dt (h0.imp_right And.right)]
    rfl
  rw [hm]
  rcases moistures C σ σ.clock.t σ.clock.dt now.uw met h with _ | (e | m)
  · rfl
  · rfl
  dsimp only
  have hE : env C' (planarLater s σ) now u0 (planarLater s σ).shear σ.clock.dt (fun i => (h i).water) m (planarLater s σ).zsep =
      (env C σ now u0 σ.shear σ.clock.dt (fun i => (h i).water) m σ.zsep).map (laterEnv s) := by
    rw [D.same]
    unfold env
    dsimp only
    split_ifs with q q' q'
    · show (match duranSpeeds C (envWith C σ now u0 σ.shear σ.clock.dt (fun i => (h i).water) m fun _ _ => ⟨0, 0, 0⟩) σ.core σ.zsep with
        | none => none
        | some v => some _) = _
      rcases duranSpeeds C (envWith C σ now u0 σ.shear σ.clock.dt (fun i => (h i).water) m fun _ _ => ⟨0, 0, 0⟩) σ.core σ.zsep with _ | v
      · rfl
      · rfl
    · exact (q' q).elim
    · exact (q q').elim
    · rfl
  have ht : ∀ E ∈ env C σ now u0 σ.shear σ.clock.dt (fun i => (h i).water) m σ.zsep, E.t = σ.clock.t := by
    intro E hE
    unfold env at hE
    dsimp only at hE
    split_ifs at hE
    · split at hE
      · cases hE
      · cases hE
        rfl
    · cases hE
      rfl
  rw [hE]
  rcases hEE : env C σ now u0 σ.shear σ.clock.dt (fun i => (h i).water) m σ.zsep with _ | E
  · rfl
  rw [Option.map_some]
  dsimp only
  have hc : C'.core = C.core := by rw [D.same]; rfl
  rw [hc, show (planarLater s σ).core = σ.core from rfl, step_later sp C.core s E (by rw [ht E hEE]; exact h0.imp_right And.left)]
  rcases Whole.step sp C.core E σ.core with _ | (e | τ)
  · rfl
  · rfl
  dsimp only
  rw [planar_eroded_delayed D]
  rcases Planar.eroded C σ.clock.t σ.clock.dt (fun i => (h i).water) (grid fun c => (τ.sand.bed c).zb) with e | z
  · rfl
  · show some (Except.ok (finished C' r (planarLater s σ) h m (withLevels τ z))) = some (.ok (planarLater s (finished C r σ h m (withLevels τ z))))
    rw [D.same]
    unfold finished planarLater
    dsimp only [planarRetimed]
    rw [add_right_comm]
    rfl

open Classical in
/-- **C161** A call of `update` on a planar grid with all series delayed, on a state that is as much later: the same outcome, as much later. -/
theorem C161_planar_update (sp : LinSolve nx ny) {s : ℝ} {C C' : Planar.Config nx ny nf} (D : PlanarDelayed s C C') (r : ℕ → ℕ → ℝ) (dt : ℝ)
    (σ : Planar.State nx ny nf) (hg : C.ground.on = true → (σ.clock.t + s = C'.ground.tstart ↔ σ.clock.t = C.ground.tstart))
    (h0 : (σ.clock.t + s = 0 ↔ σ.clock.t = 0) ∨ PlanarTimeless C) :
    Planar.update sp C' r dt (planarLater s σ) = laterOutcome (fun a => (planarLater s a.1, a.2)) (Planar.update sp C r dt σ) := by
  have hw : windNow C' (planarLater s σ) = windNow C σ := by
    have hf := D.wind
    have e : C'.wind.processWind = C.wind.processWind := by rw [D.same]; rfl
    unfold windNow
    rw [e]
    revert hf
    generalize C.wind.file = f
    generalize C'.wind.file = f'
    intro hf
    rcases f with _ | f <;> rcases f' with _ | f'
    · rcases C.wind.processWind <;> rfl
    · exact hf.elim
    · exact hf.elim
    · rcases C.wind.processWind
      · rfl
      · show (match Wind.windAt f' (σ.clock.t + s) with | none => _ | some w => _) = _
        rw [hf]
        rfl
  unfold Planar.update
  rw [hw]
  rcases windNow C σ with e | w
  · rfl
  dsimp only
  have hr : roughnesses C' (planarLater s σ) w.1 = roughnesses C σ w.1 := by rw [D.same]; rfl
  rw [hr]
  rcases roughnesses C σ w.1 with _ | (e | z0)
  · rfl
  · rfl
  dsimp only
  have hn : windComponents C' w = windComponents C w := by rw [D.same]; rfl
  have hs0 : shear0 C' (planarLater s σ) w z0 = shear0 C σ w z0 := by rw [D.same]; rfl
  rw [hn, hs0]
  have hst : stresses C' (planarLater s σ) (windComponents C w) (shear0 C σ w z0) = stresses C σ (windComponents C w) (shear0 C σ w z0) := by
    rw [D.same]
    rfl
  rw [hst]
  rcases stresses C σ (windComponents C w) (shear0 C σ w z0) with e | res
  · rfl
  dsimp only
  have hsn : shearNow C' (planarLater s σ) (windComponents C w) res (shear0 C σ w z0) = shearNow C σ (windComponents C w) res (shear0 C σ w z0) := by
    rw [D.same]
    rfl
  rw [hsn]
  generalize shearNow C σ (windComponents C w) res (shear0 C σ w z0) = u
  have hp : prepared C' (planarLater s σ) (windComponents C w) res u = planarLater s (prepared C σ (windComponents C w) res u) := by rw [D.same]; rfl
  generalize hρ : prepared C σ (windComponents C w) res u = ρ at hp
  have htρ : ρ.clock.t = σ.clock.t := by rw [← hρ]; rfl
  have hgr : tsGrids C' (planarLater s ρ) (windComponents C w) = tsGrids C ρ (windComponents C w) := by rw [D.same]; rfl
  have hts : C'.ts = C.ts := by rw [D.same]; rfl
  rw [hp, hgr, hts, show (planarLater s ρ).clock = { ρ.clock with t := ρ.clock.t + s } from rfl, setTimestep_later]
  generalize hk : setTimestep C.ts (tsGrids C ρ (windComponents C w)) ρ.clock dt = k
  obtain ⟨k, b⟩ := k
  dsimp only
  rcases b
  · rfl
  · rw [if_pos rfl, if_pos rfl]
    have ht : k.t = σ.clock.t := by
      have : (setTimestep C.ts (tsGrids C ρ (windComponents C w)) ρ.clock dt).2 = true := by rw [hk]
      have h2 : (setTimestep C.ts (tsGrids C ρ (windComponents C w)) ρ.clock dt).1.t = ρ.clock.t := by
        revert this
        unfold setTimestep limitBedChange
        split_ifs <;> intro q <;> first | (cases q; done) | (dsimp only; split_ifs <;> rfl)
      rw [hk] at h2
      exact h2.trans htρ
    have hX := planar_execute_later sp D r (windComponents C w) (shear0 C σ w z0) { ρ with clock := k } (by rw [ht]; exact hg) (by rw [ht]; exact h0)
    change (match execute sp C' r (windComponents C w) (shear0 C σ w z0) (planarLater s { ρ with clock := k }) with
      | none => none
      | some (Except.error e) => some (Except.error e)
      | some (Except.ok τ) => some (Except.ok (τ, true))) = _
    rw [hX]
    rcases execute sp C r (windComponents C w) (shear0 C σ w z0) { ρ with clock := k } with _ | (e | τ) <;> rfl

open Classical in
/-- **C161** Any number of calls on a planar grid, with all series delayed, from a state that is as much later: the same outcome, as much later. -/
theorem C161_planar_run (sp : LinSolve nx ny) (s : ℝ) (C : Planar.Config nx ny nf) (h0 : PlanarTimeless C) (calls : List ((ℕ → ℕ → ℝ) × ℝ)) :
    ∀ σ : Planar.State nx ny nf,
      Planar.run sp (planarDelayed s C) calls (planarLater s σ) = laterOutcome (planarLater s) (Planar.run sp C calls σ) := by
  induction calls with
  | nil => intro σ; rfl
  | cons a calls ih =>
    intro σ
    have hX := C161_planar_update sp (planar_delayed_config s C) a.1 a.2 σ (fun _ => add_left_inj s) (Or.inr h0)
    unfold Planar.run
    rw [hX]
    rcases Planar.update sp C a.1 a.2 σ with _ | (e | ⟨τ, b⟩)
    · rfl
    · rfl
    · exact ih τ

open Classical in
/-- **C161** A start of a planar grid from delayed files: the same state, later. -/
theorem C161_planar_initialise (C : Planar.Config nx ny nf) (F : PlanarProgram.Files nx ny nf) (t s : ℝ) :
    PlanarProgram.initialise (planarDelayed s C) F (t + s) =
      (PlanarProgram.initialise C F t).map fun x => x.map fun a => (planarDelayed s a.1, planarLater s a.2) := by
  unfold PlanarProgram.initialise
  have hd : PlanarProgram.directions (planarDelayed s C) F = (PlanarProgram.directions C F).map (Option.map (delayedSeries s)) := by
    unfold PlanarProgram.directions
    show (match C.wind.file.map (delayedSeries s) with | none => _ | some file => _) = _
    rcases C.wind.file with _ | file
    · rfl
    dsimp only [Option.map_some]
    have : Wind.applyConvention F.convention (delayedSeries s file) = (Wind.applyConvention F.convention file).map (delayedSeries s) := by
      unfold Wind.applyConvention
      split_ifs
      · simp only [Except.map, delayedSeries, List.map_map]
        congr 2
        funext r
        simp only [Function.comp]
        split_ifs <;> rfl
      · simp only [Except.map, delayedSeries, List.map_map]
        congr 2
        funext r
        simp only [Function.comp]
        split_ifs <;> rfl
      · rfl
    rw [this]
    rcases Wind.applyConvention F.convention file with e | f <;> rfl
  rw [hd, show PlanarProgram.composition (planarDelayed s C) F = PlanarProgram.composition C F from rfl]
  change (match Grid.initGrid ny nx (fun i j => (C.g i j).1) (fun i j => (C.g i j).2) with
    | .error e => some (Except.error e)
    | .ok m => _) = _
  rcases Grid.initGrid ny nx (fun i j => (C.g i j).1) (fun i j => (C.g i j).2) with e | m
  · rfl
  dsimp only
  rcases PlanarProgram.composition C F with e | mass
  · rfl
  dsimp only
  rcases PlanarProgram.directions C F with e | wind
  · rfl
  dsimp only [Except.map]
  rw [show roughnesses (planarDelayed s C) (PlanarProgram.started (planarDelayed s C) F (t + s) mass) 0 =
    roughnesses C (PlanarProgram.started C F t mass) 0 from rfl]
  rcases roughnesses C (PlanarProgram.started C F t mass) 0 with _ | (e | z)
  · rfl
  · rfl
  · rfl

/-- All series of the configuration have the period. -/
structure PlanarPeriodic (P : ℝ) (C : Planar.Config nx ny nf) : Prop where
  wind : ∀ f ∈ C.wind.file, HasPeriod P f
  tide : ∀ f ∈ C.water.tideFile, HasPeriod P f
  wave : ∀ f ∈ C.water.waveFile, HasPeriod P f
  meteo : ∀ f ∈ C.meteoFile, HasPeriod P f

theorem planar_delayed_period {P : ℝ} {C : Planar.Config nx ny nf} (h : PlanarPeriodic P C) : PlanarDelayed P C C := by
  have hs : ∀ (ts : List (ℝ × ℝ)), HasPeriod P ts → ∀ t, Hydro.series ts (t + P) = Hydro.series ts t := by
    intro ts h t
    unfold Hydro.series
    rw [interpCircular_period ts h]
  refine ⟨rfl, sameStage_refl _ fun f hf t => ?_, sameStage_refl _ fun f hf t => hs f (h.tide f hf) t,
    sameStage_refl _ fun f hf t => ⟨hs _ (hasPeriod_map (h.wave f hf) Prod.fst) t, hs _ (hasPeriod_map (h.wave f hf) Prod.snd) t⟩,
    sameStage_refl _ fun f hf t i => hs _ (hasPeriod_map (h.meteo f hf) fun y : Fin 5 → ℝ => y i) t⟩
  have q : ∀ g : ℝ × ℝ → ℝ, interpCircular (f.map fun r => (r.1, g r.2)) (t + P) = interpCircular (f.map fun r => (r.1, g r.2)) t :=
    fun g => interpCircular_period _ (hasPeriod_map (h.wind f hf) g) t
  have h1 := q fun r => r.1
  have h2 := q fun r => Real.sin (r.2 / 180 * Real.pi)
  have h3 := q fun r => Real.cos (r.2 / 180 * Real.pi)
  unfold Wind.windAt
  dsimp only at h1 h2 h3 ⊢
  rw [h1, h2, h3]

/-- Time does not run backward in calls of `update`. -/
theorem planar_forward (sp : LinSolve nx ny) (C : Planar.Config nx ny nf) (hC : PlanarUsable C) (hacc : 0 ≤ C.accfac) (r : ℕ → ℕ → ℝ) (dt : ℝ)
    {σ τ : Planar.State nx ny nf} {b : Bool} (h : Planar.update sp C r dt σ = some (.ok (τ, b))) : σ.clock.t ≤ τ.clock.t := by
  obtain ⟨h1, h2, h3, -⟩ := C140_step sp C hC r dt σ τ b h
  rcases b with _ | _
  · rw [(h2 rfl).2.1]
    linarith [h1.mp rfl]
  · obtain ⟨E, hE, -, ht, -⟩ := h3 rfl
    have hd : 0 ≤ E.dt := by
      rw [hE.time.2]
      exact (planar_given_pos hC dt).le
    rw [ht]
    linarith [mul_nonneg hd hacc]

open Classical in
/-- Calls from a time after zero and after the start of the groundwater. -/
theorem planar_run_later (sp : LinSolve nx ny) {s : ℝ} (hs : 0 ≤ s) {C C' : Planar.Config nx ny nf} (D : PlanarDelayed s C C') (hC : PlanarUsable C)
    (hacc : 0 ≤ C.accfac)
    (hg : ∀ t, 0 < t → (C'.ground.tstart ≠ C.ground.tstart + s → C.ground.on = true → C.ground.tstart < t) →
      C.ground.on = true → (t + s = C'.ground.tstart ↔ t = C.ground.tstart))
    (calls : List ((ℕ → ℕ → ℝ) × ℝ)) : ∀ σ : Planar.State nx ny nf, 0 < σ.clock.t →
      (C'.ground.tstart ≠ C.ground.tstart + s → C.ground.on = true → C.ground.tstart < σ.clock.t) →
      Planar.run sp C' calls (planarLater s σ) = laterOutcome (planarLater s) (Planar.run sp C calls σ) := by
  induction calls with
  | nil => intro σ _ _; rfl
  | cons a calls ih =>
    intro σ ht hq
    have hX := C161_planar_update sp D a.1 a.2 σ (hg _ ht hq) (Or.inl (iff_of_false (by positivity) ht.ne'))
    unfold Planar.run
    rw [hX]
    rcases hu : Planar.update sp C a.1 a.2 σ with _ | (e | ⟨τ, b⟩)
    · rfl
    · rfl
    · have hf := planar_forward sp C hC hacc a.1 a.2 hu
      exact ih τ (lt_of_lt_of_le ht hf) fun h1 h2 => lt_of_lt_of_le (hq h1 h2) hf

open Classical in
/-- **C161** Any number of calls on a planar grid, with all series delayed, from a state after time zero and as much later: the same outcome, as much
later. -/
theorem C161_planar_started (sp : LinSolve nx ny) (s : ℝ) (hs : 0 ≤ s) (C : Planar.Config nx ny nf) (hC : PlanarUsable C) (hacc : 0 ≤ C.accfac)
    (calls : List ((ℕ → ℕ → ℝ) × ℝ)) (σ : Planar.State nx ny nf) (ht : 0 < σ.clock.t) :
    Planar.run sp (planarDelayed s C) calls (planarLater s σ) = laterOutcome (planarLater s) (Planar.run sp C calls σ) :=
  planar_run_later sp hs (planar_delayed_config s C) hC hacc (fun _ _ _ _ => add_left_inj s) calls σ ht fun h => absurd rfl h

open Classical in
/-- **C161** Series with a common period on a planar grid: any number of calls, from a state after time zero and after the start of the groundwater, do
the same a period later. -/
theorem C161_planar_period (sp : LinSolve nx ny) {P : ℝ} (hP : 0 ≤ P) (C : Planar.Config nx ny nf) (h : PlanarPeriodic P C) (hC : PlanarUsable C)
    (hacc : 0 ≤ C.accfac) (calls : List ((ℕ → ℕ → ℝ) × ℝ)) (σ : Planar.State nx ny nf) (ht : 0 < σ.clock.t)
    (hg : C.ground.on = true → C.ground.tstart < σ.clock.t) :
    Planar.run sp C calls (planarLater P σ) = laterOutcome (planarLater P) (Planar.run sp C calls σ) := by
  refine planar_run_later sp hP (planar_delayed_period h) hC hacc (fun t _ hq hon => ?_) calls σ ht fun _ h => hg h
  by_cases hz : C.ground.tstart = C.ground.tstart + P
  · have : P = 0 := by linarith
    rw [this, add_zero]
  · have := hq hz hon
    exact iff_of_false (by linarith) this.ne'

/-! ### Examples -/

/-- C161: the bay with all processes, from an hour after the start; series that start in the year 2000 instead of 1970. -/
example (veg : ℕ → ℕ → Veg.Cell) (fence : Fin (cells 2 2) → Lee.Fence) (calls : List ((ℕ → ℕ → ℝ) × ℝ)) :
    ∃ τ, Planar.run byInverse (bayConfig 20 true) calls (planarLater 3600 (bayState veg fence)) = some (.ok τ) ∧
      Planar.run byInverse (planarDelayed 946684800 (bayConfig 20 true)) calls (planarLater 946684800 (planarLater 3600 (bayState veg fence))) =
        some (.ok (planarLater 946684800 τ)) := by
  obtain ⟨τ, hτ⟩ := C140_run_total byInverse _ (bay_usable 20 true) duneConfig_names (bay_files 20 true) (bay_sector 20 (by norm_num) true) calls
    (planarLater 3600 (bayState veg fence)) fun _ _ => le_rfl
  refine ⟨τ, hτ, ?_⟩
  rw [C161_planar_started byInverse 946684800 (by norm_num) (bayConfig 20 true) (bay_usable 20 true) zero_le_one calls _
    (by norm_num [planarLater, bayState]), hτ]
  rfl

/-- The bay with a file for the composition of the bed. -/
def layeredBay : Planar.Config 2 2 1 := { bayConfig 20 true with core := { duneConfig with bedcomp := true } }

/-- C161: from the start. -/
example (calls : List ((ℕ → ℕ → ℝ) × ℝ)) (σ : Planar.State 2 2 1) :
    Planar.run byInverse (planarDelayed 946684800 layeredBay) calls (planarLater 946684800 σ) =
      laterOutcome (planarLater 946684800) (Planar.run byInverse layeredBay calls σ) :=
  C161_planar_run byInverse 946684800 layeredBay ⟨rfl, fun _ _ => rfl⟩ calls σ

/-- C161: a common period of wind, tide and waves. -/
theorem bay_periodic : PlanarPeriodic (7201 * 21601 * 86401) (bayConfig 20 true) where
  wind := fun f h => by
    obtain rfl := Option.some.inj h
    exact ⟨21601 * 86401, by norm_num [listMax, listMin]⟩
  tide := fun f h => by
    obtain rfl := Option.some.inj h
    exact ⟨7201 * 86401, by norm_num [listMax, listMin]⟩
  wave := fun f h => by
    obtain rfl := Option.some.inj h
    exact ⟨7201 * 21601, by norm_num [listMax, listMin]⟩
  meteo := fun f h => by cases h

example (calls : List ((ℕ → ℕ → ℝ) × ℝ)) (σ : Planar.State 2 2 1) (ht : 0 < σ.clock.t) :
    Planar.run byInverse (bayConfig 20 true) calls (planarLater (7201 * 21601 * 86401) σ) =
      laterOutcome (planarLater (7201 * 21601 * 86401)) (Planar.run byInverse (bayConfig 20 true) calls σ) :=
  C161_planar_period byInverse (by norm_num) (bayConfig 20 true) bay_periodic (bay_usable 20 true) zero_le_one calls σ ht fun h => by cases h

end

end Aeolis.Props
