import Verif.Proofs.Full
import Verif.Props.Avalanche

/-!
C133: a complete time step on a transect, from the input files to the bed.
-/

set_option linter.unusedSectionVars false

namespace Aeolis.Props

open Finset Aeolis.Spec Aeolis.Sand Aeolis.Solver Aeolis.Whole Aeolis.Full

variable {nx nf : ℕ}

/-- The roughness height of the methods that do not look at the bed. -/
def RoughnessIs (C : Full.Config nx nf) (z0 : ℝ) : Prop :=
  (C.wind.methodRoughness = "constant" ∧ z0 = C.wind.k) ∨ (C.wind.methodRoughness = "constant_nikuradse" ∧ z0 = C.wind.k / 30) ∨
    (C.wind.methodRoughness = "mean_grainsize_initial" ∧ z0 = (∑ i, C.core.thr.grainSize i * C.core.thr.grainDist i) / 30)

/-- A sensible configuration of a transect: implicit scheme, grains that move with the wind, a prescribed concentration at the landward end,
a roughness below the height of the wind measurements, no limit on the change of the bed level per step. -/
structure Usable (C : Full.Config nx nf) : Prop where
  core : ConfigOk C.core
  grid : GridOk nx 0 C.core
  speed : C.core.tr.methodGrainspeed = "windspeed"
  on : C.core.bounds.on = "flux" ∨ C.core.bounds.on = "constant" ∨ C.core.bounds.off = "noflux"
  kappa : 0 < C.wind.kappa
  rough : ∃ z0, RoughnessIs C z0 ∧ 0 < z0 ∧ z0 < C.wind.z
  weights : ∀ i k, 0 ≤ C.shelter.vegWeights i k
  mask : ∀ j, 0 < (C.thresholdMask j).1 ∧ 0 ≤ (C.thresholdMask j).2
  step : C.ts.explicit = false ∧ 0 < C.ts.dt ∧ C.ts.maxChange = 999

/-- Input files: nonempty series with increasing times, a moisture method that returns, meteorological series where
they are used, tide and waves for the dune erosion. -/
structure SeriesOk (C : Full.Config nx nf) : Prop where
  wind : ∀ file, C.wind.file = some file → file ≠ [] ∧ file.Pairwise fun a b => a.1 < b.1
  tide : ∀ ts, C.water.tideFile = some ts → ts ≠ [] ∧ Increasing ts
  wave : ∀ ts, C.water.waveFile = some ts → ts ≠ [] ∧ ts.Pairwise fun a b => a.1 < b.1
  moist : C.moist.processMoist = true → lower C.moist.method = "infiltration" ∨
    (lower C.moist.method = "surf_moisture" ∧ C.moist.processScanning = false ∧ C.meteoFile ≠ none)
  salt : C.moist.processSalt = true → C.moist.processMoist = true ∧ lower C.moist.method = "surf_moisture" ∧ C.meteoFile ≠ none
  meteo : ∀ rows, C.meteoFile = some rows → rows ≠ [] ∧ rows.Pairwise fun a b => a.1 < b.1
  dune : C.dune.process = true → C.water.tideFile ≠ none ∧ C.water.waveFile ≠ none

/-- Such input files without groundwater. -/
structure FilesOk (C : Full.Config nx nf) : Prop extends SeriesOk C where
  ground : C.ground.on = false

theorem roughnesses_fixed (C : Full.Config nx nf) (z : ℝ) (hz : RoughnessIs C z) (σ : Full.State nx nf) (uw : ℝ) :
    roughnesses C σ uw = some (.ok fun _ => z) := by
  have h : ∀ c, Wind.roughness C.wind.methodRoughness (rough C σ |uw| c) = .ok (some z) := by
    intro c
    unfold Wind.roughness
    rcases hz with ⟨e, hz⟩ | ⟨e, hz⟩ | ⟨e, hz⟩
    · rw [e, if_pos rfl, hz]
      rfl
    · rw [e, if_neg (by decide), if_pos rfl, hz]
      rfl
    · rw [e, if_neg (by decide), if_neg (by decide), if_pos rfl, hz]
      rfl
  have hcol : (collect fun c => Wind.roughness C.wind.methodRoughness (rough C σ |uw| c)) = .ok fun _ => some z := collect_ok.mpr h
  unfold roughnesses
  rw [hcol]
  have hall : ∀ c : Fin (cells nx 0), ∃ v, (fun _ : Fin (cells nx 0) => some z) c = some v := fun _ => ⟨z, rfl⟩
  simp only [dif_pos hall]
  congr 2
  funext c
  exact (Option.some.inj (hall c).choose_spec).symm

theorem timestep_implicit (C : Full.Config nx nf) (hC : Usable C) (g : TsGrids ℝ (Fin (cells nx 0))) (c : Clock ℝ) (dt : ℝ) :
    setTimestep C.ts g c dt = if dt < -1 then ({ c with dt := dt, t := c.t + |dt| }, false)
      else ({ c with dt := if 0 < dt then dt else C.ts.dt }, true) := by
  unfold setTimestep limitBedChange
  simp [hC.step.1, hC.step.2.2]

theorem windspeed_speed {p : Transport.Params} (hp : p.methodGrainspeed = "windspeed") {w : Transport.Wind} {d s : Transport.Speed}
    (h : Transport.grainspeed p w d = .ok s) : s = ⟨w.uw, w.uws, w.uwn⟩ := by
  unfold Transport.grainspeed at h
  rw [hp, if_neg (by decide), if_pos rfl] at h
  exact (Except.ok.inj h).symm

theorem given_pos {C : Full.Config nx nf} (hC : Usable C) (dt : ℝ) : 0 < (if 0 < dt then dt else C.ts.dt) := by
  split_ifs with h0
  · exact h0
  · exact hC.step.2.1

theorem step_env_ok (C : Full.Config nx nf) (hC : Usable C) (σ : Full.State nx nf) (w : ℝ × ℝ) (z : ℝ) (hz0 : 0 < z) (hz1 : z < C.wind.z)
    (E : Env nx 0 nf) (hE : ∀ c, E.wind c = ⟨(windComponents C w).uw, (windComponents C w).uws, (windComponents C w).uwn,
      (shearNow C σ w (fun _ => z) c).ustar, (shearNow C σ w (fun _ => z) c).ustars, (shearNow C σ w (fun _ => z) c).ustarn,
      (shear0 C σ w (fun _ => z) c).ustar⟩) (hm : ∀ c, E.mask c = C.thresholdMask c) (hdt : 0 < E.dt) (hwind : Windy E) :
    EnvOk C.core E ∧ Steadying C.core E := by
  have hw0 : w.1 ≠ 0 := by
    intro h0
    apply hwind
    simp [hE, windComponents, h0]
  have hu0 : ∀ c : Fin (cells nx 0), 0 < (shear0 C σ w (fun _ => z) c).ustar := by
    intro c
    rw [shear0_ustar]
    have hl : 0 < Real.log (C.wind.z / z) := Real.log_pos ((one_lt_div hz0).mpr hz1)
    exact mul_pos (abs_pos.mpr hw0) (abs_pos.mpr (div_pos hC.kappa hl).ne')
  constructor
  · refine C125_any_direction C.core hC.speed _ hdt hC.on (windComponents C w).uws (fun c => ?_) (fun c => ?_) fun c => ?_
    · rw [hE]
      exact ⟨abs_pos.mpr hw0, rfl⟩
    · rw [hE]
      exact ⟨shearNow_nonneg C hC.weights σ w _ c, hu0 c⟩
    · rw [hm]
      exact hC.mask c
  · refine ⟨fun c c' _ _ f s s' h h' => ?_, fun h => absurd h (lt_irrefl 0)⟩
    rw [windspeed_speed hC.speed h, windspeed_speed hC.speed h', hE, hE]

/-- Shear over a flat bed: neither the topography nor fences nor vegetation change it. -/
def Undisturbed (C : Full.Config nx nf) : Prop :=
  C.wind.processShear = false ∧ C.shelter.processFences = false ∧ C.shelter.processVegetation = false

/-- The levels change by the exchange of sand with the air only: no avalanches, no reset of the wet bed, no dune erosion. -/
def NoOtherChanges (C : Full.Config nx nf) : Prop := C.ava.process = false ∧ C.wetReset = false ∧ C.dune.process = false

/-- Besides the exchange with the air only avalanches change the levels. -/
def OnlyAvalanches (C : Full.Config nx nf) : Prop := C.wetReset = false ∧ C.dune.process = false

/-- The shear is not computed over the topography, but there may be fences and vegetation. -/
structure Sheltering (C : Full.Config nx nf) : Prop where
  shear : C.wind.processShear = false
  plants : C.shelter.processVegetation = true → C.shelter.vegType ≠ "okin" →
    0 ≤ C.shelter.vegRoughness ∧ (∀ i k, 0 ≤ C.shelter.vegWeights i k) ∧ ∀ i, ∑ k, C.shelter.vegWeights i k = 1

/-- Fences and plants reduce the shear velocity, but not below 0.01 m/s, and not to zero. -/
def Sheltered (E : Env nx 0 nf) : Prop :=
  ∀ c, (E.wind c).ustar ≤ max 0.01 (E.wind c).ustar0 ∧ (0 < (E.wind c).ustar0 → 0 < (E.wind c).ustar)

/-- What the chain from wind to bed gets in a call of `update` with time step `dt` at time `t`: a sensible time step with the time step that
was asked for, the wind of the file, the shear velocity of the logarithmic profile. -/
structure StepOf (C : Full.Config nx nf) (t dt : ℝ) (E : Env nx 0 nf) : Prop where
  ok : Windy E → EnvOk C.core E ∧ Steadying C.core E
  time : E.t = t ∧ E.dt = if 0 < dt then dt else C.ts.dt
  mask : ∀ c, E.mask c = C.thresholdMask c
  wind : ∀ file, C.wind.processWind = true → C.wind.file = some file → ∃ v d, Wind.windAt file t = some (v, d) ∧
    ∀ c, (E.wind c).uw = |v| ∧ (E.wind c).uws = -v * Real.sin ((d - C.wind.alfa + C.alpha) / 180 * Real.pi) ∧
      (E.wind c).uwn = -v * Real.cos ((d - C.wind.alfa + C.alpha) / 180 * Real.pi)
  components : ∀ c, (E.wind c).uws ^ 2 + (E.wind c).uwn ^ 2 = (E.wind c).uw ^ 2
  profile : ∀ z0, RoughnessIs C z0 → ∀ c, (E.wind c).ustar0 = (E.wind c).uw * |C.wind.kappa / Real.log (C.wind.z / z0)|
  flat : Undisturbed C → ∀ c, (E.wind c).ustar = (E.wind c).ustar0 ∧ ∀ z0, RoughnessIs C z0 →
    (E.wind c).ustars = (E.wind c).uws * (C.wind.kappa / Real.log (C.wind.z / z0)) ∧
      (E.wind c).ustarn = (E.wind c).uwn * (C.wind.kappa / Real.log (C.wind.z / z0))
  levels : NoOtherChanges C → ∀ l c, (E.levels l c).1 = (l c).1
  slides : OnlyAvalanches C → ∀ l, ∑ j ∈ Ico 1 nx, onGrid (nx := nx) (ny := 0) (fun c => (E.levels l c).1) 0 j ≤
    ∑ j ∈ Ico 1 nx, onGrid (nx := nx) (ny := 0) (fun c => (l c).1) 0 j

/-- Avalanching on the cells of the transect, down to the non-erodible layer of the file. -/
def slopes (C : Full.Config nx nf) : Ava.Params :=
  { C.ava with mx := nx, my := 0, ds := C.core.ds, dn := C.core.dn, zne := fun _ j => C.zne j }

/-- Levels after the exchange with the air: in a step with wind first avalanches, then the reset of the wet bed. -/
noncomputable def settledLevel (C : Full.Config nx nf) (E : Env nx 0 nf) (l : Fin (cells nx 0) → ℝ × ℝ × ℝ) (c : Fin (cells nx 0)) : ℝ :=
  open Classical in
  if Windy E then Bed.wetBedReset C.wetReset E.dt C.Tbedreset (l c).2.1 (C.zb0 c) (Ava.avalanche (slopes C) (fun _ => col fun c => (l c).1) 0 c)
  else (l c).1

/-- Meteorological conditions used at time `t`: the file interpolated in time, column by column, for the soil moisture method that needs
them; nothing otherwise. -/
def MeteoIs (C : Full.Config nx nf) (t : ℝ) (met : Option Moisture.Meteo) : Prop :=
  (∀ rows, C.moist.processMoist = true → lower C.moist.method = "surf_moisture" → C.meteoFile = some rows →
    ∃ m : Moisture.Meteo, met = some m ∧ interpCircular (rows.map fun x => (x.1, x.2 0)) t = some m.T ∧
      interpCircular (rows.map fun x => (x.1, x.2 1)) t = some m.Q ∧ interpCircular (rows.map fun x => (x.1, x.2 2)) t = some m.RH ∧
      interpCircular (rows.map fun x => (x.1, x.2 3)) t = some m.P ∧ interpCircular (rows.map fun x => (x.1, x.2 4)) t = some m.U) ∧
  (¬ (C.moist.processMoist = true ∧ lower C.moist.method = "surf_moisture" ∧ C.meteoFile ≠ none) → met = none)

/-- Shear over a flat bed without fences and vegetation, from the components of the wind and the logarithmic profile. -/
noncomputable def overFlat (C : Full.Config nx nf) (w : Transport.Wind) (z0 : ℝ) : Wind.Shear :=
  let k := C.wind.kappa / Real.log (C.wind.z / z0)
  { ustar := w.uw * |k|, ustars := w.uws * k, ustarn := w.uwn * k, tau := |C.wind.rhoa| * (w.uw * |k|) ^ 2
    taus := C.wind.rhoa * (w.uw * |k|) * (w.uws * k), taun := C.wind.rhoa * (w.uw * |k|) * (w.uwn * k) }

/-- How the shear of a call comes about: the shear over a flat bed (`u0`) is changed by the topography and flow separation (`u1`), with wind
only; then by the fences with their new heights (`u2`); then by the vegetation before the call (`u3`).  The chain gets the result; it is stored
in the orientation of the grid as given, with the separation surface, wind speed and direction. -/
structure ShearOf (C : Full.Config nx nf) (σ τ : Full.State nx nf) (E : Env nx 0 nf) (u0 u1 u2 u3 : ℕ → Wind.Shear) : Prop where
  flat : ∀ z0, RoughnessIs C z0 → ∀ c : Fin (cells nx 0), u0 c = overFlat C (E.wind c) z0
  bed : ∀ j, u1 j = open Classical in if Windy E ∧ C.wind.processShear = true then
    Wind.shearTransect C.wind.rhoa nx C.x σ.zb (if C.wind.processSeparation = true then some τ.zsep else none) u0 j else u0 j
  fences : ∀ j, u2 j = if C.shelter.processFences = true then Wind.velocityStress C.wind.rhoa (Lee.okin C.shelter.fenceC1
    C.shelter.fenceIntercept (Lee.fenceDir (τ.udir + C.alpha)) (nx + 1) C.x (fun j => (τ.fence j).height) u1 j) else u1 j
  plants : ∀ c : Fin (cells nx 0), u3 c = if C.shelter.processVegetation = true then Wind.velocityStress C.wind.rhoa
      (if C.shelter.vegType = "okin" then Lee.okin C.shelter.vegC1 C.shelter.vegIntercept (Lee.plantDir (τ.udir + C.alpha)) (nx + 1) C.x
        (fun j => (σ.veg j).h) u2 c
      else Lee.raupach C.shelter.vegRoughness C.shelter.vegWeights (fun c => (σ.veg c).rho) (fun c : Fin (cells nx 0) => u2 c) c)
    else u2 c
  used : ∀ c, (E.wind c).ustar = (u3 c).ustar ∧ (E.wind c).ustars = (u3 c).ustars ∧ (E.wind c).ustarn = (u3 c).ustarn
  stored : ∀ c : Fin (cells nx 0), (τ.shear c).ustar = (u3 c).ustar ∧ (τ.shear c).tau = (u3 c).tau ∧
    ((τ.shear c).ustars, (τ.shear c).ustarn) = rotatePt (-C.alpha) (0, 0) ((u3 c).ustars, (u3 c).ustarn) ∧
    ((τ.shear c).taus, (τ.shear c).taun) = rotatePt (-C.alpha) (0, 0) ((u3 c).taus, (u3 c).taun)
  surface : τ.zsep = open Classical in if Windy E ∧ C.wind.processShear = true ∧ C.wind.processSeparation = true then
      Wind.separation1d nx C.shelter.dx C.x (Finset.sup' (range (nx + 1)) ⟨0, by simp⟩ C.x) σ.zb C.wind.cb C.wind.mu (τ.udir + C.alpha)
    else σ.zsep
  speed : ∀ c, τ.uw = (E.wind c).uw
  direction : ∀ file, C.wind.processWind = true → C.wind.file = some file → ∃ v, Wind.windAt file σ.clock.t = some (v, τ.udir) ∧ τ.uw = |v|
  previous : τ.clock.dtPrev = σ.clock.dt ∧ τ.clock.dt = E.dt

/-- What water levels, moisture and vegetation of a call with random numbers `r` are computed from: the water at the time of the call, the
bed before the call; the moisture from these water levels and the weather at the time of the call, or of the last groundwater step; the chain gets the new water levels and waves, moisture and salt; the
vegetation grows on the new bed and with its change.  After the exchange with the air avalanches, the reset of the wet bed and then the
dune erosion, again with avalanches, change the levels. The change reported, and averaged, is that before the dune erosion. -/
structure Forcing (C : Full.Config nx nf) (r : ℕ → ℝ) (σ τ : Full.State nx nf) (E : Env nx 0 nf) : Prop where
  water : Hydro.hydroStep C.water ⟨σ.zb, C.tideMask, C.waveMask, C.runupMask⟩ { C.ground with n := nx + 1, ds := C.core.ds 0, x := C.x }
    σ.clock.t E.dt σ.hydro = .ok τ.hydro
  moisture : ∃ s met, (C.ground.on = false → s = σ.clock.t) ∧
    (∀ (d : ℤ) (m : ℕ), C.ground.on = true → Ground.substeps E.dt C.ground.tfac = .ok (d, m + 1) → s = σ.clock.t + m * d) ∧ MeteoIs C s met ∧
    ∀ c : Fin (cells nx 0), Moisture.update C.moist σ.clock.t E.dt met ⟨τ.hydro.water.TWL c, σ.zb c, τ.hydro.gw c,
      τ.hydro.gwPrev c, τ.hydro.wetting c, (E.wind c).uw⟩ (σ.moist c) = some (.ok (τ.moist c))
  levels : ∀ c : Fin (cells nx 0), E.zs c = τ.hydro.water.zs c ∧ E.hsmix c = τ.hydro.water.Hsmix c
  wet : ∀ c, E.moist c = (τ.moist c).moist ∧ E.salt c = (τ.moist c).salt
  hard : ∀ c, E.zne c = C.zne c
  veg : τ.veg = if C.shelter.processVegetation then
      fun j => Veg.vegStep { C.shelter.veg with dtOpt := E.dt } 0 nx C.shelter.dx C.core.ds C.core.dn
        (fun _ j => ⟨τ.zb j, col (fun c => (τ.core.sand.bed c).zs) j, τ.dzbveg j⟩) (fun _ j => r j) (fun _ j => σ.veg j) 0 j
    else σ.veg
  fence : ∀ j, τ.fence j = if C.shelter.processFences then Lee.fenceUpdate (σ.zb j) (σ.fence j) else σ.fence j
  settled : C.dune.process = false → ∀ l c, (E.levels l c).1 = settledLevel C E l c
  dunes : C.dune.process = true → ∃ tide wave wl Tp, C.water.tideFile = some tide ∧ C.water.waveFile = some wave ∧
    interpCircular tide σ.clock.t = some wl ∧ interpCircular (wave.map fun x => (x.1, x.2.2)) σ.clock.t = some Tp ∧
    let ero := fun l => Erosion.row nx C.dune.par
      ⟨τ.hydro.water.R 0, wl, C.dune.collisions (τ.hydro.water.eta 0) wl (τ.hydro.water.sigma 0) E.dt Tp⟩ C.x (col (settledLevel C E l))
    (∀ l zb, ero l = .ok zb → ∀ c, (E.levels l c).1 = Ava.avalanche (slopes C) (fun _ => zb) 0 c) ∧
      ∃ l zb, ero l = .ok zb ∧ ∀ c : Fin (cells nx 0), τ.zb c = Ava.avalanche (slopes C) (fun _ => zb) 0 c
  reported : ∀ l c, (E.levels l c).2 = ((l c).2.1, open Classical in if Windy E then settledLevel C E l c - σ.zb c else (l c).2.2)
  average : ∀ c : Fin (cells nx 0), Windy E → τ.dzbveg c = (τ.core.sand.bed c).dzb * 31557600 / (E.dt * C.accfac) ∧
    τ.dzbavg c = E.dt * C.accfac / C.avgTime * τ.dzbveg c + (1 - E.dt * C.accfac / C.avgTime) * σ.dzbavg c
  still : ¬ Windy E → τ.dzbveg = σ.dzbveg ∧ τ.dzbavg = σ.dzbavg
  shear : ∃ u0 u1 u2 u3, ShearOf C σ τ E u0 u1 u2 u3

theorem meteoAt_is {C : Full.Config nx nf} {t : ℝ} {met : Option Moisture.Meteo} (h : meteoAt C t = .ok met) : MeteoIs C t met := by
  unfold meteoAt at h
  match hf : C.meteoFile with
  | none =>
    simp only [hf] at h
    exact ⟨fun rows _ _ h' => absurd (hf.symm.trans h') (by simp), fun _ => (Except.ok.inj h).symm⟩
  | some rows =>
    simp only [hf] at h
    split_ifs at h with hp
    · refine ⟨fun rows' _ _ h' => ?_, fun hn => absurd ⟨hp.1, hp.2, by simp [hf]⟩ hn⟩
      obtain rfl : rows = rows' := Option.some.inj (hf.symm.trans h')
      match hc : collect fun i : Fin 5 => Hydro.series (rows.map fun x => (x.1, x.2 i)) t with
      | .error e => simp [hc] at h
      | .ok m =>
        simp only [hc] at h
        have hi : ∀ i : Fin 5, interpCircular (rows.map fun x => (x.1, x.2 i)) t = some (m i) := by
          intro i
          have := collect_ok.mp hc i
          unfold Hydro.series at this
          match hs : interpCircular (rows.map fun x => (x.1, x.2 i)) t with
          | none => simp [hs] at this
          | some v =>
            simp only [hs] at this
            exact hs.trans (congrArg some (Except.ok.inj this))
        exact ⟨_, (Except.ok.inj h).symm, hi 0, hi 1, hi 2, hi 3, hi 4⟩
    · exact ⟨fun rows' h1 h2 _ => absurd ⟨h1, h2⟩ hp, fun _ => (Except.ok.inj h).symm⟩

theorem lastTime_is (G : Hydro.GroundIn) (t dt : ℝ) : (G.on = false → Hydro.lastTime G t dt = t) ∧
    ∀ (d : ℤ) (m : ℕ), G.on = true → Ground.substeps dt G.tfac = .ok (d, m + 1) → Hydro.lastTime G t dt = t + m * d := by
  constructor
  · intro h
    unfold Hydro.lastTime
    simp [h]
  · intro d m h hs
    unfold Hydro.lastTime
    simp [h, hs]

theorem moistures_cell {C : Full.Config nx nf} {σ : Full.State nx nf} {t dt uw : ℝ} {met : Option Moisture.Meteo}
    {h : Hydro.HydroState} {m : Fin (cells nx 0) → Moisture.Cell} (hm : moistures C σ t dt uw met h = some (.ok m)) (c : Fin (cells nx 0)) :
    Moisture.update C.moist t dt met ⟨h.water.TWL c, σ.zb c, h.gw c, h.gwPrev c, h.wetting c, uw⟩ (σ.moist c) = some (.ok (m c)) := by
  unfold moistures at hm
  simp only at hm
  split_ifs at hm with hall
  have hc := collect_ok.mp (Option.some.inj hm) c
  have he := (hall c).choose_spec
  rw [hc] at he
  exact he

theorem moistures_salt {C : Full.Config nx nf} {σ : Full.State nx nf} (h1 : ∀ c, (σ.moist c).salt ≤ 1) {t dt uw : ℝ}
    {met : Option Moisture.Meteo} {h : Hydro.HydroState} {m : Fin (cells nx 0) → Moisture.Cell} (hm : moistures C σ t dt uw met h = some (.ok m)) (c : Fin (cells nx 0)) :
    (m c).salt ≤ 1 := by
  have he := moistures_cell hm c
  unfold Moisture.update at he
  match hk : Moisture.moisture C.moist t dt met ⟨h.water.TWL c, σ.zb c, h.gw c, h.gwPrev c, h.wetting c, uw⟩ (σ.moist c) with
  | none => simp [hk] at he
  | some (.error e) => simp [hk] at he
  | some (.ok (s', ix)) =>
    simp only [hk] at he
    split_ifs at he
    · match hmet : met, ix with
      | none, _ => simp at he
      | some _, none => simp at he
      | some met, some fl =>
        simp only at he
        rw [← Except.ok.inj (Option.some.inj he)]
        exact min_le_left _ _
    · rw [← Except.ok.inj (Option.some.inj he), moisture_salt hk]
      exact h1 c

/-- Wind in the environment of a step. -/
theorem windy_iff {E : Env nx 0 nf} {u : ℝ} (h : ∀ c, (E.wind c).uw = u) : Windy E ↔ u ≠ 0 := by
  unfold Windy
  simp only [h, Finset.sum_const, Finset.card_univ, Fintype.card_fin, nsmul_eq_mul]
  have : (cells nx 0 : ℝ) ≠ 0 := by
    unfold cells
    positivity
  rw [mul_ne_zero_iff]
  exact and_iff_right this

theorem levels_settled (C : Full.Config nx nf) {E : Env nx 0 nf} {u dt : ℝ} (h : ∀ c, (E.wind c).uw = u) (hdt : E.dt = dt) (lzb : ℕ → ℝ)
    (l : Fin (cells nx 0) → ℝ × ℝ × ℝ) (c : Fin (cells nx 0)) : levels C dt (decide (u ≠ 0)) lzb l c =
      (settledLevel C E l c, (l c).2.1, open Classical in if Windy E then settledLevel C E l c - lzb c else (l c).2.2) := by
  unfold settledLevel levels
  rw [hdt]
  by_cases hu : u ≠ 0
  · rw [if_pos (by simpa using hu), if_pos ((windy_iff h).mpr hu), if_pos ((windy_iff h).mpr hu)]
    rfl
  · rw [if_neg (by simpa using hu), if_neg (fun hw => hu ((windy_iff h).mp hw)), if_neg (fun hw => hu ((windy_iff h).mp hw))]

theorem grow_rho (c : Veg.Config) (e : Veg.Env) (s : Veg.Cell) : 0 ≤ (Veg.grow c e s).rho := by
  have hg : 0 ≤ (Veg.growth c e s).rho := by
    unfold Veg.growth
    by_cases ho : c.orig = true
    · simp only [ho, if_true]
      positivity
    · simp only [ho]
      rw [if_neg (by simp)]
      dsimp only
      generalize ((_ : ℤ) : ℝ) * (c.dt * c.accfac) / Veg.year = d
      split_ifs <;> first | exact le_rfl | linarith
  unfold Veg.grow Veg.dying
  dsimp only
  generalize Veg.growth c e s = q at hg
  split_ifs <;> simp_all

/-- Dune erosion that returns. -/
theorem eroded_ok {C : Full.Config nx nf} (hd : C.dune.process = true) {t dt : ℝ} {w : Hydro.Water} {zb z : ℕ → ℝ}
    (h : eroded C t dt w zb = .ok z) : ∃ tide wave wl Tp, C.water.tideFile = some tide ∧ C.water.waveFile = some wave ∧
      interpCircular tide t = some wl ∧ interpCircular (wave.map fun x => (x.1, x.2.2)) t = some Tp ∧
      (∀ zb zb', Erosion.row nx C.dune.par ⟨w.R 0, wl, C.dune.collisions (w.eta 0) wl (w.sigma 0) dt Tp⟩ C.x zb = .ok zb' →
        eroded C t dt w zb = .ok (slid C zb')) ∧
      ∃ zb', Erosion.row nx C.dune.par ⟨w.R 0, wl, C.dune.collisions (w.eta 0) wl (w.sigma 0) dt Tp⟩ C.x zb = .ok zb' ∧ z = slid C zb' := by
  match ht : C.water.tideFile, hwv : C.water.waveFile with
  | none, _ => simp [eroded, hd, ht] at h
  | some tide, none => simp [eroded, hd, ht, hwv] at h
  | some tide, some wave =>
    match hwl : interpCircular tide t, hTp : interpCircular (wave.map fun x => (x.1, x.2.2)) t with
    | none, some Tp => simp [eroded, hd, ht, hwv, Hydro.series, hwl, hTp] at h
    | none, none => simp [eroded, hd, ht, hwv, Hydro.series, hwl, hTp] at h
    | some wl, none => simp [eroded, hd, ht, hwv, Hydro.series, hwl, hTp] at h
    | some wl, some Tp =>
      refine ⟨tide, wave, wl, Tp, rfl, rfl, hwl, hTp, fun zb zb' hz => ?_, ?_⟩
      · unfold eroded
        simp only [hd, ht, hwv, Hydro.series, hwl, hTp, hz, if_true]
      · unfold eroded at h
        simp only [hd, ht, hwv, Hydro.series, hwl, hTp, if_true] at h
        match hr : Erosion.row nx C.dune.par ⟨w.R 0, wl, C.dune.collisions (w.eta 0) wl (w.sigma 0) dt Tp⟩ C.x zb with
        | .error e => simp [hr] at h
        | .ok zb' =>
          simp only [hr] at h
          exact ⟨zb', rfl, (Except.ok.inj h).symm⟩

theorem finished_rho (C : Full.Config nx nf) (r : ℕ → ℝ) (σ : Full.State nx nf) (lzb : ℕ → ℝ) (h : Hydro.HydroState)
    (m : Fin (cells nx 0) → Moisture.Cell) (τ : Whole.State nx 0 nf) (hσ : ∀ j, 0 ≤ (σ.veg j).rho) (j : ℕ) :
    0 ≤ ((finished C r σ lzb h m τ).veg j).rho := by
  unfold finished
  dsimp only
  generalize (if σ.uw ≠ 0 then _ else σ.dzbveg) = d
  split_ifs
  · exact grow_rho _ _ _
  · exact hσ j

/-- The levels after a step come from the later changes of the levels. -/
theorem step_levels {sp : LinSolve nx 0} {C : Whole.Config nf} {E : Env nx 0 nf} {σ ρ : Whole.State nx 0 nf}
    (h : Whole.step sp C E σ = some (.ok ρ)) :
    ∃ l, ∀ c, ((ρ.sand.bed c).zb, (ρ.sand.bed c).zs, (ρ.sand.bed c).dzb) = E.levels l c := by
  unfold Whole.step at h
  simp only at h
  split_ifs at h
  · match h1 : transport sp C E (waves C E σ) with
    | none => simp [h1] at h
    | some (.error e) => simp [h1] at h
    | some (.ok τ) =>
      simp only [h1] at h
      rw [← Except.ok.inj (Option.some.inj h)]
      exact ⟨_, fun c => rfl⟩
  · rw [← Except.ok.inj (Option.some.inj h)]
    exact ⟨_, fun c => rfl⟩

theorem slid_sum (C : Full.Config nx nf) (hn : 2 ≤ nx) (zb : ℕ → ℝ) :
    ∑ j ∈ Ico 1 nx, slid C zb j ≤ ∑ j ∈ Ico 1 nx, zb j := by
  have h := C42_never_gains (avaIn C) fun _ j => zb j
  rw [show (avaIn C).my = 0 from rfl, show (avaIn C).mx = nx from rfl, zero_add, sum_range_one, sum_range_one] at h
  have hb : ∀ j, j = 0 ∨ j = nx → Ava.avalanche (avaIn C) (fun _ j => zb j) 0 j = zb j := fun j hj =>
    C41_border_fixed (avaIn C) _ 0 j (Nat.zero_le _) (by show j ≤ nx; rcases hj with rfl | rfl <;> omega) (by
      unfold OnBorder
      rcases hj with h | h
      · exact Or.inl h
      · exact Or.inr (Or.inl h))
  have hs : ∀ f : ℕ → ℝ, ∑ j ∈ range (nx + 1), f j = f 0 + ∑ j ∈ Ico 1 nx, f j + f nx := by
    intro f
    rw [sum_range_succ, range_eq_Ico, sum_eq_sum_Ico_succ_bot (by omega)]
  rw [hs, hs, hb 0 (Or.inl rfl), hb nx (Or.inr rfl)] at h
  exact (add_le_add_iff_left (zb 0)).mp ((add_le_add_iff_right (zb nx)).mp h)

/-- What a step depends on, for a state `P` prepared from `σ`. -/
theorem forcing_intro {sp : LinSolve nx 0} (C : Full.Config nx nf) (r : ℕ → ℝ) (σ P : Full.State nx nf) (now : Now) (u0 u : ℕ → Wind.Shear)
    (wa : Hydro.HydroState) (m : Fin (cells nx 0) → Moisture.Cell) (d : Fin (cells nx 0) → Fin nf → Transport.Speed) (ρ : Whole.State nx 0 nf)
    (met : Option Moisture.Meteo) (hmet : meteoAt C (Hydro.lastTime C.ground P.clock.t P.clock.dt) = .ok met)
    (zb : ℕ → ℝ) (ht : P.clock.t = σ.clock.t) (hcore : P.core = σ.core) (huw : P.uw = now.uw) (ha : P.dzbavg = σ.dzbavg)
    (hv : P.dzbveg = σ.dzbveg) (hveg : P.veg = σ.veg) (hmo : P.moist = σ.moist) (hhy : P.hydro = σ.hydro) (hf : P.fence = fences C σ)
    (hh : Hydro.hydroStep C.water (row C P) (groundIn C) P.clock.t P.clock.dt P.hydro = .ok wa)
    (hm : moistures C P P.clock.t P.clock.dt now.uw met wa = some (.ok m))
    (hstep : Whole.step sp C.core (envWith C P now u0 u P.clock.dt wa m d) P.core = some (.ok ρ))
    (her : eroded C P.clock.t P.clock.dt wa.water (col fun c => (ρ.sand.bed c).zb) = .ok zb)
    (hsh : ∃ u0' u1 u2 u3, ShearOf C σ (finished C r P P.zb wa m (withLevels ρ zb))
      (withErosion C P.clock.dt wa.water (envWith C P now u0 u P.clock.dt wa m d)) u0' u1 u2 u3) :
    Forcing C r σ (finished C r P P.zb wa m (withLevels ρ zb))
      (withErosion C P.clock.dt wa.water (envWith C P now u0 u P.clock.dt wa m d)) := by
  have hzb : P.zb = σ.zb := by
    unfold Full.State.zb
    rw [hcore]
  have hu : ∀ c, ((withErosion C P.clock.dt wa.water (envWith C P now u0 u P.clock.dt wa m d)).wind c).uw = now.uw := fun c => rfl
  have hlv := levels_settled C (dt := P.clock.dt) hu rfl σ.zb
  have hE : ∀ l c, ((withErosion C P.clock.dt wa.water (envWith C P now u0 u P.clock.dt wa m d)).levels l c).1 =
      match eroded C P.clock.t P.clock.dt wa.water (col (settledLevel C (withErosion C P.clock.dt wa.water
        (envWith C P now u0 u P.clock.dt wa m d)) l)) with
        | .ok zb => zb c
        | .error _ => settledLevel C (withErosion C P.clock.dt wa.water (envWith C P now u0 u P.clock.dt wa m d)) l c := by
    intro l c
    show (match eroded C P.clock.t P.clock.dt wa.water (col fun c => (levels C P.clock.dt (decide (now.uw ≠ 0)) P.zb l c).1) with
        | .ok zb => zb c
        | .error _ => (levels C P.clock.dt (decide (now.uw ≠ 0)) P.zb l c).1) = _
    rw [hzb]
    simp only [hlv]
  have hE2 : ∀ l c, ((withErosion C P.clock.dt wa.water (envWith C P now u0 u P.clock.dt wa m d)).levels l c).2 =
      (levels C P.clock.dt (decide (now.uw ≠ 0)) P.zb l c).2 := fun l c => rfl
  have hst : ∃ l, (col fun c => (ρ.sand.bed c).zb) =
      col (settledLevel C (withErosion C P.clock.dt wa.water (envWith C P now u0 u P.clock.dt wa m d)) l) := by
    obtain ⟨l, hl⟩ := step_levels hstep
    refine ⟨l, ?_⟩
    congr 1
    funext c
    have := (congrArg Prod.fst (hl c))
    rw [show (envWith C P now u0 u P.clock.dt wa m d).levels l c = levels C P.clock.dt (decide (now.uw ≠ 0)) P.zb l c from rfl, hzb, hlv] at this
    exact this
  have hdt : (withErosion C P.clock.dt wa.water (envWith C P now u0 u P.clock.dt wa m d)).dt = P.clock.dt := rfl
  have hz : ∀ c : Fin (cells nx 0), (withErosion C P.clock.dt wa.water (envWith C P now u0 u P.clock.dt wa m d)).zs c = wa.water.zs c ∧
      (withErosion C P.clock.dt wa.water (envWith C P now u0 u P.clock.dt wa m d)).hsmix c = wa.water.Hsmix c := fun c => ⟨rfl, rfl⟩
  have hw : ∀ c, (withErosion C P.clock.dt wa.water (envWith C P now u0 u P.clock.dt wa m d)).moist c = (m c).moist ∧
      (withErosion C P.clock.dt wa.water (envWith C P now u0 u P.clock.dt wa m d)).salt c = (m c).salt := fun c => ⟨rfl, rfl⟩
  have hne : ∀ c : Fin (cells nx 0), (withErosion C P.clock.dt wa.water (envWith C P now u0 u P.clock.dt wa m d)).zne c = C.zne c := fun c => rfl
  generalize withErosion C P.clock.dt wa.water (envWith C P now u0 u P.clock.dt wa m d) = E at *
  have hmc := moistures_cell hm
  unfold row at hh
  rw [hzb, ht, hhy] at hh
  rw [ht] at hE her hmet
  simp only [ht, hzb, hmo] at hmc
  have hlt := lastTime_is C.ground σ.clock.t P.clock.dt
  refine ⟨?_, ⟨_, met, hlt.1, fun d m => ?_, meteoAt_is hmet, fun c => ?_⟩, hz, hw, hne, ?_, fun j => ?_, fun hd l c => ?_, fun hd => ?_, fun l c => ?_, fun c hwi => ?_, fun hwi => ?_, hsh⟩
  · rw [hdt]
    exact hh
  · rw [hdt]
    exact hlt.2 d m
  · rw [hdt, hu]
    exact hmc c
  · unfold finished
    rw [hveg, hdt]
    rfl
  · show P.fence j = _
    rw [hf]
    rfl
  · have he : ∀ zb, eroded C σ.clock.t P.clock.dt wa.water zb = .ok zb := by
      intro zb
      unfold eroded
      rw [hd]
      rfl
    rw [hE, he]
    exact col_apply _ c
  · obtain ⟨tide, wave, wl, Tp, h1, h2, h3, h4, he, zb', hr, hz'⟩ := eroded_ok hd her
    refine ⟨tide, wave, wl, Tp, h1, h2, h3, h4, fun l zb'' hz'' c => ?_, ?_⟩
    · have hz'' : Erosion.row nx C.dune.par ⟨wa.water.R 0, wl, C.dune.collisions (wa.water.eta 0) wl (wa.water.sigma 0) E.dt Tp⟩ C.x
        (col (settledLevel C E l)) = .ok zb'' := hz''
      rw [hdt] at hz''
      rw [hE, he _ _ hz'']
      rfl
    · obtain ⟨l, hl⟩ := hst
      refine ⟨l, zb', ?_, fun c => ?_⟩
      · show Erosion.row nx C.dune.par ⟨wa.water.R 0, wl, C.dune.collisions (wa.water.eta 0) wl (wa.water.sigma 0) E.dt Tp⟩ C.x
          (col (settledLevel C E l)) = .ok zb'
        rw [hdt, ← hl]
        exact hr
      · show col (fun c => zb c) c = _
        rw [hz']
        exact col_apply (fun c => slid C zb' c) c
  · rw [hE2, hzb, hlv]
  · have hne := (windy_iff hu).mp hwi
    have hz := col_apply (fun c => ((withLevels ρ zb).sand.bed c).dzb) c
    unfold finished
    simp only [huw, if_pos hne, ha, hzb, hdt, Bed.averageChange, hz, add_sub_cancel_left, and_self]
  · have hne : ¬ now.uw ≠ 0 := fun h => hwi ((windy_iff hu).mpr h)
    unfold finished
    simp only [huw, if_neg hne, ha, hv, and_self]

/-- The stress of a shear velocity with matching components. -/
theorem velocityStress_of (rhoa : ℝ) (s : Wind.Shear) (h : s.ustar = Wind.hypot s.ustars s.ustarn) : Wind.velocityStress rhoa s =
    ⟨s.ustar, s.ustars, s.ustarn, |rhoa| * s.ustar ^ 2, rhoa * s.ustar * s.ustars, rhoa * s.ustar * s.ustarn⟩ := by
  have h0 : 0 ≤ s.ustar := by
    rw [h]
    exact Real.sqrt_nonneg _
  unfold Wind.velocityStress
  dsimp only
  split_ifs with hz hp
  · simp [hz]
  · have hsq : s.ustars ^ 2 + s.ustarn ^ 2 = s.ustar ^ 2 := by
      rw [h, Wind.hypot, Real.sq_sqrt (by positivity)]
    have e1 : rhoa * s.ustar ^ 2 * s.ustars / s.ustar = rhoa * s.ustar * s.ustars := by
      field_simp
    have e2 : rhoa * s.ustar ^ 2 * s.ustarn / s.ustar = rhoa * s.ustar * s.ustarn := by
      field_simp
    rw [e1, e2]
    have e3 : Wind.hypot (rhoa * s.ustar * s.ustars) (rhoa * s.ustar * s.ustarn) = |rhoa| * s.ustar ^ 2 := by
      have : (rhoa * s.ustar * s.ustars) ^ 2 + (rhoa * s.ustar * s.ustarn) ^ 2 = (|rhoa| * s.ustar ^ 2) ^ 2 := by
        rw [mul_pow |rhoa|, sq_abs]
        linear_combination (rhoa * s.ustar) ^ 2 * hsq
      rw [Wind.hypot, this, Real.sqrt_sq (by positivity)]
    rw [e3]
  · exact absurd (lt_of_le_of_ne h0 (Ne.symm hz)) hp

/-- The shear over a flat bed. -/
theorem shear0_flat (C : Full.Config nx nf) (σ : Full.State nx nf) (w : ℝ × ℝ) (z : ℝ) (c : Fin (cells nx 0)) (v : Transport.Wind)
    (h1 : v.uw = (windComponents C w).uw) (h2 : v.uws = (windComponents C w).uws) (h3 : v.uwn = (windComponents C w).uwn) :
    shear0 C σ w (fun _ => z) c = overFlat C v z := by
  have d0 := shear0_ustar C σ w (fun _ => z) c
  unfold overFlat
  rw [h1, h2, h3]
  unfold shear0 Wind.interpolateCell at d0 ⊢
  rw [col_apply] at d0 ⊢
  dsimp only at d0 ⊢
  rw [velocityStress_of _ _ rfl] at d0 ⊢
  unfold turn at d0 ⊢
  dsimp only at d0 ⊢
  unfold windComponents
  dsimp only
  rw [← d0]
  unfold rotatePt
  dsimp only
  congr 1 <;> ring

theorem shearOf_intro (C : Full.Config nx nf) (r : ℕ → ℝ) (σ : Full.State nx nf) (w : ℝ × ℝ) (z : ℝ) (hz : RoughnessIs C z)
    (hw : windNow C σ = .ok w) (dt : ℝ) (wa : Hydro.HydroState) (m : Fin (cells nx 0) → Moisture.Cell)
    (d : Fin (cells nx 0) → Fin nf → Transport.Speed) (ρ : Whole.State nx 0 nf) (zb : ℕ → ℝ) (P : Full.State nx nf)
    (hP : P = { prepared C σ w (fun _ => z) with clock := { (prepared C σ w fun _ => z).clock with dt := dt } }) :
    ∃ u0 u1 u2 u3, ShearOf C σ (finished C r P P.zb wa m (withLevels ρ zb))
      (withErosion C P.clock.dt wa.water (envWith C P (windComponents C w) (shear0 C σ w fun _ => z) P.shear P.clock.dt wa m d)) u0 u1 u2 u3 := by
  have hu : ∀ c, ((withErosion C P.clock.dt wa.water (envWith C P (windComponents C w) (shear0 C σ w fun _ => z) P.shear P.clock.dt wa m
      d)).wind c).uw = (windComponents C w).uw := fun c => rfl
  have hwi := windy_iff hu
  have hdir : (finished C r P P.zb wa m (withLevels ρ zb)).udir + C.alpha = (windComponents C w).udir := by
    subst hP
    show (windComponents C w).udir - C.alpha + C.alpha = _
    ring
  have hsep : (finished C r P P.zb wa m (withLevels ρ zb)).zsep = match Full.surface C σ (windComponents C w) with
      | none => σ.zsep
      | some z => z := by
    subst hP
    rfl
  refine ⟨shear0 C σ w fun _ => z, shear1 C σ (windComponents C w) (shear0 C σ w fun _ => z),
    shear2 C σ (windComponents C w) (shear1 C σ (windComponents C w) (shear0 C σ w fun _ => z)), P.shear, ?_⟩
  refine ⟨fun z' hz' c => ?_, fun j => ?_, fun j => ?_, fun c => ?_, fun c => ⟨rfl, rfl, rfl⟩, fun c => ⟨rfl, rfl, rfl, rfl⟩, ?_, fun c => ?_,
    fun file hp hf => ?_, ?_⟩
  · have : z' = z := by
      have := (roughnesses_fixed C z' hz' σ w.1).symm.trans (roughnesses_fixed C z hz σ w.1)
      exact congrFun (Except.ok.inj (Option.some.inj this)) c
    subst this
    exact shear0_flat C σ w z' c _ rfl rfl rfl
  · unfold shear1
    rw [hsep]
    by_cases h : (windComponents C w).uw ≠ 0 ∧ C.wind.processShear = true
    · rw [if_pos h, if_pos ⟨hwi.mpr h.1, h.2⟩]
      unfold Full.surface
      by_cases hs : C.wind.processSeparation = true
      · rw [if_pos ⟨h.1, h.2, hs⟩, if_pos hs]
      · rw [if_neg (fun hh => hs hh.2.2), if_neg hs]
    · rw [if_neg h, if_neg fun hh => h ⟨hwi.mp hh.1, hh.2⟩]
  · rw [hdir]
    subst hP
    rfl
  · rw [hdir]
    have hs : P.shear c = shear3 C σ (windComponents C w) (shear2 C σ (windComponents C w) (shear1 C σ (windComponents C w)
        (shear0 C σ w fun _ => z))) c := by
      subst hP
      rfl
    rw [hs]
    unfold shear3
    rw [dif_pos c.2]
  · rw [hsep, hdir]
    unfold Full.surface
    by_cases h : (windComponents C w).uw ≠ 0 ∧ C.wind.processShear = true ∧ C.wind.processSeparation = true
    · rw [if_pos h, if_pos ⟨hwi.mpr h.1, h.2⟩]
      rfl
    · rw [if_neg h, if_neg fun hh => h ⟨hwi.mp hh.1, hh.2⟩]
  · subst hP
    rfl
  · unfold windNow at hw
    simp only [hp, hf] at hw
    match hwa : Wind.windAt file σ.clock.t with
    | none => simp [hwa] at hw
    | some v =>
      simp only [hwa] at hw
      obtain rfl := Except.ok.inj hw
      have : (finished C r P P.zb wa m (withLevels ρ zb)).udir = v.2 := by
        have h2 : (windComponents C v).udir = v.2 + C.alpha := rfl
        linarith
      rw [this]
      refine ⟨v.1, rfl, ?_⟩
      subst hP
      rfl
  · subst hP
    exact ⟨rfl, rfl⟩

set_option maxHeartbeats 1000000 in
/-- **C133** An executed call of `update` is a step of the chain from wind to bed, with the wind of the file at the current time, the time
step that was asked for and the shear of the logarithmic wind profile, and this step meets the assumptions of the theorems on the chain, whatever
the files contain, the wind direction, fences and vegetation, and the state.  A call with a time step below -1 only moves the clock. -/
theorem C133_step (sp : LinSolve nx 0) (C : Full.Config nx nf) (hC : Usable C) (r : ℕ → ℝ) (dt : ℝ) (σ τ : Full.State nx nf) (b : Bool)
    (h : Full.update sp C r dt σ = some (.ok (τ, b))) :
    (b = false ↔ dt < -1) ∧ (b = false → τ.core = σ.core ∧ τ.clock.t = σ.clock.t - dt ∧ τ.moist = σ.moist ∧ τ.veg = σ.veg ∧ τ.hydro = σ.hydro) ∧
    (b = true → ∃ E : Env nx 0 nf, StepOf C σ.clock.t dt E ∧ Forcing C r σ τ E ∧ τ.clock.t = σ.clock.t + E.dt * C.accfac ∧
      ((∀ c, (σ.moist c).salt ≤ 1) → ∀ c, E.salt c ≤ 1) ∧
      (Sheltering C → (∀ j, 0 ≤ (σ.veg j).rho) → Sheltered E) ∧
      Whole.step sp C.core E σ.core = some (.ok τ.core)) ∧
    ((∀ c, (σ.moist c).salt ≤ 1) → ∀ c, (τ.moist c).salt ≤ 1) ∧ ((∀ j, 0 ≤ (σ.veg j).rho) → ∀ j, 0 ≤ (τ.veg j).rho) := by
  obtain ⟨w, z0, hw, hz, hb, hF, hT⟩ := Full.update_ok h
  rw [timestep_implicit C hC] at hb hF hT
  have hbs : b = false ↔ dt < -1 := by
    by_cases hd : dt < -1
    · simp [hd] at hb
      simp [hb, hd]
    · simp [hd] at hb
      simp [hb, hd]
  refine ⟨hbs, ?_⟩
  cases b with
  | false =>
    have hd := hbs.mp rfl
    have e := hF rfl
    rw [if_pos hd] at e
    rw [e]
    refine ⟨fun _ => ⟨rfl, ?_, rfl, rfl, rfl⟩, fun h => absurd h (by simp), fun h => h, fun h => h⟩
    show σ.clock.t + |dt| = _
    rw [abs_of_neg (by linarith)]
    ring
  | true =>
    have hd : ¬ dt < -1 := fun hd => absurd (hbs.mpr hd) (by simp)
    have e := hT rfl
    rw [if_neg hd] at e
    obtain ⟨met, wa, m, E, ρ, zb, hmet, hh, hm, hE, hstep, her, rfl⟩ := execute_ok e
    obtain ⟨z, hzr, hz0, hz1⟩ := hC.rough
    have hz0' : z0 = fun _ => z := by
      have := hz.symm.trans (roughnesses_fixed C z hzr σ w.1)
      exact Except.ok.inj (Option.some.inj this)
    subst hz0'
    unfold env at hE
    rw [if_neg (by rw [hC.speed]; exact fun h => absurd h.1 (by decide))] at hE
    have hE := Option.some.inj hE
    subst hE
    have hsalt : (∀ c, (σ.moist c).salt ≤ 1) → ∀ c, (m c).salt ≤ 1 := fun hs c => moistures_salt hs hm c
    refine ⟨fun h => absurd h (by simp), fun _ => ⟨_, ?_, ?_, rfl, ?_, ?_, step_withErosion hstep her⟩, hsalt, fun hrho j => ?_⟩
    rotate_left
    · exact forcing_intro C r σ _ (windComponents C w) _ _ wa m _ ρ met hmet zb rfl rfl rfl rfl rfl rfl rfl rfl rfl hh hm hstep her
        (shearOf_intro C r σ w z hzr hw _ wa m _ ρ zb _ rfl)
    · exact hsalt
    · intro hS hrho c
      exact shearNow_le C hS.shear hS.plants σ hrho w (fun _ => z) c
    · refine finished_rho C r _ _ _ _ _ ?_ j
      exact hrho
    refine ⟨fun hwind => ?_, ⟨rfl, rfl⟩, fun _ => rfl, fun file hp hf => ?_, fun c => ?_, fun z' hz' c => ?_, fun hu c => ?_, fun hn l c => ?_,
      fun hn l => ?_⟩
    · exact step_env_ok C hC σ w z hz0 hz1 _ (fun _ => rfl) (fun _ => rfl) (given_pos hC dt) hwind
    · unfold windNow at hw
      simp only [hp, hf] at hw
      match hwa : Wind.windAt file σ.clock.t with
      | none => simp [hwa] at hw
      | some v =>
        simp only [hwa] at hw
        obtain rfl := Except.ok.inj hw
        exact ⟨v.1, v.2, rfl, fun c => ⟨rfl, components_direction C v⟩⟩
    · exact components_square C w
    · have : z' = z := by
        have := (roughnesses_fixed C z' hz' σ w.1).symm.trans (roughnesses_fixed C z hzr σ w.1)
        exact congrFun (Except.ok.inj (Option.some.inj this)) c
      subst this
      exact shear0_ustar C σ w _ c
    · have hs : shearNow C σ w (fun _ => z) = shear0 C σ w fun _ => z := by
        unfold shearNow
        funext j
        simp only [shear3, shear2, shear1, hu.1, hu.2.1, hu.2.2]
        simp
      refine ⟨congrArg (fun s => (s c).ustar) hs, fun z' hz' => ?_⟩
      have : z' = z := by
        have := (roughnesses_fixed C z' hz' σ w.1).symm.trans (roughnesses_fixed C z hzr σ w.1)
        exact congrFun (Except.ok.inj (Option.some.inj this)) c
      subst this
      obtain ⟨d1, d2⟩ := shear0_direction C σ w (fun _ => z') c
      exact ⟨(congrArg (fun s => (s c).ustars) hs).trans d1, (congrArg (fun s => (s c).ustarn) hs).trans d2⟩
    · have he : ∀ zb, eroded C σ.clock.t (if 0 < dt then dt else C.ts.dt) wa.water zb = .ok zb := by
        intro zb
        unfold eroded
        rw [hn.2.2]
        rfl
      have hl : ∀ zb j, slid C zb j = zb j := by
        intro zb j
        unfold slid Ava.avalanche
        rw [show (avaIn C).process = C.ava.process from rfl, hn.1]
        rfl
      have hlev : ∀ c, (levels C (if 0 < dt then dt else C.ts.dt) (decide ((windComponents C w).uw ≠ 0)) (prepared C σ w fun _ => z).zb l c).1 =
          (l c).1 := by
        intro c
        generalize decide ((windComponents C w).uw ≠ 0) = windy
        unfold levels
        cases windy
        · rfl
        · simp only [hl, hn.2.1, Bed.wetBedReset, Bool.false_eq_true, if_false, if_true]
          exact col_apply _ c
      show (match eroded C σ.clock.t (if 0 < dt then dt else C.ts.dt) wa.water (col fun c => (levels C (if 0 < dt then dt else C.ts.dt)
          (decide ((windComponents C w).uw ≠ 0)) (prepared C σ w fun _ => z).zb l c).1) with
        | .ok zb => zb c
        | .error _ => _) = _
      rw [he]
      show col _ (c : ℕ) = _
      rw [col_apply]
      exact hlev c
    · have he : ∀ zb, eroded C σ.clock.t (if 0 < dt then dt else C.ts.dt) wa.water zb = .ok zb := by
        intro zb
        unfold eroded
        rw [hn.2]
        rfl
      have hlev : ∑ j ∈ Ico 1 nx, col (fun c => (levels C (if 0 < dt then dt else C.ts.dt) (decide ((windComponents C w).uw ≠ 0))
          (prepared C σ w fun _ => z).zb l c).1) j ≤ ∑ j ∈ Ico 1 nx, col (fun c => (l c).1) j := by
        generalize decide ((windComponents C w).uw ≠ 0) = windy
        unfold levels
        cases windy
        · exact le_rfl
        · simp only [hn.1, Bed.wetBedReset, Bool.false_eq_true, if_false, if_true]
          refine le_trans (le_of_eq (sum_congr rfl fun j hj => ?_)) (slid_sum C hC.grid.columns _)
          rw [mem_Ico] at hj
          have hj' : j < cells nx 0 := by unfold cells; omega
          exact col_apply (fun c => slid C (col fun c => (l c).1) c) ⟨j, hj'⟩
      refine le_trans (le_of_eq (sum_congr rfl fun j hj => ?_)) hlev
      show col (fun c => match eroded C σ.clock.t (if 0 < dt then dt else C.ts.dt) wa.water (col fun c => (levels C (if 0 < dt then dt else C.ts.dt)
          (decide ((windComponents C w).uw ≠ 0)) (prepared C σ w fun _ => z).zb l c).1) with
        | .ok zb => zb c
        | .error _ => _) j = _
      rw [he]
      congr 1
      funext c
      exact col_apply _ c

/-- **C133** A run, with any calls of `update`, is a run of the chain from wind to bed whose steps with wind all meet the assumptions of the
theorems on it. -/
theorem C133_run (sp : LinSolve nx 0) (C : Full.Config nx nf) (hC : Usable C) (calls : List ((ℕ → ℝ) × ℝ)) (σ τ : Full.State nx nf)
    (h : Full.run sp C calls σ = some (.ok τ)) :
    ∃ Es : List (Env nx 0 nf), Es.length = calls.countP (fun x => decide (-1 ≤ x.2)) ∧
      (∀ E ∈ Es, ∃ x ∈ calls, StepOf C E.t x.2 E) ∧ ((∀ c, (σ.moist c).salt ≤ 1) → ∀ E ∈ Es, ∀ c, E.salt c ≤ 1) ∧
      (Sheltering C → (∀ j, 0 ≤ (σ.veg j).rho) → ∀ E ∈ Es, Sheltered E) ∧
      Whole.run sp C.core Es σ.core = some (.ok τ.core) := by
  induction calls generalizing σ with
  | nil =>
    rw [← Except.ok.inj (Option.some.inj h)]
    exact ⟨[], rfl, by simp, by simp, by simp, rfl⟩
  | cons x xs ih =>
    unfold Full.run at h
    match h1 : Full.update sp C x.1 x.2 σ with
    | none => simp [h1] at h
    | some (.error e) => simp [h1] at h
    | some (.ok (ρ, b)) =>
      simp only [h1] at h
      obtain ⟨Es, hl, hE, hsE, huE, hr⟩ := ih ρ h
      obtain ⟨hb, hf, ht, hs, hrho⟩ := C133_step sp C hC x.1 x.2 σ ρ b h1
      have hE' : ∀ E ∈ Es, ∃ y ∈ x :: xs, StepOf C E.t y.2 E := fun E h' => by
        obtain ⟨y, hy, h⟩ := hE E h'
        exact ⟨y, List.mem_cons_of_mem _ hy, h⟩
      have hsE' : (∀ c, (σ.moist c).salt ≤ 1) → ∀ E ∈ Es, ∀ c, E.salt c ≤ 1 := fun h E h' c => hsE (hs h) E h' c
      have huE' : Sheltering C → (∀ j, 0 ≤ (σ.veg j).rho) → ∀ E ∈ Es, Sheltered E :=
        fun hS h E h' => huE hS (hrho h) E h'
      rw [List.countP_cons]
      cases b with
      | false =>
        refine ⟨Es, ?_, hE', hsE', huE', by rw [← (hf rfl).1]; exact hr⟩
        have : ¬ -1 ≤ x.2 := not_le.mpr (hb.mp rfl)
        simp [hl, this]
      | true =>
        obtain ⟨E, hok, -, -, hsalt, hu, hst⟩ := ht rfl
        refine ⟨E :: Es, ?_, ?_, ?_, ?_, ?_⟩
        · have : -1 ≤ x.2 := by
            by_contra hx
            exact absurd (hb.mpr (not_le.mp hx)) (by simp)
          simp [hl, this]
        · intro E' h'
          rcases List.mem_cons.mp h' with rfl | h'
          · exact ⟨x, List.mem_cons_self, by rw [hok.time.1]; exact hok⟩
          · exact hE' E' h'
        · intro h E' h' c
          rcases List.mem_cons.mp h' with rfl | h'
          · exact hsalt h c
          · exact hsE' h E' h' c
        · intro hS h E' h'
          rcases List.mem_cons.mp h' with rfl | h'
          · exact hu hS h
          · exact huE' hS h E' h'
        · unfold Whole.run
          simp only [hst]
          exact hr

/-! ### A run always returns -/

theorem interp_total (file : List Wind.Record) (hne : file ≠ []) (hinc : file.Pairwise fun a b => a.1 < b.1) (f : Wind.Record → ℝ) (t : ℝ) :
    ∃ v, interpCircular (file.map fun r => (r.1, f r)) t = some v := by
  obtain ⟨v, hv⟩ := series_total (file.map fun r => (r.1, f r)) (by simpa using hne) (by
    unfold Increasing
    rw [List.pairwise_map]
    exact hinc) t
  unfold Hydro.series at hv
  match h : interpCircular (file.map fun r => (r.1, f r)) t with
  | none => simp [h] at hv
  | some v => exact ⟨v, h⟩

theorem windNow_total (C : Full.Config nx nf) (hF : SeriesOk C) (σ : Full.State nx nf) : ∃ w, windNow C σ = .ok w := by
  unfold windNow
  split
  · rename_i file _ hf
    obtain ⟨hne, hinc⟩ := hF.wind file hf
    obtain ⟨a, ha⟩ := interp_total file hne hinc (fun r => r.2.1) σ.clock.t
    obtain ⟨b, hb⟩ := interp_total file hne hinc (fun r => Real.sin (r.2.2 / 180 * Real.pi)) σ.clock.t
    obtain ⟨c, hc⟩ := interp_total file hne hinc (fun r => Real.cos (r.2.2 / 180 * Real.pi)) σ.clock.t
    unfold Wind.windAt
    simp only [ha, hb, hc]
    exact ⟨_, rfl⟩
  · exact ⟨_, rfl⟩

theorem hydro_total (C : Full.Config nx nf) (hF : FilesOk C) (r : Hydro.Row) (t dt : ℝ) (s : Hydro.HydroState) :
    ∃ s', Hydro.hydroStep C.water r (groundIn C) t dt s = .ok s' := by
  obtain ⟨w, hw⟩ := C60_never_fails C.water r t s.water hF.tide hF.wave
  unfold Hydro.hydroStep Hydro.groundPart
  simp only [hw, groundIn, hF.ground]
  exact ⟨_, rfl⟩

theorem meteo_total (C : Full.Config nx nf) (hF : SeriesOk C) (t : ℝ) : ∃ met, meteoAt C t = .ok met := by
  unfold meteoAt
  match hf : C.meteoFile with
  | none => exact ⟨_, rfl⟩
  | some rows =>
    simp only
    split_ifs
    · obtain ⟨hne, hinc⟩ := hF.meteo rows hf
      choose v hv using fun i : Fin 5 => series_total (rows.map fun x => (x.1, x.2 i)) (by simpa using hne) (by
        unfold Increasing
        rw [List.pairwise_map]
        exact hinc) t
      rw [collect_ok.mpr hv]
      exact ⟨_, rfl⟩
    · exact ⟨_, rfl⟩

theorem moisture_total (C : Full.Config nx nf) (hF : SeriesOk C) (t s₀ dt : ℝ) (met : Option Moisture.Meteo) (hmet : MeteoIs C s₀ met)
    (x : Moisture.Input) (s : Moisture.Cell) : ∃ s', Moisture.update C.moist t dt met x s = some (.ok s') := by
  have hsome : C.moist.processMoist = true → lower C.moist.method = "surf_moisture" → C.meteoFile ≠ none → ∃ m, met = some m := by
    intro h1 h2 h3
    obtain ⟨rows, h3⟩ := Option.ne_none_iff_exists'.mp h3
    obtain ⟨m, hm, -⟩ := hmet.1 rows h1 h2 h3
    exact ⟨m, hm⟩
  have key : ∃ s' ix, Moisture.moisture C.moist t dt met x s = some (.ok (s', ix)) ∧ (C.moist.processMoist = true → ix ≠ none) := by
    unfold Moisture.moisture
    by_cases hp : C.moist.processMoist = true
    · rw [if_pos hp]
      rcases hF.moist hp with h | ⟨h, hs, hm⟩
      · rw [if_pos h]
        exact ⟨_, _, rfl, fun _ => by simp⟩
      · rw [if_neg (by rw [h]; decide), if_pos h]
        obtain ⟨met, rfl⟩ := hsome hp h hm
        · unfold Moisture.surface Moisture.capillary
          simp only [hs]
          exact ⟨_, _, rfl, fun _ => by simp⟩
    · rw [if_neg hp]
      exact ⟨_, _, rfl, fun h => absurd h hp⟩
  obtain ⟨s', ix, h, hix⟩ := key
  unfold Moisture.update
  rw [h]
  by_cases hsalt : C.moist.processSalt = true
  · obtain ⟨h1, h2, h3⟩ := hF.salt hsalt
    obtain ⟨met, rfl⟩ := hsome h1 h2 h3
    match ix, hix h1 with
    | some ix, _ =>
      simp only [hsalt, if_true]
      exact ⟨_, rfl⟩
  · simp only [hsalt, if_false]
    exact ⟨_, rfl⟩

theorem moistures_total (C : Full.Config nx nf) (hF : SeriesOk C) (σ : Full.State nx nf) (t s₀ dt uw : ℝ)
    (met : Option Moisture.Meteo) (hmet : MeteoIs C s₀ met) (h : Hydro.HydroState) : ∃ m, moistures C σ t dt uw met h = some (.ok m) := by
  unfold moistures
  choose f hf using fun c : Fin (cells nx 0) =>
    moisture_total C hF t s₀ dt met hmet ⟨h.water.TWL c, σ.zb c, h.gw c, h.gwPrev c, h.wetting c, uw⟩ (σ.moist c)
  have hall : ∀ c : Fin (cells nx 0), ∃ v,
      Moisture.update C.moist t dt met ⟨h.water.TWL c, σ.zb c, h.gw c, h.gwPrev c, h.wetting c, uw⟩ (σ.moist c) = some v :=
    fun c => ⟨_, hf c⟩
  simp only [dif_pos hall]
  refine ⟨f, congrArg some (collect_ok.mpr fun c => ?_)⟩
  exact Option.some.inj ((hall c).choose_spec.symm.trans (hf c))

theorem eroded_total (C : Full.Config nx nf) (hF : SeriesOk C) (hnx : nx ≠ 0) (t dt : ℝ) (w : Hydro.Water) (zb : ℕ → ℝ) :
    ∃ z, eroded C t dt w zb = .ok z := by
  unfold eroded
  by_cases hp : C.dune.process = true
  · rw [if_pos hp]
    obtain ⟨h1, h2⟩ := hF.dune hp
    match htide : C.water.tideFile, h1, hwave : C.water.waveFile, h2 with
    | some tide, _, some wave, _ =>
      obtain ⟨a, ha⟩ := series_total tide (hF.tide _ htide).1 (hF.tide _ htide).2 t
      obtain ⟨b, hb⟩ := series_total (wave.map fun x => (x.1, x.2.2)) (by simpa using (hF.wave _ hwave).1) (by
        unfold Increasing
        rw [List.pairwise_map]
        exact (hF.wave _ hwave).2) t
      simp only [ha, hb]
      unfold Erosion.row
      rw [if_neg hnx]
      split_ifs <;> exact ⟨_, rfl⟩
  · rw [if_neg hp]
    exact ⟨_, rfl⟩

/-- **C133** A call of `update` returns, without an exception, whatever the time step, the random numbers and the state, exactly if the
water levels and the groundwater of the time step do; a call that goes back in time returns anyway. -/
theorem C133_returns (sp : LinSolve nx 0) (C : Full.Config nx nf) (hC : Usable C) (hN : NamesOk C.core) (hF : SeriesOk C) (r : ℕ → ℝ) (dt : ℝ)
    (σ : Full.State nx nf) (h0 : ∀ c f, 0 ≤ (σ.core.cap c f).Cu0) :
    (∃ τ b, Full.update sp C r dt σ = some (.ok (τ, b)) ∧ ∀ c f, 0 ≤ (τ.core.cap c f).Cu0) ↔
      dt < -1 ∨ ∃ s, Hydro.hydroStep C.water ⟨σ.zb, C.tideMask, C.waveMask, C.runupMask⟩
        { C.ground with n := nx + 1, ds := C.core.ds 0, x := C.x } σ.clock.t (if 0 < dt then dt else C.ts.dt) σ.hydro = .ok s := by
  constructor
  · rintro ⟨τ, b, h, -⟩
    obtain ⟨hb, -, hbt, -⟩ := C133_step sp C hC r dt σ τ b h
    cases b with
    | false => exact Or.inl (hb.mp rfl)
    | true =>
      obtain ⟨E, hS, hE, -⟩ := hbt rfl
      refine Or.inr ⟨τ.hydro, ?_⟩
      rw [← hS.time.2]
      exact hE.water
  intro hdt
  obtain ⟨w, hw⟩ := windNow_total C hF σ
  obtain ⟨z, hzr, hz0, hz1⟩ := hC.rough
  have hz := roughnesses_fixed C z hzr σ w.1
  by_cases hd : dt < -1
  · unfold Full.update
    simp only [hw, hz]
    rw [timestep_implicit C hC, if_pos hd]
    exact ⟨_, _, rfl, h0⟩
  · have hk := timestep_implicit C hC (tsGrids C (prepared C σ w fun _ => z) (windComponents C w)) (prepared C σ w fun _ => z).clock dt
    rw [if_neg hd] at hk
    let ρ : Full.State nx nf := { prepared C σ w (fun _ => z) with
      clock := { (prepared C σ w (fun _ => z)).clock with dt := if 0 < dt then dt else C.ts.dt } }
    obtain ⟨h, hh⟩ : ∃ h, Hydro.hydroStep C.water (row C ρ) (groundIn C) ρ.clock.t ρ.clock.dt ρ.hydro = .ok h := hdt.resolve_left hd
    obtain ⟨met, hmet⟩ := meteo_total C hF (Hydro.lastTime C.ground ρ.clock.t ρ.clock.dt)
    obtain ⟨m, hm⟩ := moistures_total C hF ρ ρ.clock.t _ ρ.clock.dt (windComponents C w).uw met (meteoAt_is hmet) h
    have hE : env C ρ (windComponents C w) (shear0 C σ w fun _ => z) ρ.shear ρ.clock.dt h m ρ.zsep =
        some (envWith C ρ (windComponents C w) (shear0 C σ w fun _ => z) ρ.shear ρ.clock.dt h m fun _ _ => ⟨0, 0, 0⟩) := by
      unfold env
      rw [if_neg (by rw [hC.speed]; exact fun h => absurd h.1 (by decide))]
    obtain ⟨τ, hτ, h0'⟩ := step_returns sp C.core hC.core hN hC.grid _
      (fun hwind => (step_env_ok C hC σ w z hz0 hz1
        (envWith C ρ (windComponents C w) (shear0 C σ w fun _ => z) ρ.shear ρ.clock.dt h m fun _ _ => ⟨0, 0, 0⟩)
        (fun _ => rfl) (fun _ => rfl) (given_pos hC dt) hwind).1) σ.core h0
    obtain ⟨zb, hzb⟩ := eroded_total C hF (by have := hC.grid.columns; omega) ρ.clock.t ρ.clock.dt h.water (col fun c => (τ.sand.bed c).zb)
    exact ⟨_, _, Full.update_intro hw hz hk (execute_intro hmet hh hm hE hτ hzb), h0'⟩

/-- **C133** Without groundwater a call of `update` always returns. -/
theorem C133_total (sp : LinSolve nx 0) (C : Full.Config nx nf) (hC : Usable C) (hN : NamesOk C.core) (hF : FilesOk C) (r : ℕ → ℝ) (dt : ℝ)
    (σ : Full.State nx nf) (h0 : ∀ c f, 0 ≤ (σ.core.cap c f).Cu0) :
    ∃ τ b, Full.update sp C r dt σ = some (.ok (τ, b)) ∧ ∀ c f, 0 ≤ (τ.core.cap c f).Cu0 :=
  (C133_returns sp C hC hN hF.toSeriesOk r dt σ h0).mpr (Or.inr (hydro_total C hF _ _ _ _))

/-- **C133** So does a run with any calls. -/
theorem C133_run_total (sp : LinSolve nx 0) (C : Full.Config nx nf) (hC : Usable C) (hN : NamesOk C.core) (hF : FilesOk C)
    (calls : List ((ℕ → ℝ) × ℝ)) (σ : Full.State nx nf) (h0 : ∀ c f, 0 ≤ (σ.core.cap c f).Cu0) :
    ∃ τ, Full.run sp C calls σ = some (.ok τ) := by
  induction calls generalizing σ with
  | nil => exact ⟨σ, rfl⟩
  | cons x xs ih =>
    obtain ⟨ρ, b, h, h1⟩ := C133_total sp C hC hN hF x.1 x.2 σ h0
    obtain ⟨τ, hτ⟩ := ih ρ h1
    refine ⟨τ, ?_⟩
    unfold Full.run
    simp only [h]
    exact hτ

end Aeolis.Props
