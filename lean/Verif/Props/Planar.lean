import Verif.Proofs.Planar
import Verif.Props.Full
import Verif.Props.PlanarGround

/-!
C140: a complete time step on a planar grid, from the input files to the bed.
-/

set_option linter.unusedSectionVars false

namespace Aeolis.Props

open Finset Aeolis.Spec Aeolis.Sand Aeolis.Solver Aeolis.Whole Aeolis.Planar
open Aeolis.Full (Now)

variable {nx ny nf : ℕ}

/-- The roughness height of the methods that do not look at the bed. -/
def PlanarRoughness (C : Planar.Config nx ny nf) (z0 : ℝ) : Prop :=
  (C.wind.methodRoughness = "constant" ∧ z0 = C.wind.k) ∨ (C.wind.methodRoughness = "constant_nikuradse" ∧ z0 = C.wind.k / 30) ∨
    (C.wind.methodRoughness = "mean_grainsize_initial" ∧ z0 = (∑ i, C.core.thr.grainSize i * C.core.thr.grainDist i) / 30)

/-- A sensible configuration of a planar grid: at least three rows, implicit scheme, grains that move with the wind, a roughness below the
height of the wind measurements, no limit on the change of the bed level per step. -/
structure PlanarUsable (C : Planar.Config nx ny nf) : Prop where
  core : ConfigOk C.core
  grid : GridOk nx ny C.core
  rows : 2 ≤ ny
  speed : C.core.tr.methodGrainspeed = "windspeed"
  kappa : 0 < C.wind.kappa
  rough : ∃ z0, PlanarRoughness C z0 ∧ 0 < z0 ∧ z0 < C.wind.z
  weights : ∀ i k, 0 ≤ C.shelter.vegWeights i k
  mask : ∀ c, 0 < (C.thresholdMask c).1 ∧ 0 ≤ (C.thresholdMask c).2
  step : C.ts.explicit = false ∧ 0 < C.ts.dt ∧ C.ts.maxChange = 999

/-- Input files: nonempty series with increasing times, a moisture method that returns, meteorological series where they are used, tide and
waves for the dune erosion; no separation bubbles if the shear is computed over the topography. -/
structure PlanarSeries (C : Planar.Config nx ny nf) : Prop where
  wind : ∀ file, C.wind.file = some file → file ≠ [] ∧ file.Pairwise fun a b => a.1 < b.1
  tide : ∀ ts, C.water.tideFile = some ts → ts ≠ [] ∧ Increasing ts
  wave : ∀ ts, C.water.waveFile = some ts → ts ≠ [] ∧ ts.Pairwise fun a b => a.1 < b.1
  moist : C.moist.processMoist = true → lower C.moist.method = "infiltration" ∨
    (lower C.moist.method = "surf_moisture" ∧ C.moist.processScanning = false ∧ C.meteoFile ≠ none)
  salt : C.moist.processSalt = true → C.moist.processMoist = true ∧ lower C.moist.method = "surf_moisture" ∧ C.meteoFile ≠ none
  meteo : ∀ rows, C.meteoFile = some rows → rows ≠ [] ∧ rows.Pairwise fun a b => a.1 < b.1
  dune : C.dune.process = true → C.water.tideFile ≠ none ∧ C.water.waveFile ≠ none
  bubbles : C.wind.processShear = true → C.wind.processSeparation = false

/-- The same without groundwater. -/
structure PlanarFiles (C : Planar.Config nx ny nf) : Prop extends PlanarSeries C where
  ground : C.ground.on = false

/-- The wind blows onshore and not towards the first row: along the columns and rows in the order of their numbers. -/
def Ahead (E : Env nx ny nf) : Prop := ∀ c, 0 ≤ (E.wind c).uws ∧ 0 ≤ (E.wind c).uwn

theorem planar_roughnesses (C : Planar.Config nx ny nf) (z : ℝ) (hz : PlanarRoughness C z) (σ : Planar.State nx ny nf) (uw : ℝ) :
    roughnesses C σ uw = some (.ok fun _ => z) := by
  have h : ∀ c, Wind.roughness C.wind.methodRoughness (rough C σ |uw| c) = .ok (some z) := by
    intro c
    unfold Wind.roughness
    rcases hz with ⟨e, hz⟩ | ⟨e, hz⟩ | ⟨e, hz⟩
    · rw [e, if_pos rfl, hz]
      rfl
    · rw [e, if_neg (by decide), if_pos rfl, hz]
      rfl
    · rw [e, if_neg (by decide), if_neg (by decide), if_pos rfl, hz]
      rfl
  have hcol : (collect fun c => Wind.roughness C.wind.methodRoughness (rough C σ |uw| c)) = .ok fun _ => some z := collect_ok.mpr h
  unfold roughnesses
  rw [hcol]
  have hall : ∀ c : Fin (cells nx ny), ∃ v, (fun _ : Fin (cells nx ny) => some z) c = some v := fun _ => ⟨z, rfl⟩
  simp only [dif_pos hall]
  congr 2
  funext c
  exact (Option.some.inj (hall c).choose_spec).symm

theorem planar_timestep (C : Planar.Config nx ny nf) (hC : PlanarUsable C) (g : TsGrids ℝ (Fin (cells nx ny))) (c : Clock ℝ) (dt : ℝ) :
    setTimestep C.ts g c dt = if dt < -1 then ({ c with dt := dt, t := c.t + |dt| }, false)
      else ({ c with dt := if 0 < dt then dt else C.ts.dt }, true) := by
  unfold setTimestep limitBedChange
  simp [hC.step.1, hC.step.2.2]

theorem planar_given_pos {C : Planar.Config nx ny nf} (hC : PlanarUsable C) (dt : ℝ) : 0 < (if 0 < dt then dt else C.ts.dt) := by
  split_ifs with h0
  · exact h0
  · exact hC.step.2.1

theorem planar_windy_iff {E : Env nx ny nf} {u : ℝ} (h : ∀ c, (E.wind c).uw = u) : Windy E ↔ u ≠ 0 := by
  unfold Windy
  simp only [h, Finset.sum_const, Finset.card_univ, Fintype.card_fin, nsmul_eq_mul]
  have : (cells nx ny : ℝ) ≠ 0 := by
    unfold cells
    positivity
  rw [mul_ne_zero_iff]
  exact and_iff_right this

theorem planar_env_ok (C : Planar.Config nx ny nf) (hC : PlanarUsable C) (σ : Planar.State nx ny nf) (w : ℝ × ℝ) (z : ℝ) (hz0 : 0 < z)
    (hz1 : z < C.wind.z) (res : Option Shear.Result) (E : Env nx ny nf)
    (hE : ∀ c, E.wind c = ⟨(windComponents C w).uw, (windComponents C w).uws, (windComponents C w).uwn,
      (shearNow C σ (windComponents C w) res (shear0 C σ w fun _ => z) c).ustar,
      (shearNow C σ (windComponents C w) res (shear0 C σ w fun _ => z) c).ustars,
      (shearNow C σ (windComponents C w) res (shear0 C σ w fun _ => z) c).ustarn, (shear0 C σ w (fun _ => z) c).ustar⟩)
    (hm : ∀ c, E.mask c = C.thresholdMask c) (hdt : 0 < E.dt) (hwind : Windy E) :
    (Ahead E → EnvOk C.core E) ∧ Steadying C.core E := by
  have hw0 : w.1 ≠ 0 := by
    intro h0
    apply hwind
    simp [hE, windComponents, h0]
  have hu0 : ∀ c : Fin (cells nx ny), 0 < (shear0 C σ w (fun _ => z) c).ustar := by
    intro c
    rw [shear0_ustar]
    have hl : 0 < Real.log (C.wind.z / z) := Real.log_pos ((one_lt_div hz0).mpr hz1)
    exact mul_pos (abs_pos.mpr hw0) (abs_pos.mpr (div_pos hC.kappa hl).ne')
  refine ⟨fun ha => ⟨hdt, fun c => ?_, fun c => ?_, fun c f s h => ?_, Or.inl ⟨fun c f s h => ?_, fun _ c c' _ _ f s s' h h' => ?_⟩,
    fun _ c f s h => ?_⟩, fun c c' _ _ f s s' h h' => ?_, fun _ c c' _ f s s' h h' => ?_⟩
  · rw [hE]
    exact ⟨shearNow_nonneg C hC.weights σ _ _ w _ c, fun _ => hu0 c⟩
  · rw [hm]
    exact hC.mask c
  · rw [windspeed_speed hC.speed h, hE]
    exact abs_nonneg _
  · rw [windspeed_speed hC.speed h]
    exact ⟨(ha c).1, fun _ => (ha c).2⟩
  · rw [windspeed_speed hC.speed h, windspeed_speed hC.speed h', hE, hE]
  · rw [windspeed_speed hC.speed h, hE]
    exact abs_pos.mpr hw0
  · rw [windspeed_speed hC.speed h, windspeed_speed hC.speed h', hE, hE]
  · rw [windspeed_speed hC.speed h, windspeed_speed hC.speed h', hE, hE]

/-- Shear over a flat bed: neither the topography nor fences nor vegetation change it. -/
def PlanarUndisturbed (C : Planar.Config nx ny nf) : Prop :=
  C.wind.processShear = false ∧ C.shelter.processFences = false ∧ C.shelter.processVegetation = false

/-- The levels change by the exchange of sand with the air only: no avalanches, no reset of the wet bed, no dune erosion. -/
def PlanarNoOtherChanges (C : Planar.Config nx ny nf) : Prop := C.ava.process = false ∧ C.wetReset = false ∧ C.dune.process = false

/-- Besides the exchange with the air only avalanches change the levels. -/
def PlanarOnlyAvalanches (C : Planar.Config nx ny nf) : Prop := C.wetReset = false ∧ C.dune.process = false

/-- The shear is not computed over the topography and there are no fences, but there may be vegetation. -/
structure PlanarSheltering (C : Planar.Config nx ny nf) : Prop where
  shear : C.wind.processShear = false
  fences : C.shelter.processFences = false
  plants : C.shelter.processVegetation = true →
    0 ≤ C.shelter.vegRoughness ∧ (∀ i k, 0 ≤ C.shelter.vegWeights i k) ∧ ∀ i, ∑ k, C.shelter.vegWeights i k = 1

/-- Plants reduce the shear velocity, but not to zero. -/
def PlanarSheltered (E : Env nx ny nf) : Prop :=
  ∀ c, (E.wind c).ustar ≤ (E.wind c).ustar0 ∧ (0 < (E.wind c).ustar0 → 0 < (E.wind c).ustar)

/-- What the chain from wind to bed gets in a call of `update` with time step `dt` at time `t`: a sensible time step with the time step that
was asked for, the wind of the file, the shear velocity of the logarithmic profile. -/
structure PlanarStep (C : Planar.Config nx ny nf) (t dt : ℝ) (E : Env nx ny nf) : Prop where
  ok : Windy E → (Ahead E → EnvOk C.core E) ∧ Steadying C.core E
  time : E.t = t ∧ E.dt = if 0 < dt then dt else C.ts.dt
  mask : ∀ c, E.mask c = C.thresholdMask c
  wind : ∀ file, C.wind.processWind = true → C.wind.file = some file → ∃ v d, Wind.windAt file t = some (v, d) ∧
    ∀ c, (E.wind c).uw = |v| ∧ (E.wind c).uws = -v * Real.sin ((d - C.wind.alfa + C.alpha) / 180 * Real.pi) ∧
      (E.wind c).uwn = -v * Real.cos ((d - C.wind.alfa + C.alpha) / 180 * Real.pi)
  components : ∀ c, (E.wind c).uws ^ 2 + (E.wind c).uwn ^ 2 = (E.wind c).uw ^ 2
  uniform : ∀ c c', (E.wind c).uw = (E.wind c').uw ∧ (E.wind c).uws = (E.wind c').uws ∧ (E.wind c).uwn = (E.wind c').uwn
  profile : ∀ z0, PlanarRoughness C z0 → ∀ c, (E.wind c).ustar0 = (E.wind c).uw * |C.wind.kappa / Real.log (C.wind.z / z0)|
  flat : PlanarUndisturbed C → ∀ c, (E.wind c).ustar = (E.wind c).ustar0 ∧ ∀ z0, PlanarRoughness C z0 →
    (E.wind c).ustars = (E.wind c).uws * (C.wind.kappa / Real.log (C.wind.z / z0)) ∧
      (E.wind c).ustarn = (E.wind c).uwn * (C.wind.kappa / Real.log (C.wind.z / z0))
  levels : PlanarNoOtherChanges C → ∀ l c, (E.levels l c).1 = (l c).1
  slides : PlanarOnlyAvalanches C → ∀ l, ∑ i ∈ range (ny + 1), ∑ j ∈ Ico 1 nx, onGrid (nx := nx) (ny := ny) (fun c => (E.levels l c).1) i j ≤
    ∑ i ∈ range (ny + 1), ∑ j ∈ Ico 1 nx, onGrid (nx := nx) (ny := ny) (fun c => (l c).1) i j

/-- Avalanching on the cells of the grid, down to the non-erodible layer of the file. -/
def planarSlopes (C : Planar.Config nx ny nf) : Ava.Params :=
  { C.ava with mx := nx, my := ny, ds := C.core.ds, dn := C.core.dn, zne := C.zne }

/-- Levels after the exchange with the air: in a step with wind first avalanches, then the reset of the wet bed. -/
noncomputable def planarSettled (C : Planar.Config nx ny nf) (E : Env nx ny nf) (l : Fin (cells nx ny) → ℝ × ℝ × ℝ) (c : Fin (cells nx ny)) :
    ℝ :=
  open Classical in
  if Windy E then Bed.wetBedReset C.wetReset E.dt C.Tbedreset (l c).2.1 (C.zb0 c)
    (Ava.avalanche (planarSlopes C) (Planar.grid fun c => (l c).1) (rowOf c) (colOf c))
  else (l c).1

/-- Meteorological conditions used at time `t`: the file interpolated in time, column by column, for the soil moisture method that needs
them; nothing otherwise. -/
def PlanarMeteo (C : Planar.Config nx ny nf) (t : ℝ) (met : Option Moisture.Meteo) : Prop :=
  (∀ rows, C.moist.processMoist = true → lower C.moist.method = "surf_moisture" → C.meteoFile = some rows →
    ∃ m : Moisture.Meteo, met = some m ∧ interpCircular (rows.map fun x => (x.1, x.2 0)) t = some m.T ∧
      interpCircular (rows.map fun x => (x.1, x.2 1)) t = some m.Q ∧ interpCircular (rows.map fun x => (x.1, x.2 2)) t = some m.RH ∧
      interpCircular (rows.map fun x => (x.1, x.2 3)) t = some m.P ∧ interpCircular (rows.map fun x => (x.1, x.2 4)) t = some m.U) ∧
  (¬ (C.moist.processMoist = true ∧ lower C.moist.method = "surf_moisture" ∧ C.meteoFile ≠ none) → met = none)

/-- Shear over a flat bed without fences and vegetation, from the components of the wind and the logarithmic profile. -/
noncomputable def planarFlat (C : Planar.Config nx ny nf) (w : Transport.Wind) (z0 : ℝ) : Wind.Shear :=
  let k := C.wind.kappa / Real.log (C.wind.z / z0)
  { ustar := w.uw * |k|, ustars := w.uws * k, ustarn := w.uwn * k, tau := |C.wind.rhoa| * (w.uw * |k|) ^ 2
    taus := C.wind.rhoa * (w.uw * |k|) * (w.uws * k), taun := C.wind.rhoa * (w.uw * |k|) * (w.uwn * k) }

/-- How the shear of a call comes about: the shear over a flat bed (`u0`) is replaced by that over the topography and separation bubbles
(`u1`), with wind only, for the wind and the stress over a flat bed in the first cell; then the fences with their new heights change it (`u2`),
then the vegetation before the call (`u3`).  The chain gets the result; it is stored in the orientation of the grid as given, with the separation
bubbles, wind speed and direction. -/
structure PlanarShear (C : Planar.Config nx ny nf) (σ τ : Planar.State nx ny nf) (E : Env nx ny nf) (res : Option Shear.Result)
    (u0 u1 u2 u3 : Fin (cells nx ny) → Wind.Shear) : Prop where
  flat : ∀ z0, PlanarRoughness C z0 → ∀ c, u0 c = planarFlat C (E.wind c) z0
  called : Windy E → C.wind.processShear = true → ∃ r, res = some r ∧
    Shear.call C.shearModule (ny + 1) (nx + 1) C.g σ.zb (E.wind origin).uw (τ.udir + C.alpha)
      (if C.wind.processSeparation = true then some ⟨C.wind.cb, C.wind.mu, C.sepIterations, C.sepWeights⟩ else none)
      ((u0 origin).taus, (u0 origin).taun) = .ok r ∧
    (∀ c, u1 c = Wind.stressVelocity C.wind.rhoa { u0 c with
      taus := r.taux (rowOf c) (colOf c), taun := r.tauy (rowOf c) (colOf c)
      tau := Real.sqrt (r.taux (rowOf c) (colOf c) ^ 2 + r.tauy (rowOf c) (colOf c) ^ 2) }) ∧
    (∀ h, r.hsep = some h → ∀ c, τ.hsep c = h (rowOf c) (colOf c) ∧ τ.zsep c = h (rowOf c) (colOf c) + (σ.core.sand.bed c).zb)
  skipped : ¬ (Windy E ∧ C.wind.processShear = true) → res = none ∧ u1 = u0 ∧ τ.hsep = σ.hsep ∧ τ.zsep = σ.zsep
  fences : ∀ c, u2 c = if C.shelter.processFences = true then
      let F : Lee.FenceIn := { R := ny + 1, C := nx + 1, g := C.g, height := Planar.grid fun c => (τ.fence c).height
                               ustars := Planar.grid fun c => (u1 c).ustars, ustarn := Planar.grid fun c => (u1 c).ustarn
                               dx := C.shelter.dx, udir := τ.udir + C.alpha, c1 := C.shelter.fenceC1, intercept := C.shelter.fenceIntercept }
      Wind.velocityStress C.wind.rhoa { u1 c with
        ustar := F.out (rowOf c) (colOf c), ustars := F.outS (rowOf c) (colOf c), ustarn := F.outN (rowOf c) (colOf c) }
    else u1 c
  plants : ∀ c, u3 c = if C.shelter.processVegetation = true then Wind.velocityStress C.wind.rhoa
      (Lee.raupach C.shelter.vegRoughness C.shelter.vegWeights (fun c => (σ.veg (rowOf c) (colOf c)).rho) u2 c)
    else u2 c
  used : ∀ c, (E.wind c).ustar = (u3 c).ustar ∧ (E.wind c).ustars = (u3 c).ustars ∧ (E.wind c).ustarn = (u3 c).ustarn
  stored : ∀ c, (τ.shear c).ustar = (u3 c).ustar ∧ (τ.shear c).tau = (u3 c).tau ∧
    ((τ.shear c).ustars, (τ.shear c).ustarn) = rotatePt (-C.alpha) (0, 0) ((u3 c).ustars, (u3 c).ustarn) ∧
    ((τ.shear c).taus, (τ.shear c).taun) = rotatePt (-C.alpha) (0, 0) ((u3 c).taus, (u3 c).taun)
  speed : ∀ c, τ.uw = (E.wind c).uw
  direction : ∀ file, C.wind.processWind = true → C.wind.file = some file → ∃ v, Wind.windAt file σ.clock.t = some (v, τ.udir) ∧ τ.uw = |v|
  previous : τ.clock.dtPrev = σ.clock.dt ∧ τ.clock.dt = E.dt

/-- What water levels, moisture and vegetation of a call with random numbers `r` are computed from: in every row the water at the time of the
call, the bed before the call, and the groundwater; the moisture from these levels and the weather at the time of the call, or of the last
groundwater step; the chain gets the new water levels
and waves, moisture and salt; the vegetation grows on the new bed and with its change.  After the exchange with the air avalanches, the reset of
the wet bed and then the dune erosion in every row, again with avalanches, change the levels.  The change reported, and averaged, is that
before the dune erosion. -/
structure PlanarForcing (C : Planar.Config nx ny nf) (r : ℕ → ℕ → ℝ) (σ τ : Planar.State nx ny nf) (E : Env nx ny nf) : Prop where
  water : Hydro.gridStep C.water (fun i => ⟨σ.zb i, C.tideMask i, C.waveMask i, C.runupMask.map fun m => m i⟩)
    { C.ground with n := nx + 1 } (fun i => ⟨C.core.ds i, C.gwMask i, fun j => (C.g i j).1⟩) σ.clock.t E.dt σ.hydro = .ok τ.hydro
  moisture : ∃ s met, (C.ground.on = false → s = σ.clock.t) ∧
    (∀ (d : ℤ) (m : ℕ), C.ground.on = true → Ground.substeps E.dt C.ground.tfac = .ok (d, m + 1) → s = σ.clock.t + m * d) ∧
    PlanarMeteo C s met ∧
    ∀ c, Moisture.update C.moist σ.clock.t E.dt met ⟨(τ.water (rowIx c)).TWL (colOf c), (σ.core.sand.bed c).zb,
      (τ.hydro (rowIx c)).gw (colOf c), (τ.hydro (rowIx c)).gwPrev (colOf c), (τ.hydro (rowIx c)).wetting (colOf c), (E.wind c).uw⟩
      (σ.moist c) = some (.ok (τ.moist c))
  levels : ∀ c, E.zs c = (τ.water (rowIx c)).zs (colOf c) ∧ E.hsmix c = (τ.water (rowIx c)).Hsmix (colOf c)
  wet : ∀ c, E.moist c = (τ.moist c).moist ∧ E.salt c = (τ.moist c).salt
  hard : ∀ c, E.zne c = C.zne (rowOf c) (colOf c)
  veg : τ.veg = if C.shelter.processVegetation then
      Veg.vegStep { C.shelter.veg with dtOpt := E.dt } ny nx C.shelter.dx C.core.ds C.core.dn
        (fun i j => ⟨τ.zb i j, Planar.grid (fun c => (τ.core.sand.bed c).zs) i j, Planar.grid τ.dzbveg i j⟩) r σ.veg
    else σ.veg
  fence : ∀ c, τ.fence c = if C.shelter.processFences then Lee.fenceUpdate (σ.core.sand.bed c).zb (σ.fence c) else σ.fence c
  settled : C.dune.process = false → ∀ l c, (E.levels l c).1 = planarSettled C E l c
  dunes : C.dune.process = true → ∃ tide wave wl Tp, C.water.tideFile = some tide ∧ C.water.waveFile = some wave ∧
    interpCircular tide σ.clock.t = some wl ∧ interpCircular (wave.map fun x => (x.1, x.2.2)) σ.clock.t = some Tp ∧
    let ero := fun l (i : Fin (ny + 1)) => Erosion.row nx C.dune.par
      ⟨(τ.water i).R 0, wl, C.dune.collisions ((τ.water i).eta 0) wl ((τ.water i).sigma 0) E.dt Tp⟩ (fun j => (C.g i j).1)
      (Planar.grid (planarSettled C E l) i)
    (∀ l (zb : ℕ → ℕ → ℝ), (∀ i : Fin (ny + 1), ero l i = .ok (zb i)) → ∃ zb' : ℕ → ℕ → ℝ, (∀ i ≤ ny, zb' i = zb i) ∧
      ∀ c, (E.levels l c).1 = Ava.avalanche (planarSlopes C) zb' (rowOf c) (colOf c)) ∧
      ∃ l, ∃ zb : ℕ → ℕ → ℝ, (∀ i : Fin (ny + 1), ero l i = .ok (zb i)) ∧
        ∀ c, (τ.core.sand.bed c).zb = Ava.avalanche (planarSlopes C) zb (rowOf c) (colOf c)
  reported : ∀ l c, (E.levels l c).2 =
    ((l c).2.1, open Classical in if Windy E then planarSettled C E l c - (σ.core.sand.bed c).zb else (l c).2.2)
  average : ∀ c, Windy E → τ.dzbveg c = (τ.core.sand.bed c).dzb * 31557600 / (E.dt * C.accfac) ∧
    τ.dzbavg c = E.dt * C.accfac / C.avgTime * τ.dzbveg c + (1 - E.dt * C.accfac / C.avgTime) * σ.dzbavg c
  still : ¬ Windy E → τ.dzbveg = σ.dzbveg ∧ τ.dzbavg = σ.dzbavg
  shear : ∃ res u0 u1 u2 u3, PlanarShear C σ τ E res u0 u1 u2 u3

theorem planar_meteoAt {C : Planar.Config nx ny nf} {t : ℝ} {met : Option Moisture.Meteo} (h : meteoAt C t = .ok met) : PlanarMeteo C t met := by
  unfold meteoAt at h
  match hf : C.meteoFile with
  | none =>
    simp only [hf] at h
    exact ⟨fun rows _ _ h' => absurd (hf.symm.trans h') (by simp), fun _ => (Except.ok.inj h).symm⟩
  | some rows =>
    simp only [hf] at h
    split_ifs at h with hp
    · refine ⟨fun rows' _ _ h' => ?_, fun hn => absurd ⟨hp.1, hp.2, by simp [hf]⟩ hn⟩
      obtain rfl : rows = rows' := Option.some.inj (hf.symm.trans h')
      match hc : collect fun i : Fin 5 => Hydro.series (rows.map fun x => (x.1, x.2 i)) t with
      | .error e => simp [hc] at h
      | .ok m =>
        simp only [hc] at h
        have hi : ∀ i : Fin 5, interpCircular (rows.map fun x => (x.1, x.2 i)) t = some (m i) := by
          intro i
          have := collect_ok.mp hc i
          unfold Hydro.series at this
          match hs : interpCircular (rows.map fun x => (x.1, x.2 i)) t with
          | none => simp [hs] at this
          | some v =>
            simp only [hs] at this
            exact hs.trans (congrArg some (Except.ok.inj this))
        exact ⟨_, (Except.ok.inj h).symm, hi 0, hi 1, hi 2, hi 3, hi 4⟩
    · exact ⟨fun rows' h1 h2 _ => absurd ⟨h1, h2⟩ hp, fun _ => (Except.ok.inj h).symm⟩

theorem planar_moistures_cell {C : Planar.Config nx ny nf} {σ : Planar.State nx ny nf} {t dt uw : ℝ} {met : Option Moisture.Meteo}
    {h : Fin (ny + 1) → Hydro.HydroState} {m : Fin (cells nx ny) → Moisture.Cell} (hm : moistures C σ t dt uw met h = some (.ok m))
    (c : Fin (cells nx ny)) : Moisture.update C.moist t dt met ⟨(h (rowIx c)).water.TWL (colOf c), (σ.core.sand.bed c).zb,
      (h (rowIx c)).gw (colOf c), (h (rowIx c)).gwPrev (colOf c), (h (rowIx c)).wetting (colOf c), uw⟩ (σ.moist c) = some (.ok (m c)) := by
  unfold moistures at hm
  simp only at hm
  split_ifs at hm with hall
  have hc := collect_ok.mp (Option.some.inj hm) c
  have he := (hall c).choose_spec
  rw [hc] at he
  exact he

theorem update_salt {M : Moisture.Config} {t dt : ℝ} {met : Option Moisture.Meteo} {x : Moisture.Input} {s s' : Moisture.Cell}
    (h1 : s.salt ≤ 1) (he : Moisture.update M t dt met x s = some (.ok s')) : s'.salt ≤ 1 := by
  unfold Moisture.update at he
  match hk : Moisture.moisture M t dt met x s with
  | none => simp [hk] at he
  | some (.error e) => simp [hk] at he
  | some (.ok (s', ix)) =>
    simp only [hk] at he
    split_ifs at he
    · match hmet : met, ix with
      | none, _ => simp at he
      | some _, none => simp at he
      | some met, some fl =>
        simp only at he
        rw [← Except.ok.inj (Option.some.inj he)]
        exact min_le_left _ _
    · rw [← Except.ok.inj (Option.some.inj he), Full.moisture_salt hk]
      exact h1

theorem planar_levels (C : Planar.Config nx ny nf) {E : Env nx ny nf} {u dt : ℝ} (h : ∀ c, (E.wind c).uw = u) (hdt : E.dt = dt)
    (lzb : Fin (cells nx ny) → ℝ) (l : Fin (cells nx ny) → ℝ × ℝ × ℝ) (c : Fin (cells nx ny)) : levels C dt (decide (u ≠ 0)) lzb l c =
      (planarSettled C E l c, (l c).2.1, open Classical in if Windy E then planarSettled C E l c - lzb c else (l c).2.2) := by
  unfold planarSettled levels
  rw [hdt]
  by_cases hu : u ≠ 0
  · rw [if_pos (by simpa using hu), if_pos ((planar_windy_iff h).mpr hu), if_pos ((planar_windy_iff h).mpr hu)]
    rfl
  · rw [if_neg (by simpa using hu), if_neg (fun hw => hu ((planar_windy_iff h).mp hw)), if_neg (fun hw => hu ((planar_windy_iff h).mp hw))]

/-- Dune erosion that returns. -/
theorem planar_eroded_ok {C : Planar.Config nx ny nf} (hd : C.dune.process = true) {t dt : ℝ} {w : Fin (ny + 1) → Hydro.Water}
    {zb z : ℕ → ℕ → ℝ} (h : eroded C t dt w zb = .ok z) : ∃ tide wave wl Tp, C.water.tideFile = some tide ∧ C.water.waveFile = some wave ∧
      interpCircular tide t = some wl ∧ interpCircular (wave.map fun x => (x.1, x.2.2)) t = some Tp ∧
      let ero := fun (zb : ℕ → ℕ → ℝ) (i : Fin (ny + 1)) => Erosion.row nx C.dune.par
        ⟨(w i).R 0, wl, C.dune.collisions ((w i).eta 0) wl ((w i).sigma 0) dt Tp⟩ (fun j => (C.g i j).1) (zb i)
      (∀ zb zb' : ℕ → ℕ → ℝ, (∀ i : Fin (ny + 1), ero zb i = .ok (zb' i)) → ∃ zb'' : ℕ → ℕ → ℝ, (∀ i ≤ ny, zb'' i = zb' i) ∧
        eroded C t dt w zb = .ok (slid C zb'')) ∧
      ∃ zb' : ℕ → ℕ → ℝ, (∀ i : Fin (ny + 1), ero zb i = .ok (zb' i)) ∧ z = slid C zb' := by
  match ht : C.water.tideFile, hwv : C.water.waveFile with
  | none, _ => simp [eroded, hd, ht] at h
  | some tide, none => simp [eroded, hd, ht, hwv] at h
  | some tide, some wave =>
    match hwl : interpCircular tide t, hTp : interpCircular (wave.map fun x => (x.1, x.2.2)) t with
    | none, some Tp => simp [eroded, hd, ht, hwv, Hydro.series, hwl, hTp] at h
    | none, none => simp [eroded, hd, ht, hwv, Hydro.series, hwl, hTp] at h
    | some wl, none => simp [eroded, hd, ht, hwv, Hydro.series, hwl, hTp] at h
    | some wl, some Tp =>
      refine ⟨tide, wave, wl, Tp, rfl, rfl, hwl, hTp, fun zb zb' hz => ?_, ?_⟩
      · refine ⟨fun i j => if h : i < ny + 1 then zb' i j else zb i j, fun i hi => ?_, ?_⟩
        · funext j
          exact dif_pos (by omega)
        · unfold eroded
          simp only [hd, ht, hwv, Hydro.series, hwl, hTp, if_true]
          rw [collect_ok.mpr hz]
      · unfold eroded at h
        simp only [hd, ht, hwv, Hydro.series, hwl, hTp, if_true] at h
        match hr : collect fun i : Fin (ny + 1) => Erosion.row nx C.dune.par
            ⟨(w i).R 0, wl, C.dune.collisions ((w i).eta 0) wl ((w i).sigma 0) dt Tp⟩ (fun j => (C.g i j).1) (zb i) with
        | .error e => simp [hr] at h
        | .ok zb' =>
          simp only [hr] at h
          refine ⟨fun i j => if h : i < ny + 1 then zb' ⟨i, h⟩ j else zb i j, fun i => ?_, (Except.ok.inj h).symm⟩
          refine (collect_ok.mp hr i).trans (congrArg _ ?_)
          funext j
          show _ = dite _ _ _
          rw [dif_pos i.2]

theorem planar_rho (C : Planar.Config nx ny nf) (r : ℕ → ℕ → ℝ) (σ : Planar.State nx ny nf) (h : Fin (ny + 1) → Hydro.HydroState)
    (m : Fin (cells nx ny) → Moisture.Cell) (τ : Whole.State nx ny nf) (hσ : ∀ i j, 0 ≤ (σ.veg i j).rho) (i j : ℕ) :
    0 ≤ ((finished C r σ h m τ).veg i j).rho := by
  unfold finished Veg.vegStep
  dsimp only
  generalize (if σ.uw ≠ 0 then _ else σ.dzbveg) = d
  split_ifs
  · exact grow_rho _ _ _
  · exact hσ i j

/-- The levels after a step come from the later changes of the levels. -/
theorem planar_step_levels {sp : LinSolve nx ny} {C : Whole.Config nf} {E : Env nx ny nf} {σ ρ : Whole.State nx ny nf}
    (h : Whole.step sp C E σ = some (.ok ρ)) :
    ∃ l, ∀ c, ((ρ.sand.bed c).zb, (ρ.sand.bed c).zs, (ρ.sand.bed c).dzb) = E.levels l c := by
  unfold Whole.step at h
  simp only at h
  split_ifs at h
  · match h1 : transport sp C E (waves C E σ) with
    | none => simp [h1] at h
    | some (.error e) => simp [h1] at h
    | some (.ok τ) =>
      simp only [h1] at h
      rw [← Except.ok.inj (Option.some.inj h)]
      exact ⟨_, fun c => rfl⟩
  · rw [← Except.ok.inj (Option.some.inj h)]
    exact ⟨_, fun c => rfl⟩

theorem planar_slid_sum (C : Planar.Config nx ny nf) (hn : 2 ≤ nx) (zb : ℕ → ℕ → ℝ) :
    ∑ i ∈ range (ny + 1), ∑ j ∈ Ico 1 nx, slid C zb i j ≤ ∑ i ∈ range (ny + 1), ∑ j ∈ Ico 1 nx, zb i j := by
  have h := C42_never_gains (avaIn C) zb
  rw [show (avaIn C).my = ny from rfl, show (avaIn C).mx = nx from rfl] at h
  have hb : ∀ i ≤ ny, ∀ j, j = 0 ∨ j = nx → Ava.avalanche (avaIn C) zb i j = zb i j := fun i hi j hj =>
    C41_border_fixed (avaIn C) _ i j hi (by show j ≤ nx; rcases hj with rfl | rfl <;> omega) (by
      unfold OnBorder
      rcases hj with h | h
      · exact Or.inl h
      · exact Or.inr (Or.inl h))
  have hs : ∀ f : ℕ → ℝ, ∑ j ∈ range (nx + 1), f j = f 0 + ∑ j ∈ Ico 1 nx, f j + f nx := by
    intro f
    rw [sum_range_succ, range_eq_Ico, sum_eq_sum_Ico_succ_bot (by omega)]
  simp only [hs, sum_add_distrib] at h
  have e0 : ∑ i ∈ range (ny + 1), Ava.avalanche (avaIn C) zb i 0 = ∑ i ∈ range (ny + 1), zb i 0 :=
    sum_congr rfl fun i hi => hb i (by have := mem_range.mp hi; omega) 0 (Or.inl rfl)
  have e1 : ∑ i ∈ range (ny + 1), Ava.avalanche (avaIn C) zb i nx = ∑ i ∈ range (ny + 1), zb i nx :=
    sum_congr rfl fun i hi => hb i (by have := mem_range.mp hi; omega) nx (Or.inr rfl)
  rw [e0, e1] at h
  unfold slid
  linarith

/-- What a step depends on, for a state `P` prepared from `σ`. -/
theorem planarForcing_intro {sp : LinSolve nx ny} (C : Planar.Config nx ny nf) (r : ℕ → ℕ → ℝ) (σ P : Planar.State nx ny nf) (now : Now)
    (u0 u : Fin (cells nx ny) → Wind.Shear)
    (hy : Fin (ny + 1) → Hydro.HydroState) (wa : Fin (ny + 1) → Hydro.Water) (hwa : wa = fun i => (hy i).water)
    (m : Fin (cells nx ny) → Moisture.Cell) (d : Fin (cells nx ny) → Fin nf → Transport.Speed)
    (ρ : Whole.State nx ny nf) (met : Option Moisture.Meteo) (hmet : meteoAt C (Hydro.lastTime C.ground P.clock.t P.clock.dt) = .ok met)
    (zb : ℕ → ℕ → ℝ) (ht : P.clock.t = σ.clock.t) (hcore : P.core = σ.core) (huw : P.uw = now.uw) (ha : P.dzbavg = σ.dzbavg)
    (hv : P.dzbveg = σ.dzbveg) (hveg : P.veg = σ.veg) (hmo : P.moist = σ.moist) (hhy : P.hydro = σ.hydro) (hf : P.fence = fences C σ)
    (hh : waters C P P.clock.t P.clock.dt = .ok hy)
    (hm : moistures C P P.clock.t P.clock.dt now.uw met hy = some (.ok m))
    (hstep : Whole.step sp C.core (envWith C P now u0 u P.clock.dt wa m d) P.core = some (.ok ρ))
    (her : eroded C P.clock.t P.clock.dt wa (Planar.grid fun c => (ρ.sand.bed c).zb) = .ok zb)
    (hsh : ∃ res u0' u1 u2 u3, PlanarShear C σ (finished C r P hy m (withLevels ρ zb))
      (withErosion C P.clock.dt wa (envWith C P now u0 u P.clock.dt wa m d)) res u0' u1 u2 u3) :
    PlanarForcing C r σ (finished C r P hy m (withLevels ρ zb))
      (withErosion C P.clock.dt wa (envWith C P now u0 u P.clock.dt wa m d)) := by
  have hzb : P.zb = σ.zb := by
    unfold Planar.State.zb
    rw [hcore]
  have hu : ∀ c, ((withErosion C P.clock.dt wa (envWith C P now u0 u P.clock.dt wa m d)).wind c).uw = now.uw := fun c => rfl
  have hlv := planar_levels C (dt := P.clock.dt) hu rfl fun c => (σ.core.sand.bed c).zb
  have hE : ∀ l c, ((withErosion C P.clock.dt wa (envWith C P now u0 u P.clock.dt wa m d)).levels l c).1 =
      match eroded C P.clock.t P.clock.dt wa (Planar.grid (planarSettled C (withErosion C P.clock.dt wa
        (envWith C P now u0 u P.clock.dt wa m d)) l)) with
        | .ok zb => zb (rowOf c) (colOf c)
        | .error _ => planarSettled C (withErosion C P.clock.dt wa (envWith C P now u0 u P.clock.dt wa m d)) l c := by
    intro l c
    show (match eroded C P.clock.t P.clock.dt wa (Planar.grid fun c => (levels C P.clock.dt (decide (now.uw ≠ 0))
          (fun c => (P.core.sand.bed c).zb) l c).1) with
        | .ok zb => zb (rowOf c) (colOf c)
        | .error _ => (levels C P.clock.dt (decide (now.uw ≠ 0)) (fun c => (P.core.sand.bed c).zb) l c).1) = _
    rw [hcore]
    simp only [hlv]
  have hE2 : ∀ l c, ((withErosion C P.clock.dt wa (envWith C P now u0 u P.clock.dt wa m d)).levels l c).2 =
      (levels C P.clock.dt (decide (now.uw ≠ 0)) (fun c => (P.core.sand.bed c).zb) l c).2 := fun l c => rfl
  have hst : ∃ l, (Planar.grid fun c => (ρ.sand.bed c).zb) =
      Planar.grid (planarSettled C (withErosion C P.clock.dt wa (envWith C P now u0 u P.clock.dt wa m d)) l) := by
    obtain ⟨l, hl⟩ := planar_step_levels hstep
    refine ⟨l, ?_⟩
    congr 1
    funext c
    have := (congrArg Prod.fst (hl c))
    rw [show (envWith C P now u0 u P.clock.dt wa m d).levels l c =
      levels C P.clock.dt (decide (now.uw ≠ 0)) (fun c => (P.core.sand.bed c).zb) l c from rfl, hcore, hlv] at this
    exact this
  have hdt : (withErosion C P.clock.dt wa (envWith C P now u0 u P.clock.dt wa m d)).dt = P.clock.dt := rfl
  have hz : ∀ c : Fin (cells nx ny), (withErosion C P.clock.dt wa (envWith C P now u0 u P.clock.dt wa m d)).zs c =
      (wa (rowIx c)).zs (colOf c) ∧ (withErosion C P.clock.dt wa (envWith C P now u0 u P.clock.dt wa m d)).hsmix c =
      (wa (rowIx c)).Hsmix (colOf c) := fun c => ⟨rfl, rfl⟩
  have hw : ∀ c, (withErosion C P.clock.dt wa (envWith C P now u0 u P.clock.dt wa m d)).moist c = (m c).moist ∧
      (withErosion C P.clock.dt wa (envWith C P now u0 u P.clock.dt wa m d)).salt c = (m c).salt := fun c => ⟨rfl, rfl⟩
  have hne : ∀ c : Fin (cells nx ny), (withErosion C P.clock.dt wa (envWith C P now u0 u P.clock.dt wa m d)).zne c =
      C.zne (rowOf c) (colOf c) := fun c => rfl
  generalize withErosion C P.clock.dt wa (envWith C P now u0 u P.clock.dt wa m d) = E at *
  have hmc := planar_moistures_cell hm
  subst hwa
  have hwc := hh
  unfold waters row at hwc
  simp only [hzb, ht, hhy] at hwc
  rw [ht] at hE her hmet
  simp only [ht, hcore, hmo] at hmc
  refine ⟨by rw [hdt]; exact hwc, ⟨_, met, (lastTime_is C.ground _ _).1, (by rw [hdt]; exact (lastTime_is C.ground _ _).2), planar_meteoAt hmet,
    fun c => ?_⟩, hz, hw, hne, ?_, fun c => ?_, fun hd l c => ?_, fun hd => ?_, fun l c => ?_,
    fun c hwi => ?_, fun hwi => ?_, hsh⟩
  · rw [hdt, hu]
    exact hmc c
  · unfold finished
    rw [hveg, hdt]
    rfl
  · show P.fence c = _
    rw [hf]
    rfl
  · have he : ∀ zb, eroded C σ.clock.t P.clock.dt (fun i => (hy i).water) zb = .ok zb := by
      intro zb
      unfold eroded
      rw [hd]
      rfl
    rw [hE, he]
    exact grid_apply _ c
  · obtain ⟨tide, wave, wl, Tp, h1, h2, h3, h4, he, zb', hr, hz'⟩ := planar_eroded_ok hd her
    refine ⟨tide, wave, wl, Tp, h1, h2, h3, h4, fun l zb'' hz'' => ?_, ?_⟩
    · have hz'' : ∀ i : Fin (ny + 1), Erosion.row nx C.dune.par
          ⟨(hy i).water.R 0, wl, C.dune.collisions ((hy i).water.eta 0) wl ((hy i).water.sigma 0) E.dt Tp⟩ (fun j => (C.g i j).1)
          (Planar.grid (planarSettled C E l) i) = .ok (zb'' i) := hz''
      simp only [hdt] at hz''
      obtain ⟨z, hz1, hz2⟩ := he (Planar.grid (planarSettled C E l)) zb'' hz''
      refine ⟨z, hz1, fun c => ?_⟩
      rw [hE, hz2]
      rfl
    · obtain ⟨l, hl⟩ := hst
      refine ⟨l, zb', fun i => ?_, fun c => ?_⟩
      · show Erosion.row nx C.dune.par ⟨(hy i).water.R 0, wl, C.dune.collisions ((hy i).water.eta 0) wl ((hy i).water.sigma 0) E.dt Tp⟩ (fun j => (C.g i j).1)
          (Planar.grid (planarSettled C E l) i) = .ok (zb' i)
        rw [hdt, ← hl]
        exact hr i
      · show zb (rowOf c) (colOf c) = _
        rw [hz']
        rfl
  · rw [hE2, hcore, hlv]
  · have hne := (planar_windy_iff hu).mp hwi
    unfold finished
    simp only [huw, if_pos hne, ha, hcore, hdt, Bed.averageChange, add_sub_cancel_left, and_self]
  · have hne : ¬ now.uw ≠ 0 := fun h => hwi ((planar_windy_iff hu).mpr h)
    unfold finished
    simp only [huw, if_neg hne, ha, hv, and_self]

/-- The shear over a flat bed. -/
theorem planar_shear0 (C : Planar.Config nx ny nf) (σ : Planar.State nx ny nf) (w : ℝ × ℝ) (z : ℝ) (c : Fin (cells nx ny)) (v : Transport.Wind)
    (h1 : v.uw = (windComponents C w).uw) (h2 : v.uws = (windComponents C w).uws) (h3 : v.uwn = (windComponents C w).uwn) :
    shear0 C σ w (fun _ => z) c = planarFlat C v z := by
  have d0 := shear0_ustar C σ w (fun _ => z) c
  unfold planarFlat
  rw [h1, h2, h3]
  unfold shear0 Wind.interpolateCell at d0 ⊢
  dsimp only at d0 ⊢
  rw [velocityStress_of _ _ rfl] at d0 ⊢
  unfold Full.turn at d0 ⊢
  dsimp only at d0 ⊢
  unfold windComponents
  dsimp only
  rw [← d0]
  unfold rotatePt
  dsimp only
  congr 1 <;> ring

theorem planarShear_intro (C : Planar.Config nx ny nf) (r : ℕ → ℕ → ℝ) (σ : Planar.State nx ny nf) (w : ℝ × ℝ) (z : ℝ)
    (hz : PlanarRoughness C z) (hw : windNow C σ = .ok w) (res : Option Shear.Result)
    (hres : stresses C σ (windComponents C w) (shear0 C σ w fun _ => z) = .ok res) (dt : ℝ) (hy : Fin (ny + 1) → Hydro.HydroState) (wa : Fin (ny + 1) → Hydro.Water)
    (m : Fin (cells nx ny) → Moisture.Cell)
    (d : Fin (cells nx ny) → Fin nf → Transport.Speed) (ρ : Whole.State nx ny nf) (zb : ℕ → ℕ → ℝ) (Q P : Planar.State nx ny nf)
    (hQ : Q = prepared C σ (windComponents C w) res (shearNow C σ (windComponents C w) res (shear0 C σ w fun _ => z)))
    (hP : P = { Q with clock := { Q.clock with dt := dt } }) :
    ∃ res u0 u1 u2 u3, PlanarShear C σ (finished C r P hy m (withLevels ρ zb))
      (withErosion C P.clock.dt wa (envWith C P (windComponents C w) (shear0 C σ w fun _ => z) P.shear P.clock.dt wa m d)) res u0 u1 u2 u3 := by
  have hu : ∀ c, ((withErosion C P.clock.dt wa (envWith C P (windComponents C w) (shear0 C σ w fun _ => z) P.shear P.clock.dt wa m
      d)).wind c).uw = (windComponents C w).uw := fun c => rfl
  have hwi := planar_windy_iff hu
  have hdir : (finished C r P hy m (withLevels ρ zb)).udir + C.alpha = (windComponents C w).udir := by
    subst hP hQ
    show (windComponents C w).udir - C.alpha + C.alpha = _
    ring
  refine ⟨res, shear0 C σ w fun _ => z, shear1 C res (shear0 C σ w fun _ => z),
    shear2 C σ (windComponents C w) (shear1 C res (shear0 C σ w fun _ => z)), P.shear, ?_⟩
  refine ⟨fun z' hz' c => ?_, fun hw1 hp => ?_, fun hn => ?_, fun c => ?_, fun c => ?_, fun c => ⟨rfl, rfl, rfl⟩, fun c => ⟨rfl, rfl, rfl, rfl⟩,
    fun c => ?_, fun file hp hf => ?_, ?_⟩
  · have : z' = z := by
      have := (planar_roughnesses C z' hz' σ w.1).symm.trans (planar_roughnesses C z hz σ w.1)
      exact congrFun (Except.ok.inj (Option.some.inj this)) c
    subst this
    exact planar_shear0 C σ w z' c _ rfl rfl rfl
  · obtain ⟨q, rfl, hcall⟩ := stresses_called hres (hwi.mp hw1) hp
    refine ⟨q, rfl, ?_, fun c => rfl, fun h hh c => ?_⟩
    · rw [hdir, hu]
      exact hcall
    · subst hP hQ
      unfold finished prepared
      simp only [hh, and_self]
  · unfold stresses at hres
    rw [if_neg fun hh => hn ⟨hwi.mpr hh.1, hh.2⟩] at hres
    obtain rfl := Except.ok.inj hres
    subst hP hQ
    exact ⟨rfl, rfl, rfl, rfl⟩
  · have hfen : P.fence = fences C σ := by
      subst hP hQ
      rfl
    rw [hdir, show (finished C r P hy m (withLevels ρ zb)).fence = P.fence from rfl, hfen]
    rfl
  · have hs : P.shear c = shear3 C σ (shear2 C σ (windComponents C w) (shear1 C res (shear0 C σ w fun _ => z))) c := by
      subst hP hQ
      rfl
    rw [hs]
    rfl
  · subst hP hQ
    rfl
  · unfold windNow at hw
    simp only [hp, hf] at hw
    match hwa : Wind.windAt file σ.clock.t with
    | none => simp [hwa] at hw
    | some v =>
      simp only [hwa] at hw
      obtain rfl := Except.ok.inj hw
      have : (finished C r P hy m (withLevels ρ zb)).udir = v.2 := by
        have h2 : (windComponents C v).udir = v.2 + C.alpha := rfl
        linarith
      rw [this]
      refine ⟨v.1, rfl, ?_⟩
      subst hP hQ
      rfl
  · subst hP hQ
    exact ⟨rfl, rfl⟩

theorem planar_step_of (C : Planar.Config nx ny nf) (hC : PlanarUsable C) (dt : ℝ) (σ P : Planar.State nx ny nf) (w : ℝ × ℝ) (z : ℝ)
    (hzr : PlanarRoughness C z) (hz0 : 0 < z) (hz1 : z < C.wind.z) (hw : windNow C σ = .ok w) (res : Option Shear.Result)
    (hres : stresses C σ (windComponents C w) (shear0 C σ w fun _ => z) = .ok res) (wa : Fin (ny + 1) → Hydro.Water)
    (m : Fin (cells nx ny) → Moisture.Cell) (d : Fin (cells nx ny) → Fin nf → Transport.Speed) (ht : P.clock.t = σ.clock.t)
    (hdt : P.clock.dt = if 0 < dt then dt else C.ts.dt) (hcore : P.core = σ.core)
    (hsh : P.shear = shearNow C σ (windComponents C w) res (shear0 C σ w fun _ => z)) :
    PlanarStep C σ.clock.t dt
      (withErosion C P.clock.dt wa (envWith C P (windComponents C w) (shear0 C σ w fun _ => z) P.shear P.clock.dt wa m d)) := by
  refine ⟨fun hwind => ?_, ⟨ht, hdt⟩, fun _ => rfl, fun file hp hf => ?_, fun c => ?_, fun c c' => ⟨rfl, rfl, rfl⟩, fun z' hz' c => ?_,
    fun hu c => ?_, fun hn l c => ?_, fun hn l => ?_⟩
  · refine planar_env_ok C hC σ w z hz0 hz1 res _ (fun c => ?_) (fun _ => rfl) ?_ hwind
    · rw [← hsh]
      rfl
    · show 0 < P.clock.dt
      rw [hdt]
      exact planar_given_pos hC dt
  · unfold windNow at hw
    simp only [hp, hf] at hw
    match hwa : Wind.windAt file σ.clock.t with
    | none => simp [hwa] at hw
    | some v =>
      simp only [hwa] at hw
      obtain rfl := Except.ok.inj hw
      exact ⟨v.1, v.2, rfl, fun c => ⟨rfl, components_direction C v⟩⟩
  · exact components_square C w
  · have : z' = z := by
      have := (planar_roughnesses C z' hz' σ w.1).symm.trans (planar_roughnesses C z hzr σ w.1)
      exact congrFun (Except.ok.inj (Option.some.inj this)) c
    subst this
    exact shear0_ustar C σ w (fun _ => z') c
  · have hr : res = none := by
      unfold stresses at hres
      rw [if_neg (by rw [hu.1]; simp)] at hres
      exact (Except.ok.inj hres).symm
    have hs : P.shear = shear0 C σ w fun _ => z := by
      rw [hsh, hr]
      unfold shearNow
      funext j
      simp only [shear3, shear2, shear1, hu.2.1, hu.2.2]
      simp
    refine ⟨congrArg (fun s => (s c).ustar) hs, fun z' hz' => ?_⟩
    have : z' = z := by
      have := (planar_roughnesses C z' hz' σ w.1).symm.trans (planar_roughnesses C z hzr σ w.1)
      exact congrFun (Except.ok.inj (Option.some.inj this)) c
    subst this
    have hf := planar_shear0 C σ w z' c ⟨(windComponents C w).uw, (windComponents C w).uws, (windComponents C w).uwn, 0, 0, 0, 0⟩ rfl rfl rfl
    show (P.shear c).ustars = _ ∧ (P.shear c).ustarn = _
    rw [hs, hf]
    exact ⟨rfl, rfl⟩
  · have he : ∀ zb, eroded C P.clock.t P.clock.dt wa zb = .ok zb := by
      intro zb
      unfold eroded
      rw [hn.2.2]
      rfl
    have hl : ∀ zb, slid C zb = zb := by
      intro zb
      unfold slid Ava.avalanche
      rw [show (avaIn C).process = C.ava.process from rfl, hn.1]
      rfl
    have hlev : ∀ c, (levels C P.clock.dt (decide ((windComponents C w).uw ≠ 0)) (fun c => (P.core.sand.bed c).zb) l c).1 = (l c).1 := by
      intro c
      generalize decide ((windComponents C w).uw ≠ 0) = windy
      unfold levels
      cases windy
      · rfl
      · simp only [hl, hn.2.1, Bed.wetBedReset, Bool.false_eq_true, if_false, if_true]
        exact grid_apply _ c
    show (match eroded C P.clock.t P.clock.dt wa (Planar.grid fun c => (levels C P.clock.dt
        (decide ((windComponents C w).uw ≠ 0)) (fun c => (P.core.sand.bed c).zb) l c).1) with
      | .ok zb => zb (rowOf c) (colOf c)
      | .error _ => _) = _
    rw [he]
    show Planar.grid _ (rowOf c) (colOf c) = _
    rw [grid_apply]
    exact hlev c
  · have he : ∀ zb, eroded C P.clock.t P.clock.dt wa zb = .ok zb := by
      intro zb
      unfold eroded
      rw [hn.2]
      rfl
    have hlev : ∑ i ∈ range (ny + 1), ∑ j ∈ Ico 1 nx, Planar.grid (fun c => (levels C P.clock.dt (decide ((windComponents C w).uw ≠ 0))
        (fun c => (P.core.sand.bed c).zb) l c).1) i j ≤ ∑ i ∈ range (ny + 1), ∑ j ∈ Ico 1 nx, Planar.grid (fun c => (l c).1) i j := by
      generalize decide ((windComponents C w).uw ≠ 0) = windy
      unfold levels
      cases windy
      · exact le_rfl
      · simp only [hn.1, Bed.wetBedReset, Bool.false_eq_true, if_false, if_true]
        refine le_trans (le_of_eq (sum_congr rfl fun i hi => sum_congr rfl fun j hj => ?_)) (planar_slid_sum C hC.grid.columns _)
        rw [mem_Ico] at hj
        rw [mem_range] at hi
        exact Planar.grid_at (slid C (Planar.grid fun c => (l c).1)) i j (by omega) (by omega)
    refine le_trans (le_of_eq (sum_congr rfl fun i hi => sum_congr rfl fun j hj => ?_)) hlev
    show Planar.grid (fun c => match eroded C P.clock.t P.clock.dt wa (Planar.grid fun c => (levels C P.clock.dt
        (decide ((windComponents C w).uw ≠ 0)) (fun c => (P.core.sand.bed c).zb) l c).1) with
      | .ok zb => zb (rowOf c) (colOf c)
      | .error _ => _) i j = _
    rw [he]
    congr 1
    funext c
    exact grid_apply _ c

/-- **C140** An executed call of `update` on a planar grid is a step of the chain from wind to bed, with the wind of the file at the current
time, the time step that was asked for and the shear of the logarithmic wind profile, changed by topography, fences and vegetation, and if the
wind blows ahead this step meets the assumptions of the theorems on the chain, whatever the state.  A call with a time step below -1 only
moves the clock. -/
theorem C140_step (sp : LinSolve nx ny) (C : Planar.Config nx ny nf) (hC : PlanarUsable C) (r : ℕ → ℕ → ℝ) (dt : ℝ)
    (σ τ : Planar.State nx ny nf) (b : Bool) (h : Planar.update sp C r dt σ = some (.ok (τ, b))) :
    (b = false ↔ dt < -1) ∧ (b = false → τ.core = σ.core ∧ τ.clock.t = σ.clock.t - dt ∧ τ.moist = σ.moist ∧ τ.veg = σ.veg ∧ τ.hydro = σ.hydro) ∧
    (b = true → ∃ E : Env nx ny nf, PlanarStep C σ.clock.t dt E ∧ PlanarForcing C r σ τ E ∧ τ.clock.t = σ.clock.t + E.dt * C.accfac ∧
      ((∀ c, (σ.moist c).salt ≤ 1) → ∀ c, E.salt c ≤ 1) ∧
      (PlanarSheltering C → (∀ i j, 0 ≤ (σ.veg i j).rho) → PlanarSheltered E) ∧
      Whole.step sp C.core E σ.core = some (.ok τ.core)) ∧
    ((∀ c, (σ.moist c).salt ≤ 1) → ∀ c, (τ.moist c).salt ≤ 1) ∧ ((∀ i j, 0 ≤ (σ.veg i j).rho) → ∀ i j, 0 ≤ (τ.veg i j).rho) := by
  obtain ⟨w, z0, res, hw, hz, hres, hb, hF, hT⟩ := Planar.update_ok h
  rw [planar_timestep C hC] at hb hF hT
  have hbs : b = false ↔ dt < -1 := by
    by_cases hd : dt < -1
    · simp [hd] at hb
      simp [hb, hd]
    · simp [hd] at hb
      simp [hb, hd]
  refine ⟨hbs, ?_⟩
  cases b with
  | false =>
    have hd := hbs.mp rfl
    have e := hF rfl
    rw [if_pos hd] at e
    rw [e]
    refine ⟨fun _ => ⟨rfl, ?_, rfl, rfl, rfl⟩, fun h => absurd h (by simp), fun h => h, fun h => h⟩
    show σ.clock.t + |dt| = _
    rw [abs_of_neg (by linarith)]
    ring
  | true =>
    have hd : ¬ dt < -1 := fun hd => absurd (hbs.mpr hd) (by simp)
    have e := hT rfl
    rw [if_neg hd] at e
    obtain ⟨z, hzr, hz0, hz1⟩ := hC.rough
    have hz0' : z0 = fun _ => z := by
      have := hz.symm.trans (planar_roughnesses C z hzr σ w.1)
      exact Except.ok.inj (Option.some.inj this)
    subst hz0'
    obtain ⟨Q, hQ, e⟩ : ∃ Q : Planar.State nx ny nf,
        Q = prepared C σ (windComponents C w) res (shearNow C σ (windComponents C w) res (shear0 C σ w fun _ => z)) ∧
        execute sp C r (windComponents C w) (shear0 C σ w fun _ => z)
          { Q with clock := { Q.clock with dt := if 0 < dt then dt else C.ts.dt } } = some (.ok τ) := ⟨_, rfl, e⟩
    obtain ⟨P, hP, e⟩ : ∃ P : Planar.State nx ny nf, P = { Q with clock := { Q.clock with dt := if 0 < dt then dt else C.ts.dt } } ∧
        execute sp C r (windComponents C w) (shear0 C σ w fun _ => z) P = some (.ok τ) := ⟨_, rfl, e⟩
    have p1 : P.clock.t = σ.clock.t ∧ P.core = σ.core ∧ P.uw = (windComponents C w).uw ∧ P.dzbavg = σ.dzbavg ∧ P.dzbveg = σ.dzbveg := by
      subst hP hQ
      exact ⟨rfl, rfl, rfl, rfl, rfl⟩
    have p2 : P.veg = σ.veg ∧ P.moist = σ.moist ∧ P.hydro = σ.hydro ∧ P.fence = fences C σ ∧
        P.clock.dt = (if 0 < dt then dt else C.ts.dt) := by
      subst hP hQ
      exact ⟨rfl, rfl, rfl, rfl, rfl⟩
    have p3 : P.shear = shearNow C σ (windComponents C w) res (shear0 C σ w fun _ => z) := by
      subst hP hQ
      rfl
    obtain ⟨met, hy, m, E, ρ, zb, hmet, hh, hm, hE, hstep, her, rfl⟩ := execute_ok e
    unfold env at hE
    rw [if_neg (by rw [hC.speed]; exact fun h => absurd h.1 (by decide))] at hE
    have hE := Option.some.inj hE
    subst hE
    have hsalt : (∀ c, (σ.moist c).salt ≤ 1) → ∀ c, (m c).salt ≤ 1 := fun hs c =>
      update_salt (by rw [p2.2.1]; exact hs c) (planar_moistures_cell hm c)
    have hforce := planarForcing_intro C r σ P (windComponents C w) (shear0 C σ w fun _ => z) P.shear hy _ rfl m _ ρ met hmet zb p1.1 p1.2.1 p1.2.2.1
      p1.2.2.2.1 p1.2.2.2.2 p2.1 p2.2.1 p2.2.2.1 p2.2.2.2.1 hh hm hstep her
      (planarShear_intro C r σ w z hzr hw res hres _ hy _ m _ ρ zb Q P hQ hP)
    have hst := planar_step_of C hC dt σ P w z hzr hz0 hz1 hw res hres (fun i => (hy i).water) m (fun _ _ => ⟨0, 0, 0⟩) p1.1 p2.2.2.2.2 p1.2.1 p3
    refine ⟨fun h => absurd h (by simp), fun _ => ⟨_, hst, hforce, ?_, hsalt, fun hS hrho c => ?_, ?_⟩, hsalt, fun hrho i j => ?_⟩
    · show P.clock.t + P.clock.dt * C.accfac = _
      rw [p1.1]
      rfl
    · have hr : res = none := by
        unfold stresses at hres
        rw [if_neg (by rw [hS.shear]; simp)] at hres
        exact (Except.ok.inj hres).symm
      subst hr
      have := shearNow_le C hS.fences hS.plants σ hrho (windComponents C w) w (fun _ => z) c
      rw [← p3] at this
      exact this
    · rw [← p1.2.1]
      exact step_withErosion hstep her
    · exact planar_rho C r P _ _ _ (by rw [p2.1]; exact hrho) i j

/-- **C140** A run on a planar grid, with any calls of `update`, is a run of the chain from wind to bed whose steps with wind ahead all meet
the assumptions of the theorems on it. -/
theorem C140_run (sp : LinSolve nx ny) (C : Planar.Config nx ny nf) (hC : PlanarUsable C) (calls : List ((ℕ → ℕ → ℝ) × ℝ))
    (σ τ : Planar.State nx ny nf) (h : Planar.run sp C calls σ = some (.ok τ)) :
    ∃ Es : List (Env nx ny nf), Es.length = calls.countP (fun x => decide (-1 ≤ x.2)) ∧
      (∀ E ∈ Es, ∃ x ∈ calls, PlanarStep C E.t x.2 E) ∧ ((∀ c, (σ.moist c).salt ≤ 1) → ∀ E ∈ Es, ∀ c, E.salt c ≤ 1) ∧
      (PlanarSheltering C → (∀ i j, 0 ≤ (σ.veg i j).rho) → ∀ E ∈ Es, PlanarSheltered E) ∧
      Whole.run sp C.core Es σ.core = some (.ok τ.core) := by
  induction calls generalizing σ with
  | nil =>
    rw [← Except.ok.inj (Option.some.inj h)]
    exact ⟨[], rfl, by simp, by simp, by simp, rfl⟩
  | cons x xs ih =>
    unfold Planar.run at h
    match h1 : Planar.update sp C x.1 x.2 σ with
    | none => simp [h1] at h
    | some (.error e) => simp [h1] at h
    | some (.ok (ρ, b)) =>
      simp only [h1] at h
      obtain ⟨Es, hl, hE, hsE, huE, hr⟩ := ih ρ h
      obtain ⟨hb, hf, ht, hs, hrho⟩ := C140_step sp C hC x.1 x.2 σ ρ b h1
      have hE' : ∀ E ∈ Es, ∃ y ∈ x :: xs, PlanarStep C E.t y.2 E := fun E h' => by
        obtain ⟨y, hy, h⟩ := hE E h'
        exact ⟨y, List.mem_cons_of_mem _ hy, h⟩
      have hsE' : (∀ c, (σ.moist c).salt ≤ 1) → ∀ E ∈ Es, ∀ c, E.salt c ≤ 1 := fun h E h' c => hsE (hs h) E h' c
      have huE' : PlanarSheltering C → (∀ i j, 0 ≤ (σ.veg i j).rho) → ∀ E ∈ Es, PlanarSheltered E :=
        fun hS h E h' => huE hS (hrho h) E h'
      rw [List.countP_cons]
      cases b with
      | false =>
        refine ⟨Es, ?_, hE', hsE', huE', by rw [← (hf rfl).1]; exact hr⟩
        have : ¬ -1 ≤ x.2 := not_le.mpr (hb.mp rfl)
        simp [hl, this]
      | true =>
        obtain ⟨E, hok, -, -, hsalt, hu, hst⟩ := ht rfl
        refine ⟨E :: Es, ?_, ?_, ?_, ?_, ?_⟩
        · have : -1 ≤ x.2 := by
            by_contra hx
            exact absurd (hb.mpr (not_le.mp hx)) (by simp)
          simp [hl, this]
        · intro E' h'
          rcases List.mem_cons.mp h' with rfl | h'
          · exact ⟨x, List.mem_cons_self, by rw [hok.time.1]; exact hok⟩
          · exact hE' E' h'
        · intro h E' h' c
          rcases List.mem_cons.mp h' with rfl | h'
          · exact hsalt h c
          · exact hsE' h E' h' c
        · intro hS h E' h'
          rcases List.mem_cons.mp h' with rfl | h'
          · exact hu hS h
          · exact huE' hS h E' h'
        · unfold Whole.run
          simp only [hst]
          exact hr

/-! ### Wind from a sector -/

theorem interpFrom_mix (a b : ℝ) (f g : Wind.Record → ℝ) (x : ℝ) : ∀ (file : List Wind.Record) (r : Wind.Record),
    interpFrom x (r.1, a * f r + b * g r) (file.map fun r => (r.1, a * f r + b * g r)) =
      a * interpFrom x (r.1, f r) (file.map fun r => (r.1, f r)) + b * interpFrom x (r.1, g r) (file.map fun r => (r.1, g r))
  | [], r => rfl
  | r' :: file, r => by
    have ih := interpFrom_mix a b f g x file r'
    simp only [List.map_cons, interpFrom]
    split_ifs
    · ring
    · exact ih

/-- The interpolation of a sum of multiples of two columns of a file. -/
theorem interp_mix (a b : ℝ) (f g : Wind.Record → ℝ) (file : List Wind.Record) (t p q : ℝ)
    (hp : interpCircular (file.map fun r => (r.1, f r)) t = some p) (hq : interpCircular (file.map fun r => (r.1, g r)) t = some q) :
    interpCircular (file.map fun r => (r.1, a * f r + b * g r)) t = some (a * p + b * q) := by
  have ht : ∀ f : Wind.Record → ℝ, (file.map fun r => (r.1, f r)).map Prod.fst = file.map Prod.fst := fun f => by
    rw [List.map_map]
    rfl
  unfold interpCircular at *
  rw [ht] at hp hq
  rw [ht fun r => a * f r + b * g r]
  match file, hp, hq with
  | [], hp, hq => simp at hp
  | r :: file, hp, hq =>
    simp only [List.map_cons, npInterp, Option.some.injEq] at hp hq ⊢
    rw [← hp, ← hq]
    split_ifs
    · rfl
    · exact interpFrom_mix a b f g _ file r

/-- All records of the wind file have directions from which the wind blows ahead on the rotated grid, strictly onshore. -/
def FromSector (C : Planar.Config nx ny nf) : Prop :=
  C.wind.processWind = true ∧ ∃ file, C.wind.file = some file ∧ ∀ r ∈ file, 0 ≤ r.2.1 ∧
    Real.sin ((r.2.2 - C.wind.alfa + C.alpha) / 180 * Real.pi) < 0 ∧ Real.cos ((r.2.2 - C.wind.alfa + C.alpha) / 180 * Real.pi) ≤ 0

/-- A finite list of negative values has a negative upper bound. -/
theorem list_negative {α : Type*} (f : α → ℝ) : ∀ l : List α, (∀ r ∈ l, f r < 0) → ∃ e < 0, ∀ r ∈ l, f r ≤ e
  | [], _ => ⟨-1, by norm_num, by simp⟩
  | r :: l, h => by
    obtain ⟨e, he, hl⟩ := list_negative f l fun r' h' => h r' (List.mem_cons_of_mem _ h')
    refine ⟨max (f r) e, max_lt (h r List.mem_cons_self) he, fun r' h' => ?_⟩
    rcases List.mem_cons.mp h' with rfl | h'
    · exact le_max_left _ _
    · exact (hl r' h').trans (le_max_right _ _)

/-- **C140** If the directions of all records of the wind file lie in a sector from which the wind blows ahead, then at every time, between the
records too, the wind in every cell blows ahead. -/
theorem C140_sector (C : Planar.Config nx ny nf) (hF : PlanarSeries C) (hs : FromSector C) (t dt : ℝ) (E : Env nx ny nf)
    (hE : PlanarStep C t dt E) : Ahead E := by
  obtain ⟨hp, file, hf, hrec⟩ := hs
  obtain ⟨hne, hinc⟩ := hF.wind file hf
  obtain ⟨v, d, hv, hc⟩ := hE.wind file hp hf
  obtain ⟨a, ha⟩ := interp_total file hne hinc (fun r => r.2.1) t
  obtain ⟨s, hs⟩ := interp_total file hne hinc (fun r => Real.sin (r.2.2 / 180 * Real.pi)) t
  obtain ⟨k, hk⟩ := interp_total file hne hinc (fun r => Real.cos (r.2.2 / 180 * Real.pi)) t
  have hvd : v = a ∧ d = Wind.arctan2 s k * 180 / Real.pi := by
    unfold Wind.windAt at hv
    simp only [ha, hs, hk] at hv
    have := Option.some.inj hv
    simp only [Prod.mk.injEq] at this
    exact ⟨this.1.symm, this.2.symm⟩
  obtain ⟨rfl, hd⟩ := hvd
  have hrange : ∀ (f : Wind.Record → ℝ) (lo hi y : ℝ), (∀ r ∈ file, lo ≤ f r ∧ f r ≤ hi) →
      interpCircular (file.map fun r => (r.1, f r)) t = some y → lo ≤ y ∧ y ≤ hi := by
    intro f lo hi y hb hy
    obtain ⟨y', hy', hr⟩ := C10_within_data_range (file.map fun r => (r.1, f r)) (by simpa using hne) (by
      unfold Increasing
      rw [List.pairwise_map]
      exact hinc) t lo hi (by
        intro k hk
        obtain ⟨r, hr, rfl⟩ := List.mem_map.mp hk
        exact hb r hr)
    rw [hy] at hy'
    rw [Option.some.inj hy']
    exact hr
  set φ := (-C.wind.alfa + C.alpha) / 180 * Real.pi with hφ
  have hang : ∀ x : ℝ, (x - C.wind.alfa + C.alpha) / 180 * Real.pi = x / 180 * Real.pi + φ := fun x => by
    rw [hφ]
    ring
  have hv0 : 0 ≤ v := by
    obtain ⟨M, hM⟩ : ∃ M, ∀ r ∈ file, r.2.1 ≤ M := by
      obtain ⟨e, -, he⟩ := list_negative (fun r : Wind.Record => r.2.1 - (∑ r' ∈ file.toFinset, |r'.2.1|) - 1) file fun r hr => by
        have := Finset.single_le_sum (f := fun r' : Wind.Record => |r'.2.1|) (fun r' _ => abs_nonneg _) (List.mem_toFinset.mpr hr)
        have h2 := le_abs_self r.2.1
        linarith
      exact ⟨e + (∑ r' ∈ file.toFinset, |r'.2.1|) + 1, fun r hr => by have := he r hr; linarith⟩
    exact (hrange _ 0 M v (fun r hr => ⟨(hrec r hr).1, hM r hr⟩) ha).1
  -- the mixture of the directions
  have m1 := interp_mix (Real.cos φ) (Real.sin φ) _ _ file t s k hs hk
  have m2 := interp_mix (-Real.sin φ) (Real.cos φ) _ _ file t s k hs hk
  obtain ⟨e, he, hle⟩ := list_negative (fun r : Wind.Record => Real.sin ((r.2.2 - C.wind.alfa + C.alpha) / 180 * Real.pi)) file
    fun r hr => (hrec r hr).2.1
  have b1 := (hrange _ (-1) e _ (fun r hr => by
    have h := hle r hr
    have h1 := Real.neg_one_le_sin ((r.2.2 - C.wind.alfa + C.alpha) / 180 * Real.pi)
    rw [hang, Real.sin_add] at h h1
    constructor <;> linarith) m1).2
  have b2 := (hrange _ (-1) 0 _ (fun r hr => by
    have h := (hrec r hr).2.2
    have h1 := Real.neg_one_le_cos ((r.2.2 - C.wind.alfa + C.alpha) / 180 * Real.pi)
    rw [hang, Real.cos_add] at h h1
    constructor <;> linarith) m2).2
  set z : ℂ := ⟨k, s⟩ with hz
  have hzne : z ≠ 0 := by
    intro h0
    have e1 : k = 0 := congrArg Complex.re h0
    have e2 : s = 0 := congrArg Complex.im h0
    rw [e1, e2] at b1
    linarith
  have hR : 0 < ‖z‖ := norm_pos_iff.mpr hzne
  have hsn : ‖z‖ * Real.sin z.arg = s := by rw [Complex.sin_arg]; field_simp; rfl
  have hcs : ‖z‖ * Real.cos z.arg = k := by rw [Complex.cos_arg hzne]; field_simp; rfl
  have hdz : d / 180 * Real.pi = z.arg := by
    rw [hd, hz]
    unfold Wind.arctan2
    have := Real.pi_pos
    field_simp
  have hsin : Real.sin ((d - C.wind.alfa + C.alpha) / 180 * Real.pi) ≤ 0 := by
    rw [hang, hdz, Real.sin_add]
    have : ‖z‖ * (Real.sin z.arg * Real.cos φ + Real.cos z.arg * Real.sin φ) ≤ 0 := by
      have : ‖z‖ * (Real.sin z.arg * Real.cos φ + Real.cos z.arg * Real.sin φ) = Real.cos φ * s + Real.sin φ * k := by
        linear_combination Real.cos φ * hsn + Real.sin φ * hcs
      linarith
    by_contra hlt
    push Not at hlt
    exact absurd this (not_le.mpr (mul_pos hR hlt))
  have hcos : Real.cos ((d - C.wind.alfa + C.alpha) / 180 * Real.pi) ≤ 0 := by
    rw [hang, hdz, Real.cos_add]
    have : ‖z‖ * (Real.cos z.arg * Real.cos φ - Real.sin z.arg * Real.sin φ) ≤ 0 := by
      have : ‖z‖ * (Real.cos z.arg * Real.cos φ - Real.sin z.arg * Real.sin φ) = -Real.sin φ * s + Real.cos φ * k := by
        linear_combination Real.cos φ * hcs - Real.sin φ * hsn
      linarith
    by_contra hlt
    push Not at hlt
    exact absurd this (not_le.mpr (mul_pos hR hlt))
  intro c
  rw [(hc c).2.1, (hc c).2.2]
  constructor <;> nlinarith

/-! ### A run always returns -/

theorem planar_windNow_total (C : Planar.Config nx ny nf) (hF : PlanarSeries C) (σ : Planar.State nx ny nf) : ∃ w, windNow C σ = .ok w := by
  unfold windNow
  split
  · rename_i file _ hf
    obtain ⟨hne, hinc⟩ := hF.wind file hf
    obtain ⟨a, ha⟩ := interp_total file hne hinc (fun r => r.2.1) σ.clock.t
    obtain ⟨b, hb⟩ := interp_total file hne hinc (fun r => Real.sin (r.2.2 / 180 * Real.pi)) σ.clock.t
    obtain ⟨c, hc⟩ := interp_total file hne hinc (fun r => Real.cos (r.2.2 / 180 * Real.pi)) σ.clock.t
    unfold Wind.windAt
    simp only [ha, hb, hc]
    exact ⟨_, rfl⟩
  · exact ⟨_, rfl⟩

theorem planar_waters_total (C : Planar.Config nx ny nf) (hF : PlanarFiles C) (σ : Planar.State nx ny nf) (t dt : ℝ) :
    ∃ w, waters C σ t dt = .ok w := by
  choose w hw using fun i : Fin (ny + 1) => C60_never_fails C.water (row C σ i) t (σ.hydro i).water hF.tide hF.wave
  unfold waters Hydro.gridStep
  have hg : (groundIn C).on = false := hF.ground
  simp only [collect_ok.mpr hw, Hydro.gridGround, hg, Bool.false_eq_true, if_false]
  exact ⟨_, rfl⟩

theorem planar_meteo_total (C : Planar.Config nx ny nf) (hF : PlanarSeries C) (t : ℝ) : ∃ met, meteoAt C t = .ok met := by
  unfold meteoAt
  match hf : C.meteoFile with
  | none => exact ⟨_, rfl⟩
  | some rows =>
    simp only
    split_ifs
    · obtain ⟨hne, hinc⟩ := hF.meteo rows hf
      choose v hv using fun i : Fin 5 => series_total (rows.map fun x => (x.1, x.2 i)) (by simpa using hne) (by
        unfold Increasing
        rw [List.pairwise_map]
        exact hinc) t
      rw [collect_ok.mpr hv]
      exact ⟨_, rfl⟩
    · exact ⟨_, rfl⟩

theorem planar_moisture_total (C : Planar.Config nx ny nf) (hF : PlanarSeries C) (t s₀ dt : ℝ) (met : Option Moisture.Meteo) (hmet : PlanarMeteo C s₀ met)
    (x : Moisture.Input) (s : Moisture.Cell) : ∃ s', Moisture.update C.moist t dt met x s = some (.ok s') := by
  have hsome : C.moist.processMoist = true → lower C.moist.method = "surf_moisture" → C.meteoFile ≠ none → ∃ m, met = some m := by
    intro h1 h2 h3
    obtain ⟨rows, h3⟩ := Option.ne_none_iff_exists'.mp h3
    obtain ⟨m, hm, -⟩ := hmet.1 rows h1 h2 h3
    exact ⟨m, hm⟩
  have key : ∃ s' ix, Moisture.moisture C.moist t dt met x s = some (.ok (s', ix)) ∧ (C.moist.processMoist = true → ix ≠ none) := by
    unfold Moisture.moisture
    by_cases hp : C.moist.processMoist = true
    · rw [if_pos hp]
      rcases hF.moist hp with h | ⟨h, hs, hm⟩
      · rw [if_pos h]
        exact ⟨_, _, rfl, fun _ => by simp⟩
      · rw [if_neg (by rw [h]; decide), if_pos h]
        obtain ⟨met, rfl⟩ := hsome hp h hm
        · unfold Moisture.surface Moisture.capillary
          simp only [hs]
          exact ⟨_, _, rfl, fun _ => by simp⟩
    · rw [if_neg hp]
      exact ⟨_, _, rfl, fun h => absurd h hp⟩
  obtain ⟨s', ix, h, hix⟩ := key
  unfold Moisture.update
  rw [h]
  by_cases hsalt : C.moist.processSalt = true
  · obtain ⟨h1, h2, h3⟩ := hF.salt hsalt
    obtain ⟨met, rfl⟩ := hsome h1 h2 h3
    match ix, hix h1 with
    | some ix, _ =>
      simp only [hsalt, if_true]
      exact ⟨_, rfl⟩
  · simp only [hsalt, if_false]
    exact ⟨_, rfl⟩

theorem planar_moistures_total (C : Planar.Config nx ny nf) (hF : PlanarSeries C) (σ : Planar.State nx ny nf) (t s₀ dt uw : ℝ)
    (met : Option Moisture.Meteo) (hmet : PlanarMeteo C s₀ met) (h : Fin (ny + 1) → Hydro.HydroState) :
    ∃ m, moistures C σ t dt uw met h = some (.ok m) := by
  unfold moistures
  choose f hf using fun c : Fin (cells nx ny) => planar_moisture_total C hF t s₀ dt met hmet
    ⟨(h (rowIx c)).water.TWL (colOf c), (σ.core.sand.bed c).zb, (h (rowIx c)).gw (colOf c), (h (rowIx c)).gwPrev (colOf c),
      (h (rowIx c)).wetting (colOf c), uw⟩ (σ.moist c)
  have hall : ∀ c : Fin (cells nx ny), ∃ v, Moisture.update C.moist t dt met
      ⟨(h (rowIx c)).water.TWL (colOf c), (σ.core.sand.bed c).zb, (h (rowIx c)).gw (colOf c), (h (rowIx c)).gwPrev (colOf c),
      (h (rowIx c)).wetting (colOf c), uw⟩ (σ.moist c) = some v :=
    fun c => ⟨_, hf c⟩
  simp only [dif_pos hall]
  refine ⟨f, congrArg some (collect_ok.mpr fun c => ?_)⟩
  exact Option.some.inj ((hall c).choose_spec.symm.trans (hf c))

theorem planar_eroded_total (C : Planar.Config nx ny nf) (hF : PlanarSeries C) (hnx : nx ≠ 0) (t dt : ℝ) (w : Fin (ny + 1) → Hydro.Water)
    (zb : ℕ → ℕ → ℝ) : ∃ z, eroded C t dt w zb = .ok z := by
  unfold eroded
  by_cases hp : C.dune.process = true
  · rw [if_pos hp]
    obtain ⟨h1, h2⟩ := hF.dune hp
    match htide : C.water.tideFile, h1, hwave : C.water.waveFile, h2 with
    | some tide, _, some wave, _ =>
      obtain ⟨a, ha⟩ := series_total tide (hF.tide _ htide).1 (hF.tide _ htide).2 t
      obtain ⟨b, hb⟩ := series_total (wave.map fun x => (x.1, x.2.2)) (by simpa using (hF.wave _ hwave).1) (by
        unfold Increasing
        rw [List.pairwise_map]
        exact (hF.wave _ hwave).2) t
      simp only [ha, hb]
      have hrow : ∀ i : Fin (ny + 1), ∃ z, Erosion.row nx C.dune.par
          ⟨(w i).R 0, a, C.dune.collisions ((w i).eta 0) a ((w i).sigma 0) dt b⟩ (fun j => (C.g i j).1) (zb i) = .ok z := by
        intro i
        unfold Erosion.row
        rw [if_neg hnx]
        split_ifs <;> exact ⟨_, rfl⟩
      choose f hf using hrow
      rw [collect_ok.mpr hf]
      exact ⟨_, rfl⟩
  · rw [if_neg hp]
    exact ⟨_, rfl⟩

/-- **C140** With wind from a sector ahead a call of `update` on a planar grid returns without an exception, whatever the time step, the random
numbers and the state, unless the groundwater fails. -/
theorem C140_returns (sp : LinSolve nx ny) (C : Planar.Config nx ny nf) (hC : PlanarUsable C) (hN : NamesOk C.core) (hF : PlanarSeries C)
    (hs : FromSector C) (r : ℕ → ℕ → ℝ) (dt : ℝ) (σ : Planar.State nx ny nf) (h0 : ∀ c f, 0 ≤ (σ.core.cap c f).Cu0) :
    (∃ τ b, Planar.update sp C r dt σ = some (.ok (τ, b)) ∧ ∀ c f, 0 ≤ (τ.core.cap c f).Cu0) ↔
      dt < -1 ∨ ∃ s, Hydro.gridStep C.water (fun i => ⟨σ.zb i, C.tideMask i, C.waveMask i, C.runupMask.map fun m => m i⟩)
        { C.ground with n := nx + 1 } (fun i => ⟨C.core.ds i, C.gwMask i, fun j => (C.g i j).1⟩) σ.clock.t
        (if 0 < dt then dt else C.ts.dt) σ.hydro = .ok s := by
  constructor
  · rintro ⟨τ, b, h, -⟩
    obtain ⟨hb, -, hbt, -⟩ := C140_step sp C hC r dt σ τ b h
    cases b with
    | false => exact Or.inl (hb.mp rfl)
    | true =>
      obtain ⟨E, hS, hE, -⟩ := hbt rfl
      refine Or.inr ⟨τ.hydro, ?_⟩
      rw [← hS.time.2]
      exact hE.water
  intro hdt
  obtain ⟨w, hw⟩ := planar_windNow_total C hF σ
  obtain ⟨z, hzr, hz0, hz1⟩ := hC.rough
  have hz := planar_roughnesses C z hzr σ w.1
  obtain ⟨res, hres⟩ := stresses_total C σ (windComponents C w) (shear0 C σ w fun _ => z) hF.bubbles
  by_cases hd : dt < -1
  · unfold Planar.update
    simp only [hw, hz, hres]
    rw [planar_timestep C hC, if_pos hd]
    exact ⟨_, _, rfl, h0⟩
  · let Q := prepared C σ (windComponents C w) res (shearNow C σ (windComponents C w) res (shear0 C σ w fun _ => z))
    have hk := planar_timestep C hC (tsGrids C Q (windComponents C w)) Q.clock dt
    rw [if_neg hd] at hk
    let ρ : Planar.State nx ny nf := { Q with clock := { Q.clock with dt := if 0 < dt then dt else C.ts.dt } }
    obtain ⟨h, hh⟩ : ∃ h, waters C ρ ρ.clock.t ρ.clock.dt = .ok h := hdt.resolve_left hd
    obtain ⟨met, hmet⟩ := planar_meteo_total C hF (Hydro.lastTime C.ground ρ.clock.t ρ.clock.dt)
    obtain ⟨m, hm⟩ := planar_moistures_total C hF ρ ρ.clock.t _ ρ.clock.dt (windComponents C w).uw met (planar_meteoAt hmet) h
    have hE : env C ρ (windComponents C w) (shear0 C σ w fun _ => z) ρ.shear ρ.clock.dt (fun i => (h i).water) m ρ.zsep =
        some (envWith C ρ (windComponents C w) (shear0 C σ w fun _ => z) ρ.shear ρ.clock.dt (fun i => (h i).water) m fun _ _ => ⟨0, 0, 0⟩) := by
      unfold env
      rw [if_neg (by rw [hC.speed]; exact fun h => absurd h.1 (by decide))]
    have hS := planar_step_of C hC dt σ ρ w z hzr hz0 hz1 hw res hres (fun i => (h i).water) m (fun _ _ => ⟨0, 0, 0⟩) rfl rfl rfl rfl
    have ha : Ahead (envWith C ρ (windComponents C w) (shear0 C σ w fun _ => z) ρ.shear ρ.clock.dt (fun i => (h i).water) m
        fun _ _ => ⟨0, 0, 0⟩) :=
      fun c => C140_sector C hF hs _ _ _ hS c
    obtain ⟨τ, hτ, h0'⟩ := step_returns sp C.core hC.core hN hC.grid _
      (fun hwind => (planar_env_ok C hC σ w z hz0 hz1 res
        (envWith C ρ (windComponents C w) (shear0 C σ w fun _ => z) ρ.shear ρ.clock.dt (fun i => (h i).water) m fun _ _ => ⟨0, 0, 0⟩)
        (fun _ => rfl) (fun _ => rfl) (planar_given_pos hC dt) hwind).1 ha) σ.core h0
    obtain ⟨zb, hzb⟩ := planar_eroded_total C hF (by have := hC.grid.columns; omega) ρ.clock.t ρ.clock.dt (fun i => (h i).water)
      (Planar.grid fun c => (τ.sand.bed c).zb)
    exact ⟨_, _, Planar.update_intro hw hz hres rfl hk (execute_intro hmet hh hm hE hτ hzb), h0'⟩

/-- **C140** Without groundwater it always returns. -/
theorem C140_total (sp : LinSolve nx ny) (C : Planar.Config nx ny nf) (hC : PlanarUsable C) (hN : NamesOk C.core) (hF : PlanarFiles C)
    (hs : FromSector C) (r : ℕ → ℕ → ℝ) (dt : ℝ) (σ : Planar.State nx ny nf) (h0 : ∀ c f, 0 ≤ (σ.core.cap c f).Cu0) :
    ∃ τ b, Planar.update sp C r dt σ = some (.ok (τ, b)) ∧ ∀ c f, 0 ≤ (τ.core.cap c f).Cu0 :=
  (C140_returns sp C hC hN hF.toPlanarSeries hs r dt σ h0).mpr (Or.inr (planar_waters_total C hF σ _ _))

/-- **C140** So does a run with any calls. -/
theorem C140_run_total (sp : LinSolve nx ny) (C : Planar.Config nx ny nf) (hC : PlanarUsable C) (hN : NamesOk C.core) (hF : PlanarFiles C)
    (hs : FromSector C) (calls : List ((ℕ → ℕ → ℝ) × ℝ)) (σ : Planar.State nx ny nf) (h0 : ∀ c f, 0 ≤ (σ.core.cap c f).Cu0) :
    ∃ τ, Planar.run sp C calls σ = some (.ok τ) := by
  induction calls generalizing σ with
  | nil => exact ⟨σ, rfl⟩
  | cons x xs ih =>
    obtain ⟨ρ, b, h, h1⟩ := C140_total sp C hC hN hF hs x.1 x.2 σ h0
    obtain ⟨τ, hτ⟩ := ih ρ h1
    refine ⟨τ, ?_⟩
    unfold Planar.run
    simp only [h]
    exact hτ

end Aeolis.Props
