import Verif.Props.Datum
import Verif.Model.Program

/-!
C160: complete time steps on a transect do not depend on the datum of the levels.
-/

namespace Aeolis.Props

open Finset Aeolis.Spec Aeolis.Sand Aeolis.Solver Aeolis.Whole Aeolis.Full

variable {nx nf : ℕ}

/-- The configuration with all levels raised: tide, non-erodible layer, bed at the start, lowest level of vegetation, dune toe (also where the
probability of collisions is computed from it). -/
noncomputable def higherConfig (h : ℝ) (C : Full.Config nx nf) : Full.Config nx nf :=
  { C with
    water := { C.water with tideFile := C.water.tideFile.map (higherSeries h) }
    zne := fun j => (C.zne j).map (· + h)
    zb0 := fun j => C.zb0 j + h
    shelter := { C.shelter with veg := { C.shelter.veg with zmin := C.shelter.veg.zmin + h } }
    dune := { C.dune with
      par := { C.dune.par with toe := C.dune.par.toe + h }
      collisions := fun eta wl sigma dt Tp => C.dune.collisions eta (wl - h) sigma dt Tp } }

/-- The chain with given water levels. -/
def atLevel {ny : ℕ} (zs : Fin (cells nx ny) → ℝ) (σ : Whole.State nx ny nf) : Whole.State nx ny nf :=
  { σ with sand := { σ.sand with bed := fun c => { σ.sand.bed c with zs := zs c } } }

/-- The state of the second transect is that of the first with the bed raised.  Nothing is asked of the water levels, as they are computed anew in
each step. -/
structure Higher (h : ℝ) (σ σ' : Full.State nx nf) : Prop where
  clock : σ'.clock = σ.clock
  uw : σ'.uw = σ.uw
  udir : σ'.udir = σ.udir
  shear : σ'.shear = σ.shear
  core : atLevel (fun _ => 0) σ'.core = atLevel (fun _ => 0) (higher h σ.core)
  mix : ∀ j, j ≤ nx → σ'.hydro.water.Hsmix j = σ.hydro.water.Hsmix j
  moist : σ'.moist = σ.moist
  veg : ∀ j, j ≤ nx → σ'.veg j = σ.veg j
  dzbavg : σ'.dzbavg = σ.dzbavg
  dzbveg : σ'.dzbveg = σ.dzbveg

/-- No process that compares levels with the datum: the water level is that of the tide, with runup, there is no flow separation, no fences and no
groundwater, the moisture is not that of `surf_moisture`, which depends on the groundwater, and the grain speed is not that of Durán. -/
structure NoDatum (C : Full.Config nx nf) : Prop where
  tide : C.water.processTide = true
  series : C.water.tideFile ≠ none
  runup : C.water.processRunup = true
  mask : ∀ j, j ≤ nx → (C.tideMask j).1 = 1
  separation : C.wind.processSeparation = false
  fences : C.shelter.processFences = false
  ground : C.ground.on = false
  moist : C.moist.processMoist = true → lower C.moist.method ≠ "surf_moisture"
  speed : C.core.tr.methodGrainspeed ≠ "duran"

theorem cell_le (c : Fin (cells nx 0)) : (c : ℕ) ≤ nx := by
  have := c.2
  unfold cells at this
  omega

theorem col_inside (X : Fin (cells nx 0) → ℝ) (j : ℕ) (hj : j ≤ nx) : col X j = X ⟨j, by unfold cells; omega⟩ := by
  unfold col onGrid
  rw [dif_pos (by unfold cells; omega)]
  congr 1
  exact Fin.ext (by simp)

theorem col_outside (X : Fin (cells nx 0) → ℝ) (j : ℕ) (hj : ¬ j ≤ nx) : col X j = 0 := by
  unfold col onGrid
  rw [dif_neg (by unfold cells; omega)]

theorem col_higher (h : ℝ) (X : Fin (cells nx 0) → ℝ) : HigherRow nx h (col X) (col fun c => X c + h) := fun j hj => by
  rw [col_inside _ j hj, col_inside _ j hj]

theorem Higher.cell {h : ℝ} {σ σ' : Full.State nx nf} (L : Higher h σ σ') (c : Fin (cells nx 0)) :
    { σ'.core.sand.bed c with zs := 0 } = { higherCell h (σ.core.sand.bed c) with zs := 0 } :=
  congrFun (congrArg (fun τ : Whole.State nx 0 nf => τ.sand.bed) L.core) c

theorem Higher.level {h : ℝ} {σ σ' : Full.State nx nf} (L : Higher h σ σ') (c : Fin (cells nx 0)) :
    (σ'.core.sand.bed c).zb = (σ.core.sand.bed c).zb + h := by
  have := congrArg Bed.Cell.zb (L.cell c)
  exact this

theorem Higher.mass {h : ℝ} {σ σ' : Full.State nx nf} (L : Higher h σ σ') (c : Fin (cells nx 0)) :
    (σ'.core.sand.bed c).mass = (σ.core.sand.bed c).mass := by
  have := congrArg Bed.Cell.mass (L.cell c)
  exact this

theorem Higher.dzb {h : ℝ} {σ σ' : Full.State nx nf} (L : Higher h σ σ') (c : Fin (cells nx 0)) :
    (σ'.core.sand.bed c).dzb = (σ.core.sand.bed c).dzb := by
  have := congrArg Bed.Cell.dzb (L.cell c)
  exact this

theorem Higher.zb {h : ℝ} {σ σ' : Full.State nx nf} (L : Higher h σ σ') : HigherRow nx h σ.zb σ'.zb := by
  intro j hj
  unfold State.zb
  rw [show (fun c => (σ'.core.sand.bed c).zb) = fun c => (σ.core.sand.bed c).zb + h from
    funext fun c => L.level c]
  exact col_higher h _ j hj

/-! ### Shear -/

theorem okin_heights (c1 b dir : ℝ) (n : ℕ) (x H H' : ℕ → ℝ) (hH : ∀ i, i < n → H' i = H i) (s : ℕ → Wind.Shear) :
    Lee.okin c1 b dir n x H' s = Lee.okin c1 b dir n x H s := by
  have : Lee.totalReduction c1 b dir n x H' = Lee.totalReduction c1 b dir n x H := by
    funext j
    unfold Lee.totalReduction
    dsimp only
    rw [List.foldl_ext _ (fun all i => if 0 < H i then all + Lee.reduction c1 b (H i) (Lee.distanceBehind dir (x i) (x j)) else all) 0
      fun a i hi => by rw [hH i (List.mem_range.mp hi)]]
  funext j
  unfold Lee.okin
  rw [this]

theorem shearNow_higher {C : Full.Config nx nf} (hC : NoDatum C) {h : ℝ} {σ σ' : Full.State nx nf} (L : Higher h σ σ') (w : ℝ × ℝ)
    (z0 : Fin (cells nx 0) → ℝ) : shearNow (higherConfig h C) σ' w z0 = shearNow C σ w z0 := by
  have h0 : shear0 (higherConfig h C) σ' w z0 = shear0 C σ w z0 := by
    funext j
    unfold shear0
    rw [L.shear]
    rfl
  have h1 : ∀ now s, shear1 (higherConfig h C) σ' now s = shear1 C σ now s := by
    intro now s
    funext j
    have e : surface (higherConfig h C) σ' now = none := if_neg fun k => by
      have := k.2.2
      rw [show (higherConfig h C).wind.processSeparation = C.wind.processSeparation from rfl, hC.separation] at this
      cases this
    have e' : surface C σ now = none := if_neg fun k => by
      have := k.2.2
      rw [hC.separation] at this
      cases this
    unfold shear1
    rw [e, e']
    unfold Wind.shearTransect
    dsimp only
    rw [shear1d_higher h _ σ.zb σ'.zb L.zb]
    rfl
  have h2 : ∀ now s, shear2 (higherConfig h C) σ' now s = shear2 C σ now s := by
    intro now s
    funext j
    unfold shear2
    rw [show (higherConfig h C).shelter.processFences = C.shelter.processFences from rfl, hC.fences, if_neg (by decide), if_neg (by decide)]
  have h3 : ∀ now s, shear3 (higherConfig h C) σ' now s = shear3 C σ now s := by
    intro now s
    funext j
    unfold shear3
    rw [okin_heights _ _ _ _ _ (fun j => (σ.veg j).h) (fun j => (σ'.veg j).h) fun i hi => by rw [L.veg i (by omega)]]
    rw [show (fun c : Fin (cells nx 0) => (σ'.veg c).rho) = fun c : Fin (cells nx 0) => (σ.veg c).rho from
      funext fun c => by rw [L.veg c (cell_le c)]]
    rfl
  unfold shearNow
  dsimp only
  rw [h0, h1, h2, h3]
  rfl

/-! ### Moisture -/

theorem moisture_higher (c : Moisture.Config) (hc : c.processMoist = true → lower c.method ≠ "surf_moisture") (t dt : ℝ) (met : Option Moisture.Meteo)
    (x x' : Moisture.Input) (hx : x'.twl - x'.zb = x.twl - x.zb) (s : Moisture.Cell) : Moisture.update c t dt met x' s = Moisture.update c t dt met x s := by
  have h6 : Moisture.moisture c t dt met x' s = Moisture.moisture c t dt met x s := by
    unfold Moisture.moisture Moisture.infiltration
    by_cases hp : c.processMoist = true
    · rw [if_pos hp, if_pos hp, if_neg (hc hp), if_neg (hc hp), hx]
    · rw [if_neg hp, if_neg hp]
  unfold Moisture.update
  rw [h6]

open Classical in
theorem moistures_higher {C : Full.Config nx nf} (hC : NoDatum C) {h : ℝ} {σ σ' : Full.State nx nf} (L : Higher h σ σ') (t dt uw : ℝ)
    (met : Option Moisture.Meteo) {s s' : Hydro.HydroState} (hs : HigherWater nx h s.water s'.water) :
    moistures (higherConfig h C) σ' t dt uw met s' = moistures C σ t dt uw met s := by
  have : ∀ c : Fin (cells nx 0),
      Moisture.update C.moist t dt met ⟨s'.water.TWL c, σ'.zb c, s'.gw c, s'.gwPrev c, s'.wetting c, uw⟩ (σ'.moist c) =
        Moisture.update C.moist t dt met ⟨s.water.TWL c, σ.zb c, s.gw c, s.gwPrev c, s.wetting c, uw⟩ (σ.moist c) := by
    intro c
    rw [L.moist]
    refine moisture_higher C.moist hC.moist t dt met _ _ ?_ _
    show s'.water.TWL c - σ'.zb c = s.water.TWL c - σ.zb c
    rw [hs.TWL c (cell_le c), L.zb c (cell_le c), add_sub_add_right_eq_sub]
  unfold moistures
  change (let r := fun c : Fin (cells nx 0) =>
    Moisture.update C.moist t dt met ⟨s'.water.TWL c, σ'.zb c, s'.gw c, s'.gwPrev c, s'.wetting c, uw⟩ (σ'.moist c)
    if hs : ∀ c, ∃ v, r c = some v then some (collect fun c => (hs c).choose) else none) = _
  simp only [this]

/-! ### Later changes of the levels -/

theorem slid_higher (C : Full.Config nx nf) (h : ℝ) (z z' : ℕ → ℝ) (hz : HigherRow nx h z z') (j : ℕ) (hj : j ≤ nx) :
    slid (higherConfig h C) z' j = slid C z j + h := by
  unfold slid
  rw [avalanche_grid (avaIn (higherConfig h C)) (fun _ j => z j + h) (fun _ j => z' j) (fun _ j hj => hz j hj) 0 j hj]
  exact congrFun (congrFun (C158_datum (avaIn C) h fun _ j => z j) 0) j

theorem wetBedReset_higher (b : Bool) (dt T zs zb0 zb h : ℝ) :
    Bed.wetBedReset b dt T (zs + h) (zb0 + h) (zb + h) = Bed.wetBedReset b dt T zs zb0 zb + h := by
  unfold Bed.wetBedReset
  rw [add_right_comm zb h]
  simp only [add_lt_add_iff_right]
  split_ifs <;> ring

theorem levels_higher (C : Full.Config nx nf) (h dt : ℝ) (windy : Bool) (lzb lzb' : ℕ → ℝ) (hl : HigherRow nx h lzb lzb')
    (l : Fin (cells nx 0) → ℝ × ℝ × ℝ) (c : Fin (cells nx 0)) :
    levels (higherConfig h C) dt windy lzb' (fun c => ((l c).1 + h, (l c).2.1 + h, (l c).2.2)) c =
      ((levels C dt windy lzb l c).1 + h, (levels C dt windy lzb l c).2.1 + h, (levels C dt windy lzb l c).2.2) := by
  unfold levels
  split_ifs
  · dsimp only
    rw [slid_higher C h (col fun c => (l c).1) _ (col_higher h fun c => (l c).1) c (cell_le c), hl c (cell_le c)]
    rw [show (higherConfig h C).zb0 c = C.zb0 c + h from rfl, wetBedReset_higher]
    rw [add_sub_add_right_eq_sub]
    rfl
  · rfl

theorem eroded_higher (C : Full.Config nx nf) (h t dt : ℝ) (w w' : Hydro.Water) (hw : HigherWater nx h w w') (z z' : ℕ → ℝ) (hz : HigherRow nx h z z') :
    SameEnd (HigherRow nx h) (eroded C t dt w z) (eroded (higherConfig h C) t dt w' z') := by
  unfold eroded
  rw [show (higherConfig h C).dune.process = C.dune.process from rfl]
  split_ifs
  · rw [show (higherConfig h C).water.tideFile = C.water.tideFile.map (higherSeries h) from rfl,
      show (higherConfig h C).water.waveFile = C.water.waveFile from rfl]
    rcases C.water.tideFile with _ | tide
    · rfl
    rcases C.water.waveFile with _ | wave
    · rfl
    dsimp only [Option.map_some]
    rw [C160_series]
    generalize Hydro.series tide t = a
    generalize Hydro.series (wave.map fun x => (x.1, x.2.2)) t = b
    rcases a with e | wl <;> rcases b with e' | Tp
    · rfl
    · rfl
    · rfl
    dsimp only [Except.map]
    have h0 : (0 : ℕ) ≤ nx := Nat.zero_le _
    have hr := C160_erosion h C.dune.par ⟨w.R 0, wl, C.dune.collisions (w.eta 0) wl (w.sigma 0) dt Tp⟩ C.x z z' hz
    rw [hw.R 0 h0, hw.eta 0 h0, hw.sigma 0 h0]
    rw [show (higherConfig h C).dune.collisions (w.eta 0) (wl + h) (w.sigma 0) dt Tp = C.dune.collisions (w.eta 0) wl (w.sigma 0) dt Tp by
      show C.dune.collisions (w.eta 0) (wl + h - h) (w.sigma 0) dt Tp = _
      rw [add_sub_cancel_right]]
    change SameEnd _ _ (match Erosion.row nx { C.dune.par with toe := C.dune.par.toe + h }
      ⟨w.R 0, wl + h, C.dune.collisions (w.eta 0) wl (w.sigma 0) dt Tp⟩ C.x z' with
      | .ok zb => Except.ok (slid (higherConfig h C) zb)
      | .error e => Except.error e)
    revert hr
    dsimp only
    generalize Erosion.row nx C.dune.par ⟨w.R 0, wl, C.dune.collisions (w.eta 0) wl (w.sigma 0) dt Tp⟩ C.x z = a
    generalize Erosion.row nx { C.dune.par with toe := C.dune.par.toe + h } ⟨w.R 0, wl + h, C.dune.collisions (w.eta 0) wl (w.sigma 0) dt Tp⟩ C.x z' = b
    intro hr
    rcases a with e | y <;> rcases b with e' | y'
    · exact hr
    · exact hr.elim
    · exact hr.elim
    · exact fun j hj => slid_higher C h y y' hr j hj
  · exact hz

/-! ### Vegetation -/

theorem denser_row (dx dy : ℕ → ℕ → ℝ) (rho rho' : ℕ → ℝ) (hr : ∀ j, j ≤ nx → rho' j = rho j) (j : ℕ) (hj : j ≤ nx) :
    Veg.denserNeighbours 0 nx (fun _ j => rho' j) dx dy 0 j = Veg.denserNeighbours 0 nx (fun _ j => rho j) dx dy 0 j := by
  unfold Veg.denserNeighbours
  have h1 := hr j hj
  have h2 := hr (j - 1) (by omega)
  by_cases k : j < nx
  · have h3 := hr (j + 1) k
    simp only [h1, h2, h3]
  · simp only [h1, h2, k, false_and, if_false]

theorem dying_higher (h : ℝ) (c : Veg.Config) (e : Veg.Env) (s : Veg.Cell) :
    Veg.dying { c with zmin := c.zmin + h } { e with zb := e.zb + h, zs := e.zs + h } s = Veg.dying c e s := by
  unfold Veg.dying
  dsimp only
  rw [add_right_comm e.zb h]
  simp only [add_le_add_iff_right, add_lt_add_iff_right]

/-! ### A complete step -/

theorem averageChange_change (dt a T l b d : ℝ) : Bed.averageChange dt a T l b (l + d) = Bed.averageChange dt a T 0 b d := by
  unfold Bed.averageChange
  rw [add_sub_cancel_left, sub_zero]

theorem finished_higher (C : Full.Config nx nf) (r : ℕ → ℝ) {h : ℝ} {σ σ' : Full.State nx nf} (L : Higher h σ σ') {s s' : Hydro.HydroState}
    (hs : HigherWater nx h s.water s'.water) (m : Fin (cells nx 0) → Moisture.Cell) (τ : Whole.State nx 0 nf) :
    Higher h (finished C r σ σ.zb s m τ) (finished (higherConfig h C) r σ' σ'.zb s' m (higher h τ)) := by
  have h1 : ∀ j, Bed.averageChange σ'.clock.dt (higherConfig h C).accfac (higherConfig h C).avgTime (σ'.zb j) (σ.dzbavg j)
      (σ'.zb j + col (fun c => ((higher h τ).sand.bed c).dzb) j) =
      Bed.averageChange σ.clock.dt C.accfac C.avgTime (σ.zb j) (σ.dzbavg j) (σ.zb j + col (fun c => (τ.sand.bed c).dzb) j) := by
    intro j
    rw [averageChange_change, averageChange_change, L.clock]
    rfl
  have h2 : (finished (higherConfig h C) r σ' σ'.zb s' m (higher h τ)).dzbavg = (finished C r σ σ.zb s m τ).dzbavg := by
    unfold finished
    simp only [L.dzbavg, h1, L.uw]
  have h3 : (finished (higherConfig h C) r σ' σ'.zb s' m (higher h τ)).dzbveg = (finished C r σ σ.zb s m τ).dzbveg := by
    unfold finished
    simp only [L.dzbavg, h1, L.uw, L.dzbveg]
  refine ⟨?_, L.uw, ?_, ?_, rfl, hs.Hsmix, rfl, ?_, h2, h3⟩
  · unfold finished
    dsimp only
    rw [L.clock]
    rfl
  · unfold finished
    dsimp only
    rw [L.udir]
    rfl
  · unfold finished
    dsimp only
    rw [L.shear]
    rfl
  · intro j hj
    have e : ∀ (C : Full.Config nx nf) σ lzb s τ, (finished C r σ lzb s m τ).veg j = if C.shelter.processVegetation then
        Veg.vegStep { C.shelter.veg with dtOpt := σ.clock.dt } 0 nx C.shelter.dx C.core.ds C.core.dn
          (fun _ j => ⟨col (fun c => (τ.sand.bed c).zb) j, col (fun c => (τ.sand.bed c).zs) j, (finished C r σ lzb s m τ).dzbveg j⟩)
          (fun _ j => r j) (fun _ j => σ.veg j) 0 j else σ.veg j := by
      intro C σ lzb s τ
      unfold finished
      dsimp only
      split_ifs <;> rfl
    rw [e, e, h3, show (higherConfig h C).shelter.processVegetation = C.shelter.processVegetation from rfl, L.clock]
    split_ifs
    · unfold Veg.vegStep Veg.germinate
      dsimp only
      rw [denser_row _ _ (fun j => (σ.veg j).rho) (fun j => (σ'.veg j).rho) (fun j hj => by rw [L.veg j hj]) j hj, L.veg j hj]
      rw [show col (fun c => ((higher h τ).sand.bed c).zb) j = col (fun c => (τ.sand.bed c).zb) j + h from col_higher h _ j hj,
        show col (fun c => ((higher h τ).sand.bed c).zs) j = col (fun c => (τ.sand.bed c).zs) j + h from col_higher h _ j hj]
      unfold Veg.grow
      exact dying_higher h { C.shelter.veg with dtOpt := σ.clock.dt }
        ⟨col (fun c => (τ.sand.bed c).zb) j, col (fun c => (τ.sand.bed c).zs) j, (finished C r σ σ.zb s m τ).dzbveg j⟩ _
    · exact L.veg j hj

/-- Both calls end in the same way, with related results. -/
def SameOutcome {α : Type*} (R : α → α → Prop) : Option (Except PyErr α) → Option (Except PyErr α) → Prop
  | none, none => True
  | some a, some b => SameEnd R a b
  | _, _ => False

/-- **C160** With runup the levels and waves that are in the state before a step do not matter: those of the step are computed from the tide and the waves
(all but the waves for the mixing, if there are no waves). -/
theorem C160_levels_computed (c : Hydro.WaterConfig) (hr : c.processRunup = true) (r : Hydro.Row) (t : ℝ) (w w' : Hydro.Water) (hw : w'.Hsmix = w.Hsmix) :
    Hydro.interpolate c r t w' = Hydro.interpolate c r t w := by
  unfold Hydro.interpolate
  rcases Hydro.stillWater c r t with e | S
  · rfl
  dsimp only
  rcases Hydro.waves c r t S with e | ⟨Hs, Tp⟩
  · rfl
  dsimp only
  have e : ∀ w : Hydro.Water, Hydro.runup c r w = _ := fun w => if_pos hr
  rw [e, e]
  unfold Hydro.mixing
  dsimp only
  rw [hw]

theorem hydro_higher {C : Full.Config nx nf} (hC : NoDatum C) {h : ℝ} {σ σ' : Full.State nx nf} (L : Higher h σ σ') :
    SameEnd (fun s s' => HigherWater nx h s.water s'.water) (Hydro.hydroStep C.water (row C σ) (groundIn C) σ.clock.t σ.clock.dt σ.hydro)
      (Hydro.hydroStep (higherConfig h C).water (row (higherConfig h C) σ') (groundIn (higherConfig h C)) σ.clock.t σ.clock.dt σ'.hydro) := by
  obtain ⟨ts, hts⟩ := Option.ne_none_iff_exists'.mp hC.series
  have hw := C160_water h C.water ts hC.tide hts (row C σ) σ'.zb hC.mask L.zb σ.clock.t σ.hydro.water
    { σ.hydro.water with
      SWL := fun j => σ.hydro.water.SWL j + h, TWL := fun j => σ.hydro.water.TWL j + h, DSWL := fun j => σ.hydro.water.DSWL j + h,
      zs := fun j => σ.hydro.water.zs j + h, Hsmix := σ'.hydro.water.Hsmix }
    ⟨fun _ _ => rfl, fun _ _ => rfl, fun _ _ => rfl, fun _ _ => rfl, fun _ _ => rfl, fun _ _ => rfl, fun _ _ => rfl, fun _ _ => rfl, fun _ _ => rfl, L.mix⟩
  have q := C160_levels_computed { C.water with tideFile := some (higherSeries h ts) } hC.runup { row C σ with zb := σ'.zb } σ.clock.t
    { σ.hydro.water with
      SWL := fun j => σ.hydro.water.SWL j + h, TWL := fun j => σ.hydro.water.TWL j + h, DSWL := fun j => σ.hydro.water.DSWL j + h,
      zs := fun j => σ.hydro.water.zs j + h, Hsmix := σ'.hydro.water.Hsmix } σ'.hydro.water rfl
  have hw := (congrArg (SameEnd (HigherWater nx h) (Hydro.interpolate C.water (row C σ) σ.clock.t σ.hydro.water)) q).mpr hw
  have e : (higherConfig h C).water = { C.water with tideFile := some (higherSeries h ts) } := by
    unfold higherConfig
    rw [hts]
    rfl
  have g : ∀ (D : Full.Config nx nf) r t dt s, D.ground.on = false → Hydro.groundPart D.water r (groundIn D) t dt s = .ok s :=
    fun D r t dt s hg => if_neg (by rw [show (groundIn D).on = D.ground.on from rfl, hg]; decide)
  unfold Hydro.hydroStep
  simp only [g C _ _ _ _ hC.ground, g (higherConfig h C) _ _ _ _ hC.ground]
  rw [e]
  change SameEnd _ _ (match Hydro.interpolate { C.water with tideFile := some (higherSeries h ts) } { row C σ with zb := σ'.zb } σ.clock.t σ'.hydro.water with
    | .error e => Except.error e
    | .ok w => Except.ok { σ'.hydro with water := w })
  revert hw
  generalize Hydro.interpolate C.water (row C σ) σ.clock.t σ.hydro.water = a
  generalize Hydro.interpolate { C.water with tideFile := some (higherSeries h ts) } { row C σ with zb := σ'.zb } σ.clock.t σ'.hydro.water = b
  intro hw
  rcases a with e | w <;> rcases b with e' | w'
  · exact hw
  · exact hw.elim
  · exact hw.elim
  · exact hw

theorem env_higher {C : Full.Config nx nf} {h : ℝ} {σ σ' : Full.State nx nf} (L : Higher h σ σ') (now : Now) (u0 u : ℕ → Wind.Shear) (dt : ℝ)
    {s s' : Hydro.HydroState} (hs : HigherWater nx h s.water s'.water) (m : Fin (cells nx 0) → Moisture.Cell) :
    HigherEnv h (envWith C σ now u0 u dt s m fun _ _ => ⟨0, 0, 0⟩) (envWith (higherConfig h C) σ' now u0 u dt s' m fun _ _ => ⟨0, 0, 0⟩) := by
  refine ⟨?_, fun l c => levels_higher C h dt _ σ.zb σ'.zb L.zb l c⟩
  unfold envWith
  dsimp only
  rw [L.clock, show (fun c : Fin (cells nx 0) => s'.water.zs c) = fun c : Fin (cells nx 0) => s.water.zs c + h from
      funext fun c => hs.zs c (cell_le c),
    show (fun c : Fin (cells nx 0) => s'.water.Hsmix c) = fun c : Fin (cells nx 0) => s.water.Hsmix c from
      funext fun c => hs.Hsmix c (cell_le c)]
  rfl

/-- After a step the water levels are raised as well. -/
structure Raised (h : ℝ) (σ σ' : Full.State nx nf) : Prop extends Higher h σ σ' where
  all : σ'.core = higher h σ.core
  water : HigherWater nx h σ.hydro.water σ'.hydro.water

theorem execute_higher (sp : LinSolve nx 0) {C : Full.Config nx nf} (hC : NoDatum C) {h : ℝ} (r : ℕ → ℝ) (now : Now) (u0 : ℕ → Wind.Shear)
    {σ σ' : Full.State nx nf} (L : Higher h σ σ') :
    SameOutcome (Raised h) (execute sp C r now u0 σ) (execute sp (higherConfig h C) r now u0 σ') := by
  have hE : ∀ (D : Full.Config nx nf) ρ u dt s m z, D.core.tr.methodGrainspeed ≠ "duran" →
      env D ρ now u0 u dt s m z = some (envWith D ρ now u0 u dt s m fun _ _ => ⟨0, 0, 0⟩) :=
    fun D ρ u dt s m z hD => if_neg fun k => hD k.1
  unfold execute
  rw [L.clock, L.shear, show meteoAt (higherConfig h C) = meteoAt C from rfl, show (higherConfig h C).ground = C.ground from rfl]
  rcases meteoAt C (Hydro.lastTime C.ground σ.clock.t σ.clock.dt) with e | met
  · rfl
  dsimp only
  have hH := hydro_higher hC L
  revert hH
  generalize Hydro.hydroStep C.water (row C σ) (groundIn C) σ.clock.t σ.clock.dt σ.hydro = a
  generalize Hydro.hydroStep (higherConfig h C).water (row (higherConfig h C) σ') (groundIn (higherConfig h C)) σ.clock.t σ.clock.dt σ'.hydro = b
  intro hH
  rcases a with e | s <;> rcases b with e' | s'
  · exact hH
  · exact hH.elim
  · exact hH.elim
  dsimp only
  rw [moistures_higher hC L _ _ _ _ hH]
  rcases moistures C σ σ.clock.t σ.clock.dt now.uw met s with _ | (e | m)
  · trivial
  · rfl
  dsimp only
  rw [hE C _ _ _ _ _ _ hC.speed, hE (higherConfig h C) _ _ _ _ _ _ hC.speed]
  dsimp only
  have hcore : ∀ E : Env nx 0 nf, Whole.step sp C.core E σ'.core = Whole.step sp C.core E (higher h σ.core) := by
    intro E
    have e1 : ∀ τ : Whole.State nx 0 nf, Whole.step sp C.core E τ = Whole.step sp C.core E (atLevel (fun _ => 0) τ) := fun _ => rfl
    rw [e1, L.core, ← e1]
  rw [show (higherConfig h C).core = C.core from rfl, hcore, C160_step sp C.core h _ _ (env_higher L now u0 σ.shear σ.clock.dt hH m)]
  rcases Whole.step sp C.core (envWith C σ now u0 σ.shear σ.clock.dt s m fun _ _ => ⟨0, 0, 0⟩) σ.core with _ | (e | τ)
  · trivial
  · rfl
  dsimp only [Option.map_some, Except.map]
  have hR := eroded_higher C h σ.clock.t σ.clock.dt s.water s'.water hH (col fun c => (τ.sand.bed c).zb)
    (col fun c => ((higher h τ).sand.bed c).zb) (col_higher h _)
  revert hR
  generalize eroded C σ.clock.t σ.clock.dt s.water (col fun c => (τ.sand.bed c).zb) = a
  generalize eroded (higherConfig h C) σ.clock.t σ.clock.dt s'.water (col fun c => ((higher h τ).sand.bed c).zb) = b
  intro hR
  rcases a with e | z <;> rcases b with e' | z'
  · exact hR
  · exact hR.elim
  · exact hR.elim
  have e : withLevels (higher h τ) z' = higher h (withLevels τ z) := by
    unfold withLevels higher
    dsimp only
    congr 2
    funext c
    unfold higherCell
    dsimp only
    rw [hR c (cell_le c)]
  dsimp only
  rw [e]
  exact ⟨finished_higher C r L hH m (withLevels τ z), rfl, hH⟩

/-- **C160** A call of the time loop on a transect: with the bed, the tide and all other levels raised by the same height, the call ends in the same
way; thresholds, transport, sand, moisture and vegetation are the same, bed and water levels are raised by that height. -/
theorem C160_update (sp : LinSolve nx 0) (C : Full.Config nx nf) (hC : NoDatum C) (h : ℝ) (r : ℕ → ℝ) (dt : ℝ) (σ σ' : Full.State nx nf)
    (L : Higher h σ σ') : SameOutcome (fun a b => Higher h a.1 b.1 ∧ b.2 = a.2 ∧ (a.2 = true → Raised h a.1 b.1)) (Full.update sp C r dt σ) (Full.update sp (higherConfig h C) r dt σ') := by
  have h1 : windNow (higherConfig h C) σ' = windNow C σ := by
    unfold windNow
    rw [L.clock, L.uw, L.udir]
    rfl
  have h2 : ∀ u, roughnesses (higherConfig h C) σ' u = roughnesses C σ u := by
    intro u
    unfold roughnesses rough
    simp only [L.mass]
    rfl
  unfold Full.update
  rw [h1]
  rcases windNow C σ with e | w
  · rfl
  dsimp only
  rw [h2]
  rcases roughnesses C σ w.1 with _ | (e | z0)
  · trivial
  · rfl
  dsimp only
  have hs0 : shear0 (higherConfig h C) σ' w z0 = shear0 C σ w z0 := by
    funext j
    unfold shear0
    rw [L.shear]
    rfl
  have hp : Higher h (prepared C σ w z0) (prepared (higherConfig h C) σ' w z0) := by
    refine ⟨?_, rfl, rfl, shearNow_higher hC L w z0, L.core, L.mix, L.moist, L.veg, L.dzbavg, L.dzbveg⟩
    unfold prepared
    dsimp only
    rw [L.clock]
  have hg : tsGrids (higherConfig h C) (prepared (higherConfig h C) σ' w z0) (windComponents (higherConfig h C) w) =
      tsGrids C (prepared C σ w z0) (windComponents C w) := by
    unfold tsGrids
    rw [show (fun c => ((prepared (higherConfig h C) σ' w z0).core.sand.bed c).dzb) = fun c => ((prepared C σ w z0).core.sand.bed c).dzb from
      funext fun c => hp.dzb c]
    rfl
  rw [hg, hp.clock, hs0, show (higherConfig h C).ts = C.ts from rfl, show windComponents (higherConfig h C) w = windComponents C w from rfl]
  generalize setTimestep C.ts (tsGrids C (prepared C σ w z0) (windComponents C w)) (prepared C σ w z0).clock dt = k
  have hk : Higher h { prepared C σ w z0 with clock := k.1 } { prepared (higherConfig h C) σ' w z0 with clock := k.1 } :=
    ⟨rfl, hp.uw, hp.udir, hp.shear, hp.core, hp.mix, hp.moist, hp.veg, hp.dzbavg, hp.dzbveg⟩
  split_ifs
  · have hX := execute_higher sp hC r (windComponents C w) (shear0 C σ w z0) hk
    revert hX
    generalize execute sp C r (windComponents C w) (shear0 C σ w z0) { prepared C σ w z0 with clock := k.1 } = a
    generalize execute sp (higherConfig h C) r (windComponents C w) (shear0 C σ w z0) { prepared (higherConfig h C) σ' w z0 with clock := k.1 } = b
    intro hX
    rcases a with _ | (e | τ) <;> rcases b with _ | (e' | τ')
    · trivial
    · exact hX.elim
    · exact hX.elim
    · exact hX.elim
    · exact hX
    · exact hX.elim
    · exact hX.elim
    · exact hX.elim
    · exact ⟨hX.toHigher, rfl, fun _ => hX⟩
  · exact ⟨hk, rfl, fun q => by cases q⟩

/-- **C160** A run on a transect, whatever the calls. -/
theorem C160_run (sp : LinSolve nx 0) (C : Full.Config nx nf) (hC : NoDatum C) (h : ℝ) (calls : List ((ℕ → ℝ) × ℝ)) (σ σ' : Full.State nx nf)
    (L : Higher h σ σ') : SameOutcome (Higher h) (Full.run sp C calls σ) (Full.run sp (higherConfig h C) calls σ') := by
  induction calls generalizing σ σ' with
  | nil => exact L
  | cons x xs ih =>
    unfold Full.run
    have hX := C160_update sp C hC h x.1 x.2 σ σ' L
    revert hX
    generalize Full.update sp C x.1 x.2 σ = a
    generalize Full.update sp (higherConfig h C) x.1 x.2 σ' = b
    intro hX
    rcases a with _ | (e | ⟨τ, k⟩) <;> rcases b with _ | (e' | ⟨τ', k'⟩)
    · trivial
    · exact hX.elim
    · exact hX.elim
    · exact hX.elim
    · exact hX
    · exact hX.elim
    · exact hX.elim
    · exact hX.elim
    · exact ih τ τ' hX.1

/-- **C160** Fences do depend on the datum: one metre of fence on a bed two metres below datum is taken away, at datum it stands. -/
theorem C160_fence_depends : ∃ (h zb : ℝ) (f : Lee.Fence), (Lee.fenceUpdate zb f).height = 0 ∧
    (Lee.fenceUpdate (zb + h) { f with top := f.top + h }).height = 1 := by
  refine ⟨2, -2, ⟨1, 1, -1⟩, ?_, ?_⟩ <;> norm_num [Lee.fenceUpdate]

/-- **C160** Groundwater does depend on the datum, also with the bottom of the aquifer at the same place: the rate of change of the level differs. -/
theorem C160_groundwater_depends : ∃ (h D : ℚ) (gw : ℕ → ℚ), Ground.rate ⟨0, 1, 1, D - h, 0, false⟩ 7 1 (fun _ => 1) (fun j => gw j + h) 3 ≠
    Ground.rate ⟨0, 1, 1, D, 0, false⟩ 7 1 (fun _ => 1) gw 3 := by
  refine ⟨1, 10, fun j => (j : ℚ) ^ 2, ?_⟩
  norm_num [Ground.rate, Ground.flux]

/-! ### Example -/

/-- The coast with shear over the topography, vegetation, avalanches and dune erosion, without flow separation and fences. -/
noncomputable def openCoast : Full.Config 2 1 :=
  { coastConfig 20 true with
    wind := { (coastConfig 20 true).wind with processSeparation := false }
    shelter := { (coastConfig 20 true).shelter with processFences := false } }

theorem openCoast_usable : Usable openCoast :=
  let h := coast_usable 20 true
  ⟨h.core, h.grid, h.speed, h.on, h.kappa, h.rough, h.weights, h.mask, h.step⟩

theorem openCoast_files : FilesOk openCoast :=
  let h := coast_files 20 true
  ⟨⟨h.wind, h.tide, h.wave, h.moist, h.salt, h.meteo, h.dune⟩, h.ground⟩

theorem openCoast_noDatum : NoDatum openCoast :=
  ⟨rfl, by simp [openCoast, coastConfig], rfl, fun _ _ => rfl, rfl, rfl, rfl, fun _ => by
    show lower "infiltration" ≠ "surf_moisture"
    decide, by
    show duneConfig.tr.methodGrainspeed ≠ "duran"
    rw [show duneConfig.tr.methodGrainspeed = "windspeed" from rfl]
    decide⟩

/-! ### From the files -/

/-- The files with a raised bed. -/
def higherFiles (h : ℝ) (F : Program.Files nx nf) : Program.Files nx nf := { F with bed := fun j => F.bed j + h }

open Classical in
/-- **C160** Files with a raised bed give the raised state at the start. -/
theorem C160_initialise (C : Full.Config nx nf) (F : Program.Files nx nf) (t h : ℝ) :
    SameEnd (fun a b => b.1 = higherConfig h a.1 ∧ Higher h a.2 b.2) (Program.initialise C F t)
      (Program.initialise (higherConfig h C) (higherFiles h F) t) := by
  unfold Program.initialise
  rw [show Program.composition (higherConfig h C) (higherFiles h F) = Program.composition C F from rfl,
    show Program.directions (higherConfig h C) (higherFiles h F) = Program.directions C F from rfl]
  change SameEnd _ _ (match Grid.initGrid 0 nx (fun _ j => C.x j) (fun _ _ => 0) with
    | .error e => Except.error e
    | .ok m => _)
  rcases Grid.initGrid 0 nx (fun _ j => C.x j) (fun _ _ => 0) with e | m
  · exact rfl
  dsimp only
  rcases Program.composition C F with e | mass
  · exact rfl
  dsimp only
  rcases Program.directions C F with e | wind
  · exact rfl
  dsimp only
  change SameEnd _ _ (match collect fun c => Wind.roughness C.wind.methodRoughness (rough (Program.configured C F m wind) (Program.started C F t mass) 0 c) with
    | .error e => Except.error e
    | .ok _ => _)
  rcases collect fun c => Wind.roughness C.wind.methodRoughness (rough (Program.configured C F m wind) (Program.started C F t mass) 0 c) with e | z
  · exact rfl
  · exact ⟨rfl, rfl, rfl, rfl, rfl, rfl, fun _ _ => rfl, rfl, fun _ _ => rfl, rfl, rfl⟩

theorem noDatum_configured {C : Full.Config nx nf} (hC : NoDatum C) (F : Program.Files nx nf) (m : Grid.Metrics) (wind : Option (List Wind.Record)) :
    NoDatum (Program.configured C F m wind) :=
  ⟨hC.tide, hC.series, hC.runup, hC.mask, hC.separation, hC.fences, hC.ground, hC.moist, hC.speed⟩

theorem initialise_noDatum {C : Full.Config nx nf} (hC : NoDatum C) (F : Program.Files nx nf) (t : ℝ) {a} (ha : Program.initialise C F t = .ok a) :
    NoDatum a.1 := by
  unfold Program.initialise at ha
  split at ha
  · cases ha
  split at ha
  · cases ha
  split at ha
  · cases ha
  dsimp only at ha
  split at ha
  · cases ha
  cases ha
  exact noDatum_configured hC F _ _

open Classical in
/-- **C160** A model started from files with raised bed and tide: any number of calls gives the raised state, or the same error. -/
theorem C160_from_files (sp : LinSolve nx 0) (C : Full.Config nx nf) (hC : NoDatum C) (F : Program.Files nx nf) (t h : ℝ)
    (calls : List ((ℕ → ℝ) × ℝ)) :
    SameOutcome (Higher h)
      (match Program.initialise C F t with
        | .error e => some (.error e)
        | .ok a => Full.run sp a.1 calls a.2)
      (match Program.initialise (higherConfig h C) (higherFiles h F) t with
        | .error e => some (.error e)
        | .ok a => Full.run sp a.1 calls a.2) := by
  have hX := C160_initialise C F t h
  have hN := @initialise_noDatum nx nf C hC F t
  revert hX hN
  generalize Program.initialise C F t = a
  generalize Program.initialise (higherConfig h C) (higherFiles h F) t = b
  intro hX hN
  rcases a with e | a <;> rcases b with e' | b
  · exact hX
  · exact hX.elim
  · exact hX.elim
  · obtain ⟨h1, h2⟩ := hX
    dsimp only
    rw [h1]
    exact C160_run sp a.1 (hN rfl) h calls a.2 b.2 h2

/-- A coast at the Dead Sea: all runs return, and the bed is the same but for the height. -/
example (calls : List ((ℕ → ℝ) × ℝ)) : ∃ τ τ', Full.run byInverse openCoast calls coastState = some (.ok τ) ∧
    Full.run byInverse (higherConfig (-430) openCoast) calls { coastState with core := higher (-430) (duneState 2 0) } = some (.ok τ') ∧
      ∀ c, (τ'.core.sand.bed c).zb = (τ.core.sand.bed c).zb + -430 ∧ (τ'.core.sand.bed c).mass = (τ.core.sand.bed c).mass := by
  have L : Higher (-430) coastState { coastState with core := higher (-430) (duneState 2 0) } :=
    ⟨rfl, rfl, rfl, rfl, rfl, fun _ _ => rfl, rfl, fun _ _ => rfl, rfl, rfl⟩
  obtain ⟨τ, hτ⟩ := C133_run_total byInverse openCoast openCoast_usable duneConfig_names openCoast_files calls coastState fun _ _ => le_rfl
  have hX := C160_run byInverse openCoast openCoast_noDatum (-430) calls _ _ L
  rw [hτ] at hX
  revert hX
  generalize Full.run byInverse (higherConfig (-430) openCoast) calls { coastState with core := higher (-430) (duneState 2 0) } = b
  intro hX
  rcases b with _ | (e | τ')
  · exact hX.elim
  · exact hX.elim
  · exact ⟨τ, τ', hτ, rfl, fun c => ⟨Higher.level hX c, Higher.mass hX c⟩⟩

end Aeolis.Props
