import Verif.Props.PlanarBudget
import Verif.Props.PlanarWater
import Verif.Props.PlanarRange
import Verif.Props.PlanarSlopes

/-!
Concrete cases for C140 to C145: a beach of three by three cells with wind from the southwest to the west.
-/

set_option linter.unusedSectionVars false

namespace Aeolis.Props

open Finset Aeolis.Spec Aeolis.Sand Aeolis.Solver Aeolis.Whole Aeolis.Planar

/-- Three by three cells with tide, waves, drying sand, vegetation and wind that turns from west to southwest; on request with dunes, that is
with shear over the topography, fences, avalanches and dune erosion by waves. -/
noncomputable def bayConfig (umax : ℝ) (dunes : Bool) : Planar.Config 2 2 1 where
  core := duneConfig
  wind := ⟨true, some [(0, 0, 270), (3600, umax, 270), (7200, umax, 225)], 0, 0.41, 10, 0.001, 2650, 1.225, 9.81, "constant", dunes, false, 0.2, 0.1⟩
  shearModule := ⟨1, 1, 10, ⟨100, 10, fun _ z => z⟩, .scalar 0.001⟩
  sepIterations := 4
  sepWeights := none
  shelter := ⟨dunes, 4.8, 0.3, true, 16, fun _ _ => 1 / 9, ⟨true, true, 5, 1, 0, 1, 3600, 3600, 1, 1, 1, 0.5, 0, 0.05, 0.2⟩, 1⟩
  ts := ⟨3600, false, 1, 999⟩
  accfac := 1
  alpha := 0
  g := fun i j => (j, i)
  water := ⟨true, true, true, some [(0, -1), (21600, 1)], some [(0, 1, 6), (86400, 2, 8)], 0.5, 0.1⟩
  tideMask := fun _ _ => (1, 0)
  waveMask := fun _ _ => (1, 0)
  runupMask := none
  moist := ⟨true, false, false, "infiltration", 0.4, 0.001, 5400, 86400, 0.1, 0.02, 0.02, 0.4, 0.4, 0.01, 0.01, 2, 2, 2, 2, 0.5, 0.5, 0.001, 10⟩
  meteoFile := none
  ground := ⟨false, ⟨0, 1, 1, 10, 1, true⟩, "no_flow", 3, 10, 0, 0, fun _ => 1, fun _ => (1, 0), fun j => j⟩
  gwMask := fun _ _ => (1, 0)
  thresholdMask := fun _ => (1, 0)
  zne := fun _ _ => some (-10)
  ava := ⟨dunes, 2, 2, fun _ _ => 1, fun _ _ => 1, fun _ _ => none, 34, 33, 1000⟩
  wetReset := false
  Tbedreset := 86400
  zb0 := fun _ => 1
  avgTime := 86400
  dune := ⟨dunes, ⟨3, 0.1, 1e-4⟩, fun _ _ _ _ _ => 1⟩
  duran := fun _ => ⟨1.5e-5, 9.81, 2650, 1.225, 0.085, 0.41, 0.000225⟩

theorem bayGrid : GridOk 2 2 duneConfig where
  columns := le_rfl
  rows := by norm_num
  ds := fun _ _ _ _ => zero_le_one
  dn := fun _ _ _ _ => zero_le_one
  dsdni := fun _ _ _ _ => zero_le_one
  cells := fun _ _ _ _ _ => rfl

theorem bay_usable (umax : ℝ) (dunes : Bool) : PlanarUsable (bayConfig umax dunes) where
  core := duneConfig_ok
  grid := bayGrid
  rows := le_rfl
  speed := rfl
  kappa := by norm_num [bayConfig]
  rough := ⟨0.001, Or.inl ⟨rfl, rfl⟩, by norm_num, by norm_num [bayConfig]⟩
  weights := fun _ _ => by norm_num [bayConfig]
  mask := fun _ => by norm_num [bayConfig]
  step := ⟨rfl, by norm_num [bayConfig], rfl⟩

theorem bay_files (umax : ℝ) (dunes : Bool) : PlanarFiles (bayConfig umax dunes) where
  wind := fun file h => by
    obtain rfl := Option.some.inj h
    exact ⟨by simp, by norm_num⟩
  tide := fun ts h => by
    obtain rfl := Option.some.inj h
    unfold Increasing
    exact ⟨by simp, by norm_num⟩
  wave := fun ts h => by
    obtain rfl := Option.some.inj h
    exact ⟨by simp, by norm_num⟩
  moist := fun _ => Or.inl (by show lower "infiltration" = "infiltration"; decide)
  salt := fun h => by cases h
  meteo := fun rows h => by cases h
  dune := fun _ => ⟨by simp [bayConfig], by simp [bayConfig]⟩
  bubbles := fun _ => rfl
  ground := rfl

theorem bay_sector (umax : ℝ) (hu : 0 ≤ umax) (dunes : Bool) : FromSector (bayConfig umax dunes) := by
  have hp := Real.pi_pos
  have west : Real.sin ((270 - 0 + 0) / 180 * Real.pi) < 0 ∧ Real.cos ((270 - 0 + 0) / 180 * Real.pi) ≤ 0 := by
    rw [show (270 - 0 + 0) / 180 * Real.pi = Real.pi / 2 + Real.pi by ring, Real.sin_add_pi, Real.cos_add_pi, Real.sin_pi_div_two,
      Real.cos_pi_div_two]
    norm_num
  have southwest : Real.sin ((225 - 0 + 0) / 180 * Real.pi) < 0 ∧ Real.cos ((225 - 0 + 0) / 180 * Real.pi) ≤ 0 := by
    rw [show (225 - 0 + 0) / 180 * Real.pi = Real.pi / 4 + Real.pi by ring, Real.sin_add_pi, Real.cos_add_pi]
    exact ⟨neg_lt_zero.mpr (Real.sin_pos_of_pos_of_lt_pi (by positivity) (by linarith)),
      neg_nonpos.mpr (Real.cos_nonneg_of_mem_Icc ⟨by linarith, by linarith⟩)⟩
  refine ⟨rfl, _, rfl, fun r hr => ?_⟩
  simp only [List.mem_cons, List.not_mem_nil, or_false] at hr
  rcases hr with rfl | rfl | rfl
  exacts [⟨le_rfl, west⟩, ⟨hu, west⟩, ⟨hu, southwest⟩]

/-- A flat dry bed and clear air, with any vegetation and fences. -/
noncomputable def bayState (veg : ℕ → ℕ → Veg.Cell) (fence : Fin (cells 2 2) → Lee.Fence) : Planar.State 2 2 1 where
  clock := ⟨0, 3600, 3600⟩
  uw := 0
  udir := 0
  shear := fun _ => ⟨0, 0, 0, 0, 0, 0⟩
  core := duneState 2 2
  hydro := fun _ => ⟨⟨fun _ => 0, fun _ => 0, fun _ => 0, fun _ => 0, fun _ => 0, fun _ => 0, fun _ => 0, fun _ => 0, fun _ => 0, fun _ => 0⟩,
    fun _ => 0, fun _ => 0, fun _ => false⟩
  moist := fun _ => ⟨0, 0, 0, false, false, 0, 0, 0, 0, 0, 0, 0⟩
  veg := veg
  fence := fence
  hsep := fun _ => 0
  zsep := fun _ => 0
  dzbavg := fun _ => 0
  dzbveg := fun _ => 0

variable (veg : ℕ → ℕ → Veg.Cell) (fence : Fin (cells 2 2) → Lee.Fence) (calls : List ((ℕ → ℕ → ℝ) × ℝ))

/-- C140: with all processes, whatever the calls. -/
example : ∃ τ, Planar.run byInverse (bayConfig 20 true) calls (bayState veg fence) = some (.ok τ) :=
  C140_run_total byInverse _ (bay_usable 20 true) duneConfig_names (bay_files 20 true) (bay_sector 20 (by norm_num) true) calls _
    fun _ _ => le_rfl

/-- C140: the first call, an hour. -/
example (r : ℕ → ℕ → ℝ) : ∃ τ E, Planar.update byInverse (bayConfig 20 true) r 3600 (bayState veg fence) = some (.ok (τ, true)) ∧
    PlanarStep (bayConfig 20 true) 0 3600 E ∧ PlanarForcing (bayConfig 20 true) r (bayState veg fence) τ E ∧ Ahead E ∧ τ.clock.t = 3600 := by
  obtain ⟨τ, b, h, -⟩ := C140_total byInverse _ (bay_usable 20 true) duneConfig_names (bay_files 20 true) (bay_sector 20 (by norm_num) true) r
    3600 (bayState veg fence) fun _ _ => le_rfl
  obtain ⟨hb, -, hbt, -⟩ := C140_step byInverse _ (bay_usable 20 true) r 3600 _ τ b h
  have hb : b = true := by
    cases b with
    | true => rfl
    | false => exact absurd (hb.mp rfl) (by norm_num)
  subst hb
  obtain ⟨E, hS, hF, ht, -⟩ := hbt rfl
  refine ⟨τ, E, h, hS, hF, C140_sector _ (bay_files 20 true).toPlanarSeries (bay_sector 20 (by norm_num) true) _ _ E hS, ?_⟩
  rw [ht, hS.time.2]
  norm_num [bayState, bayConfig]

theorem bay_sheltering (umax : ℝ) : PlanarSheltering (bayConfig umax false) where
  shear := rfl
  fences := rfl
  plants := fun _ => ⟨by norm_num [bayConfig], fun _ _ => by norm_num [bayConfig], fun _ => by simp [bayConfig, cells]⟩

/-- C141: a breeze of 3 m/s, with any plants. -/
example (hveg : ∀ i j, 0 ≤ (veg i j).rho) : ∃ τ, Planar.run byInverse (bayConfig 3 false) calls (bayState veg fence) = some (.ok τ) ∧
    Still 3 (bayState veg fence).core τ.core := by
  refine C141_breeze byInverse byInverse_exact _ (bay_usable 3 false) duneConfig_names (bay_files 3 false) (bay_sector 3 (by norm_num) false)
    ⟨⟨fun _ => rfl, fun _ => rfl⟩, fun _ => rfl, fun _ => rfl⟩ (by norm_num [bayConfig, duneConfig, exThreshold]) rfl ⟨rfl, rfl, rfl⟩
    (bay_sheltering 3) (fun _ => le_rfl) 3 0.001 ⟨rfl, _, rfl, by norm_num⟩ (Or.inl ⟨rfl, rfl⟩) (fun f => ?_) calls _
    (fun _ _ _ _ => by norm_num [bayState, duneState]) (fun _ _ => le_rfl) (fun _ _ => rfl) (fun _ => zero_le_one) hveg
  show (3 : ℝ) * |0.41 / Real.log (10 / 0.001)| ≤ grainThreshold duneConfig f
  rw [abs_of_nonneg coast_ratio.1]
  exact le_trans (by linarith [coast_ratio.2]) (coast_grains f)

theorem bay_bound : planarBagnold (bayConfig 20 false) 0.001 20 ≤ 0.01 := coast_bound

theorem bay_thick (dt : ℝ) (h : dt ≤ 3600) :
    planarBagnold (bayConfig 20 false) 0.001 20 / (bayConfig 20 false).core.T * (if 0 < dt then dt else (bayConfig 20 false).ts.dt) < 159 :=
  coast_thick dt h

theorem bay_air (c : Fin (cells 2 2)) (f : Fin 1) : (bayState veg fence).core.sand.Ct c f ≤ planarBagnold (bayConfig 20 false) 0.001 20 :=
  coast_air ⟨0, by simp [cells]⟩ f

/-- C141: storms of up to 20 m/s with time steps of up to an hour, with any plants. -/
example (hveg : ∀ i j, 0 ≤ (veg i j).rho) (h : ∀ x ∈ calls, x.2 ≤ 3600) :
    ∃ τ, Planar.run byInverse (bayConfig 20 false) calls (bayState veg fence) = some (.ok τ) ∧ Sound 3 159 τ.core ∧
      ∀ c f, τ.core.sand.Ct c f ≤ 0.01 := by
  obtain ⟨τ, hτ, hs, hc⟩ := C141_storm byInverse byInverse_exact (bayConfig 20 false) (bay_usable 20 false) duneConfig_names
    (bay_files 20 false) (bay_sector 20 (by norm_num) false) rfl ⟨⟨fun _ => zero_le_one, fun _ => rfl⟩, fun _ => zero_le_one, fun _ => rfl⟩
    (bay_sheltering 20) rfl 20 0.001 ⟨rfl, _, rfl, by norm_num⟩ (Or.inl ⟨rfl, rfl⟩) (by norm_num [bayConfig]) 159 (by norm_num) calls
    (fun x hx => copes_one (bay_thick x.2 (h x hx))) (bayState veg fence) (duneState_sound 2 2) (bay_air veg fence) (fun _ => zero_le_one) hveg
  exact ⟨τ, hτ, hs, fun c f => (hc c f).trans bay_bound⟩

/-- The bay with avalanches, without dune erosion. -/
noncomputable def slidingConfig : Planar.Config 2 2 1 :=
  { bayConfig 20 false with ava := ⟨true, 2, 2, fun _ _ => 1, fun _ _ => 1, fun _ _ => none, 34, 33, 1000⟩ }

theorem sliding_usable : PlanarUsable slidingConfig :=
  let h := bay_usable 20 false
  ⟨h.core, h.grid, h.rows, h.speed, h.kappa, h.rough, h.weights, h.mask, h.step⟩

theorem sliding_files : PlanarFiles slidingConfig :=
  let h := bay_files 20 false
  ⟨⟨h.wind, h.tide, h.wave, h.moist, h.salt, h.meteo, h.dune, h.bubbles⟩, rfl⟩

theorem bay_balance : BalanceOk 2 2 duneConfig :=
  ⟨rfl, fun _ _ _ _ => by norm_num [duneConfig], fun _ _ _ _ => rfl, rfl, rfl, by norm_num [duneConfig]⟩

theorem bay_area : duneConfig.setup.bed.maxError * (1 : ℕ) * innerArea 2 2 duneConfig = 3e-6 := by
  unfold innerArea
  norm_num [duneConfig, sum_range_succ]

/-- C142: storms of up to 20 m/s with avalanches. -/
example (hveg : ∀ i j, 0 ≤ (veg i j).rho) (h : ∀ x ∈ calls, x.2 ≤ 3600) :
    ∃ τ, Planar.run byInverse slidingConfig calls (bayState veg fence) = some (.ok τ) ∧
      sandMass duneConfig τ.core ≤ sandMass duneConfig (duneState 2 2) + calls.length * 3e-6 := by
  obtain ⟨τ, h1, h2⟩ := C142_not_created byInverse byInverse_exact slidingConfig sliding_usable duneConfig_names sliding_files
    (bay_sector 20 (by norm_num) false) bay_balance ⟨fun _ _ _ _ => rfl, fun _ _ => rfl⟩
    ⟨⟨fun _ => rfl, fun _ => rfl⟩, fun _ => rfl, fun _ => rfl⟩ (let h := bay_sheltering 20; ⟨h.shear, h.fences, h.plants⟩) ⟨rfl, rfl⟩ 1
    zero_le_one (fun _ _ _ _ => by norm_num [slidingConfig, bayConfig, duneConfig]) rfl 20 0.001
    ⟨rfl, _, rfl, by norm_num⟩ (Or.inl ⟨rfl, rfl⟩) (by norm_num [slidingConfig, bayConfig]) 159 (by norm_num) calls
    (fun x hx => copes_one (bay_thick x.2 (h x hx))) (bayState veg fence) (duneState_sound 2 2) (bay_air veg fence) (fun _ => zero_le_one) hveg
  have h2 : sandMass duneConfig τ.core ≤ sandMass duneConfig (duneState 2 2) +
      calls.length * (duneConfig.setup.bed.maxError * (1 : ℕ) * innerArea 2 2 duneConfig) := h2
  rw [bay_area] at h2
  exact ⟨τ, h1, h2⟩

/-- C142: every call. -/
example (hveg : ∀ i j, 0 ≤ (veg i j).rho) (r : ℕ → ℕ → ℝ) (dt : ℝ) (h : dt ≤ 3600) (h' : -1 ≤ dt) :
    ∃ τ b E, Planar.update byInverse (bayConfig 20 false) r dt (bayState veg fence) = some (.ok (τ, b)) ∧ PlanarStep (bayConfig 20 false) 0 dt E ∧
      sandMass duneConfig (duneState 2 2) + throughput duneConfig E τ.core ≤ sandMass duneConfig τ.core := by
  obtain ⟨τ, b, hu, -⟩ := C140_total byInverse (bayConfig 20 false) (bay_usable 20 false) duneConfig_names (bay_files 20 false)
    (bay_sector 20 (by norm_num) false) r dt (bayState veg fence) fun _ _ => le_rfl
  obtain ⟨E, hS, h0, -⟩ := C142_call byInverse byInverse_exact (bayConfig 20 false) (bay_usable 20 false) (bay_files 20 false).toPlanarSeries
    (bay_sector 20 (by norm_num) false) bay_balance ⟨fun _ _ _ _ => rfl, fun _ _ => rfl⟩
    ⟨⟨fun _ => zero_le_one, fun _ => rfl⟩, fun _ => zero_le_one, fun _ => rfl⟩ (bay_sheltering 20) ⟨rfl, rfl, rfl⟩ rfl 20 0.001
    ⟨rfl, _, rfl, by norm_num⟩ (Or.inl ⟨rfl, rfl⟩) (by norm_num [bayConfig]) 159 (by norm_num) r dt (copes_one (bay_thick dt h)) h' (bayState veg fence) τ b
    (duneState_sound 2 2) (bay_air veg fence) (fun _ => zero_le_one) hveg hu
  have h0 : 0 ≤ sandMass duneConfig τ.core - sandMass duneConfig (duneState 2 2) - throughput duneConfig E τ.core := h0
  exact ⟨τ, b, E, hu, hS, by linarith⟩

/-- C143: the bay at high tide: the cells lie a metre above mean sea level, the tide reaches 3 m with a mask that triples it. -/
example (r : ℕ → ℕ → ℝ) (dt : ℝ) (σ τ : Planar.State 2 2 1) (b : Bool) (hσ : Sound 3 159 σ.core) (ht : σ.clock.t = 21600)
    (h : Planar.update byInverse { bayConfig 20 false with tideMask := fun _ _ => (3, 0) } r dt σ = some (.ok (τ, b))) (c : Fin (cells 2 2))
    (hz : (σ.core.sand.bed c).zb = 1) : 1 ≤ (τ.core.sand.bed c).zb := by
  have hu := bay_usable 20 false
  have hf := bay_files 20 false
  rw [← hz]
  refine C143_flooded byInverse byInverse_exact { bayConfig 20 false with tideMask := fun _ _ => (3, 0) }
    ⟨hu.core, hu.grid, hu.rows, hu.speed, hu.kappa, hu.rough, hu.weights, hu.mask, hu.step⟩
    ⟨hf.wind, hf.tide, hf.wave, hf.moist, hf.salt, hf.meteo, hf.dune, hf.bubbles⟩ (bay_sector 20 (by norm_num) false)
    (fun h => by cases h) ⟨rfl, rfl, rfl⟩
    (.moisture 0.4 rfl rfl rfl rfl (Or.inl ⟨by show lower "infiltration" = "infiltration"; decide, by norm_num [bayConfig], rfl⟩)
      (by norm_num [waterRatio, bayConfig, duneConfig, exThreshold]))
    (by norm_num [bayConfig, duneConfig]) 159 r dt σ τ b hσ h c fun s hs => ⟨3, ⟨rfl, _, 1, rfl, ?_, by norm_num⟩, ?_⟩
  · rcases hs with rfl | ⟨h, -⟩
    swap
    · cases h
    rw [ht]
    exact C08_listed_times [((0 : ℝ), (-1 : ℝ)), (21600, 1)] (by norm_num [Increasing]) 1 (by simp)
  · rw [hz]
    norm_num [bayConfig, duneConfig, exThreshold]

/-- C144: sand is never wetter than its pores allow, plants never higher than a metre, ten calls take ten hours. -/
example (r : ℕ → ℕ → ℝ) (hveg : ∀ i j, 0 ≤ (veg i j).h ∧ (veg i j).h ≤ 1 ∧ (veg i j).rho = ((veg i j).h / 1) ^ 2 ∧
      ((veg i j).lat = 0 ∨ (veg i j).lat = 1)) :
    ∃ τ, Planar.run byInverse (bayConfig 20 true) (List.replicate 10 (r, 0)) (bayState veg fence) = some (.ok τ) ∧
      (∀ c, 0 ≤ (τ.moist c).moist ∧ (τ.moist c).moist ≤ 0.4) ∧ (∀ i j, 0 ≤ (τ.veg i j).h ∧ (τ.veg i j).h ≤ 1) ∧ τ.clock.t = 36000 := by
  obtain ⟨τ, h⟩ := C140_run_total byInverse _ (bay_usable 20 true) duneConfig_names (bay_files 20 true) (bay_sector 20 (by norm_num) true)
    (List.replicate 10 (r, 0)) (bayState veg fence) fun _ _ => le_rfl
  refine ⟨τ, h, ?_, fun i j => ?_, ?_⟩
  · exact C144_moisture_infiltration byInverse (bayConfig 20 true) (bay_usable 20 true) rfl
      (by show lower "infiltration" = "infiltration"; decide) (by norm_num [bayConfig]) _ _ τ h fun _ => by norm_num [bayState, bayConfig]
  · have := C144_vegetation_height byInverse (bayConfig 20 true) (bay_usable 20 true) rfl (by norm_num [bayConfig]) _ _ τ h hveg i j
    exact ⟨this.1, this.2.1⟩
  · rw [C144_clock byInverse _ (bay_usable 20 true) _ _ _ h]
    norm_num [bayConfig, bayState]

/-- C144: waves in the first call. -/
example (τ : Planar.State 2 2 1) (r : ℕ → ℕ → ℝ) (h : Planar.update byInverse (bayConfig 20 true) r 0 (bayState veg fence) = some (.ok (τ, true)))
    (c : Fin (cells 2 2)) : (τ.water (rowIx c)).Hs (colOf c) ≤ 0.5 * ((τ.water (rowIx c)).zs (colOf c) - ((bayState veg fence).core.sand.bed c).zb) :=
  ((C144_water byInverse _ (bay_usable 20 true) r 0 _ τ h c).2 _ 2 rfl rfl (by norm_num) (by norm_num) (by norm_num [bayConfig]) rfl).2.1

/-- The bay with soil moisture from rain and evaporation, and salt. -/
noncomputable def saltBay : Planar.Config 2 2 1 :=
  { bayConfig 20 true with
    moist := { (bayConfig 20 true).moist with method := "surf_moisture", processSalt := true }
    meteoFile := some [(0, ![10, 5, 1, 101, 80]), (3600, ![12, 8, 0, 101, 70])] }

theorem saltBay_usable : PlanarUsable saltBay :=
  let h := bay_usable 20 true
  ⟨h.core, h.grid, h.rows, h.speed, h.kappa, h.rough, h.weights, h.mask, h.step⟩

theorem saltBay_files : PlanarFiles saltBay :=
  let h := bay_files 20 true
  ⟨⟨h.wind, h.tide, h.wave, fun _ => Or.inr ⟨by show lower "surf_moisture" = "surf_moisture"; decide, rfl, by simp [saltBay]⟩,
    fun _ => ⟨rfl, by show lower "surf_moisture" = "surf_moisture"; decide, by simp [saltBay]⟩,
    fun rows h => by obtain rfl := Option.some.inj h; exact ⟨by simp, by norm_num⟩, h.dune, h.bubbles⟩, rfl⟩

/-- C144: every run on it returns, with salt contents between zero and one. -/
example : ∃ τ, Planar.run byInverse saltBay calls (bayState veg fence) = some (.ok τ) ∧ ∀ c, 0 ≤ (τ.moist c).salt ∧ (τ.moist c).salt ≤ 1 := by
  obtain ⟨τ, h⟩ := C140_run_total byInverse _ saltBay_usable duneConfig_names saltBay_files (bay_sector 20 (by norm_num) true) calls
    (bayState veg fence) fun _ _ => le_rfl
  refine ⟨τ, h, C144_salt byInverse _ saltBay_usable saltBay_files.toPlanarSeries (by norm_num [saltBay, bayConfig]) (fun rows hr x hx => ?_) calls _
    τ h fun _ => by norm_num [bayState]⟩
  obtain rfl := Option.some.inj hr
  simp only [List.mem_cons, List.not_mem_nil, or_false] at hx
  rcases hx with rfl | rfl
  · exact zero_le_one
  · exact le_rfl

/-- C145: a call at the bay with avalanches. -/
example (r : ℕ → ℕ → ℝ) : ∃ τ b, Planar.update byInverse (bayConfig 20 true) r 3600 (bayState veg fence) = some (.ok (τ, b)) ∧
    (b = true → PlanarNoSteeper 2 2 (fun _ _ => 1) (fun _ _ => 1) (max (repose 34) (repose 33)) τ.zb ∨
      ∃ z z', PlanarRanOut (planarSlopes (bayConfig 20 true)) z z' ∧ ∀ i ≤ 2, ∀ j ≤ 2, τ.zb i j = z' i j) := by
  obtain ⟨τ, b, hu, -⟩ := C140_total byInverse (bayConfig 20 true) (bay_usable 20 true) duneConfig_names (bay_files 20 true)
    (bay_sector 20 (by norm_num) true) r 3600 (bayState veg fence) fun _ _ => le_rfl
  refine ⟨τ, b, hu, fun hb => ?_⟩
  subst hb
  exact C145_update byInverse (bayConfig 20 true) (bay_usable 20 true) ⟨rfl, fun _ _ _ _ _ _ => ⟨one_pos, one_pos⟩⟩ r 3600 _ τ hu (Or.inl rfl)

/-- Three rows of ten cells with groundwater: the wind of the bay, the tide of the flooded beach. -/
noncomputable def marshConfig : Planar.Config 9 2 1 where
  core := duneConfig
  wind := (bayConfig 20 false).wind
  shearModule := (bayConfig 20 false).shearModule
  sepIterations := 4
  sepWeights := none
  shelter := ⟨false, 4.8, 0.3, true, 16, fun _ _ => 1 / 30, ⟨true, true, 5, 1, 0, 1, 3600, 3600, 1, 1, 1, 0.5, 0, 0.05, 0.2⟩, 1⟩
  ts := ⟨3600, false, 1, 999⟩
  accfac := 1
  alpha := 0
  g := fun i j => (j, i)
  water := floodConfig
  tideMask := fun _ _ => (1, 0)
  waveMask := fun _ _ => (1, 0)
  runupMask := none
  moist := (bayConfig 20 false).moist
  meteoFile := none
  ground := floodGround
  gwMask := fun _ _ => (1, 0)
  thresholdMask := fun _ => (1, 0)
  zne := fun _ _ => some (-10)
  ava := ⟨false, 9, 2, fun _ _ => 1, fun _ _ => 1, fun _ _ => none, 34, 33, 1000⟩
  wetReset := false
  Tbedreset := 86400
  zb0 := fun _ => 1
  avgTime := 86400
  dune := ⟨false, ⟨3, 0.1, 1e-4⟩, fun _ _ _ _ _ => 1⟩
  duran := fun _ => ⟨1.5e-5, 9.81, 2650, 1.225, 0.085, 0.41, 0.000225⟩

theorem marsh_usable : PlanarUsable marshConfig where
  core := duneConfig_ok
  grid := ⟨by norm_num, by norm_num, fun _ _ _ _ => zero_le_one, fun _ _ _ _ => zero_le_one, fun _ _ _ _ => zero_le_one, fun _ _ _ _ _ => rfl⟩
  rows := le_rfl
  speed := rfl
  kappa := by norm_num [marshConfig, bayConfig]
  rough := ⟨0.001, Or.inl ⟨rfl, rfl⟩, by norm_num, by norm_num [marshConfig, bayConfig]⟩
  weights := fun _ _ => by norm_num [marshConfig]
  mask := fun _ => by norm_num [marshConfig]
  step := ⟨rfl, by norm_num [marshConfig], rfl⟩

theorem marsh_series : PlanarSeries marshConfig where
  wind := (bay_files 20 false).wind
  tide := fun ts h => by
    obtain rfl : [((0 : ℝ), (0 : ℝ)), (3240, 1), (7200, 1)] = ts := Option.some.inj h
    exact ⟨by simp, flood_inc⟩
  wave := fun ts h => by cases h
  moist := fun _ => Or.inl (by show lower "infiltration" = "infiltration"; decide)
  salt := fun h => by cases h
  meteo := fun rows h => by cases h
  dune := fun h => by cases h
  bubbles := fun _ => rfl

theorem marsh_sector : FromSector marshConfig := bay_sector 20 (by norm_num) false

/-- C140, C143: on a beach that rises a metre from column to column a call with groundwater returns, and the cells that are never dry are not
eroded. -/
example (r : ℕ → ℕ → ℝ) (σ : Planar.State 9 2 1) (hσ : Sound 3 159 σ.core) (hz : ∀ c, (σ.core.sand.bed c).zb = (colOf c : ℝ) - 2) :
    ∃ τ b, Planar.update byInverse marshConfig r 3600 σ = some (.ok (τ, b)) ∧ ∀ c, colOf c = 0 → (σ.core.sand.bed c).zb ≤ (τ.core.sand.bed c).zb := by
  have hzb : ∀ (i : Fin (2 + 1)) (j : ℕ), j < 10 → σ.zb i j = (j : ℝ) - 2 := by
    intro i j hj
    have hc : (i : ℕ) * 10 + j < cells 9 2 := by
      show (i : ℕ) * 10 + j < (9 + 1) * (2 + 1)
      omega
    have e := Planar.grid_apply (fun c => (σ.core.sand.bed c).zb) ⟨(i : ℕ) * 10 + j, hc⟩
    have er : rowOf (⟨(i : ℕ) * 10 + j, hc⟩ : Fin (cells 9 2)) = i := by
      show ((i : ℕ) * 10 + j) / (9 + 1) = i
      omega
    have ec : colOf (⟨(i : ℕ) * 10 + j, hc⟩ : Fin (cells 9 2)) = j := by
      show ((i : ℕ) * 10 + j) % (9 + 1) = j
      omega
    rw [er, ec, hz, ec] at e
    exact e
  obtain ⟨τ, b, h, -⟩ := (C140_returns byInverse marshConfig marsh_usable duneConfig_names marsh_series marsh_sector r 3600 σ
    fun c f => (hσ.cap c f).2.2).mpr (Or.inr (by
      rw [if_pos (by norm_num)]
      refine (C148_succeeds _ _ _ _ _ _ _ rfl (by norm_num [marshConfig, floodGround]) (by norm_num)).mpr
        ⟨_, _, flood_steps, by norm_num [marshConfig, floodGround], Or.inl (by decide +kernel), fun k _ i => ?_⟩
      obtain ⟨w, hw⟩ := C60_never_fails floodConfig ⟨σ.zb i, fun _ => (1, 0), fun _ => (1, 0), none⟩ (σ.clock.t + k * (360 : ℤ)) (σ.hydro i).water
        marsh_series.tide marsh_series.wave
      obtain ⟨h1, h2⟩ := rising_levels _ _ _ _ hw
      refine ⟨w, hw, ?_, ?_, 5, by norm_num, by norm_num, ?_⟩
      all_goals rw [h1]; dsimp only
      · rw [hzb i 0 (by norm_num)]; have := (h2 0).1; norm_num; linarith
      · rw [hzb i 1 (by norm_num)]; have := (h2 1).1; norm_num; linarith
      · rw [hzb i 5 (by norm_num)]; have := (h2 5).2; norm_num; linarith))
  refine ⟨τ, b, h, fun c hc => ?_⟩
  refine C143_flooded byInverse byInverse_exact marshConfig marsh_usable marsh_series marsh_sector (fun _ => by norm_num [marshConfig, floodGround])
    ⟨rfl, rfl, rfl⟩
    (.moisture 0.4 rfl rfl rfl rfl (Or.inl ⟨by show lower "infiltration" = "infiltration"; decide, by norm_num [marshConfig, bayConfig], rfl⟩)
      (by norm_num [waterRatio, marshConfig, duneConfig, exThreshold]))
    (by norm_num [marshConfig, duneConfig]) 159 r 3600 σ τ b hσ h c fun s _ => ?_
  obtain ⟨v, hv, h1, h2⟩ := C10_within_data_range [((0 : ℝ), (0 : ℝ)), (3240, 1), (7200, 1)] (by simp) flood_inc s 0 1 (by simp)
  refine ⟨v, ⟨rfl, _, v, rfl, hv, by norm_num [marshConfig]⟩, lt_of_lt_of_le ?_ h1⟩
  rw [hz, hc]
  norm_num [marshConfig, bayConfig, duneConfig, exThreshold]

end Aeolis.Props
