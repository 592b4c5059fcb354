import Verif.Props.WholeBudget

/-!
C128, C131: storms over a bed with two grain sizes, of which one may run out.
-/

set_option linter.unusedSectionVars false

namespace Aeolis.Props

open Finset Aeolis.Spec Aeolis.Sand Aeolis.Solver Aeolis.Whole

/-- The beach of `duneConfig` with a fine and a coarse fraction and a solver that may iterate a hundred thousand times. -/
noncomputable def mixedConfig : Whole.Config 2 :=
  { thr := { processThreshold := true, thresholdFile := false, thGrainsize := true, thBedslope := false,
             thMoisture := true, processTide := false, thDrylayer := false, thHumidity := false, thSalt := false,
             thSheltering := false, thNelayer := false, methodMoistThreshold := "hotta", hasMethodMoist := false,
             Aa := 0.085, rhog := 2650, rhoa := 1.225, rhow := 1025, g := 9.81, porosity := 0.4,
             reswMoist := 0.01, w15 := 0.02, csalt := 0.035, m := none, beta := 130, sigma := 4.2, eps := 1e-3,
             grainSize := fun f => if f = 0 then 0.0002 else 0.0005, grainDist := fun _ => 1 }
    tr := exTransport "bagnold" "windspeed"
    setup := { bed := { nl := 3, rhog := 2650, porosity := 0.4, maxError := 1e-3, source := .uniform fun _ => 1, processBedupdate := true,
                        processTide := false },
               mixing := false, facDOD := 0.1, thlyr := fun _ => 0.1 },
    bi := 0.05, T := 1, maxIter := 100000, bounds := ⟨"flux", "flux", "circular"⟩, offshoreFlux := 0, onshoreFlux := 0, constOff := 0,
    constOn := 0, alpha := 1, beta := 1, bedcomp := false, ds := fun _ _ => 1, dn := fun _ _ => 1, dsdni := fun _ _ => 1 }

/-- Onshore wind over sand with moisture content `moist`. -/
noncomputable def mixedEnv (moist : Fin (cells 2 0) → ℝ) : Env 2 0 2 :=
  { t := 3600, dt := 3600, wind := fun _ => ⟨10, 10, 0, 0.5, 0.5, 0, 0.5⟩, duran := fun _ _ => ⟨0, 0, 0⟩, hsmix := fun _ => 0, zs := fun _ => 0,
    moist := moist, salt := fun _ => 0, mask := fun _ => (1, 0), zne := fun _ => none, levels := id }

/-- A flat bed with a kilogram of fine and 158 kg of coarse sand per square metre in each layer: the wind can pick up nine kilograms in a step. -/
noncomputable def mixedState : Whole.State 2 0 2 :=
  { sand := { bed := fun _ => { mass := fun _ f => if f = 0 then 1 else 158, pickup := fun _ => 0, zb := 1, zs := 0, dzb := 0 }, Ct := fun _ _ => 0 },
    thr := fun _ => ⟨fun _ => XR.fin 0, fun _ => XR.fin 0, fun _ => XR.fin 0⟩, cap := fun _ _ => ⟨0, 0, 0⟩, speed := fun _ _ => ⟨0, 0, 0⟩,
    w := fun _ _ => 0 }

theorem mixedConfig_ok : ConfigOk mixedConfig where
  dist := fun _ => zero_le_one
  transport := ⟨exTransport_physical _ _, rfl⟩
  size := fun f => by
    show (0 : ℝ) < if f = 0 then 0.0002 else 0.0005
    split_ifs <;> norm_num
  setup := ⟨by norm_num [mixedConfig], by norm_num, fun _ => by norm_num [mixedConfig], fun _ => zero_le_one,
    by norm_num [mixedConfig, Bed.Source.raw]⟩
  bi := by norm_num [mixedConfig]
  T := one_pos
  err := by norm_num [mixedConfig]
  scheme := ⟨rfl, by norm_num [mixedConfig]⟩
  flux := ⟨le_rfl, le_rfl, le_rfl, le_rfl⟩
  off := Or.inl rfl
  on := Or.inl (by decide)
  bed := by constructor <;> norm_num [mixedConfig]
  threshold := ⟨rfl, rfl, rfl, rfl⟩
  moist := fun _ => by
    have hl : lower "hotta" = "hotta" := by decide
    simp only [mixedConfig, hl]
    decide

theorem mixedConfig_names : NamesOk mixedConfig where
  speed := by simp [mixedConfig, exTransport, grainspeedMethods]
  transport := by
    have hl : lower "bagnold" = "bagnold" := by decide
    simp [mixedConfig, exTransport, hl, transportMethods]
  gs := fun h => by have := h.2; cases this
  functions := ⟨rfl, rfl⟩
  on := Or.inl rfl
  lat := Or.inl rfl
  iter := by norm_num [mixedConfig]

theorem mixedGrid : GridOk 2 0 mixedConfig where
  columns := le_rfl
  rows := by norm_num
  ds := fun _ _ _ _ => zero_le_one
  dn := fun _ _ _ _ => zero_le_one
  dsdni := fun _ _ _ _ => zero_le_one
  cells := fun h => absurd h (lt_irrefl 0)

theorem mixedEnv_ok (moist : Fin (cells 2 0) → ℝ) : EnvOk mixedConfig (mixedEnv moist) :=
  C125_windspeed mixedConfig rfl _ (by norm_num [mixedEnv]) (fun _ => by norm_num [mixedEnv]) (fun _ => by norm_num [mixedEnv])
    fun _ => by norm_num [mixedEnv]

theorem mixedEnv_speed (moist : Fin (cells 2 0) → ℝ) (c : Fin (cells 2 0)) (f : Fin 2) (v : Transport.Speed)
    (h : Transport.grainspeed mixedConfig.tr ((mixedEnv moist).wind c) ((mixedEnv moist).duran c f) = .ok v) : v = ⟨10, 10, 0⟩ := by
  unfold Transport.grainspeed at h
  rw [show mixedConfig.tr.methodGrainspeed = "windspeed" from rfl, if_neg (by decide), if_pos rfl] at h
  exact (Except.ok.inj h).symm

theorem mixedState_sound : Sound 3 159 mixedState :=
  ⟨⟨fun _ _ _ => by norm_num [layerTotal, mixedState], fun _ _ _ f => by
      show (0 : ℝ) ≤ if f = 0 then 1 else 158
      split_ifs <;> norm_num, fun _ _ => le_rfl⟩,
    fun _ _ => ⟨le_rfl, le_rfl, le_rfl⟩, fun _ _ => le_rfl⟩

/-- Less of the fine sand than the wind can pick up. -/
theorem mixed_limited (c : Fin (cells 2 0)) : (mixedState.sand.bed c).mass 0 0 < 0.0025 / mixedConfig.T * (mixedEnv fun _ => 0).dt := by
  norm_num [mixedState, mixedConfig, mixedEnv]

theorem mixedEnv_below (moist : Fin (cells 2 0) → ℝ) :
    EnvOk mixedConfig (mixedEnv moist) ∧ Steadying mixedConfig (mixedEnv moist) ∧ Copes 2 0 mixedConfig 0.0025 159 (mixedEnv moist).dt ∧
      ∀ τ ρ, transport byInverse mixedConfig (mixedEnv moist) τ = some (.ok ρ) →
        (∀ c f, (ρ.cap c f).Cu ≤ 0.0025 ∧ (ρ.cap c f).Cuf ≤ 0.0025) ∧ EndsBelow mixedConfig 0.0025 ρ := by
  refine ⟨mixedEnv_ok moist, ⟨fun c c' _ _ f s s' h1 h2 => ?_, fun h => absurd h (lt_irrefl 0)⟩,
    ⟨by norm_num [mixedConfig, mixedEnv], Or.inr (by norm_num [cells, mixedConfig, mixedEnv])⟩, fun τ ρ hρ => ?_⟩
  · rw [mixedEnv_speed _ _ _ _ h1, mixedEnv_speed _ _ _ _ h2]
  have hP := transport_ok.mp hρ
  have hu : ∀ c f, (ρ.speed c f) = ⟨10, 10, 0⟩ := by
    intro c f
    refine mixedEnv_speed moist c f _ ?_
    simpa [mixedConfig_ok.transport.2] using hP.speed c f
  refine ⟨fun c f => ?_, ⟨fun c _ f => ⟨fun _ => ?_, fun h => ?_⟩, fun c _ f => ⟨fun _ => ?_, fun h => ?_⟩⟩⟩
  · have := bagnold_le mixedConfig_ok (mixedEnv_ok moist) rfl hP c f (by rw [hu]; norm_num)
    rw [hu] at this
    have e : mixedConfig.tr.Cb * (mixedConfig.tr.rhoa / mixedConfig.tr.g) * ((mixedEnv moist).wind c).ustar ^ 3 * (1 / 10) *
        mixedConfig.tr.accfac ≤ (0.0025 : ℝ) := by
      norm_num [mixedConfig, exTransport, mixedEnv]
    exact ⟨this.1.trans e, this.2.1.trans e⟩
  · show (0 : ℝ) * _ ≤ _
    norm_num
  · exact absurd h (by decide)
  · show (0 : ℝ) * _ ≤ _
    norm_num
  · exact absurd h (by decide)

/-- C128 for a storm of any length over sand of two sizes, of which the fine one may run out. -/
example (moist : Fin (cells 2 0) → ℝ) (n : ℕ) :
    ∃ σ', Whole.run byInverse mixedConfig (List.replicate n (mixedEnv moist)) mixedState = some (.ok σ') ∧ Sound 3 159 σ' ∧
      ∀ c f, σ'.sand.Ct c f ≤ 0.0025 := by
  obtain ⟨σ', h⟩ := C125_run_total byInverse mixedConfig mixedConfig_ok mixedConfig_names mixedGrid (List.replicate n (mixedEnv moist))
    (fun E hE _ => by rw [List.eq_of_mem_replicate hE]; exact mixedEnv_ok moist) mixedState fun _ _ => le_rfl
  refine ⟨σ', h, C128_fractions byInverse byInverse_exact mixedConfig mixedConfig_ok mixedGrid rfl 159 0.0025 (by norm_num) (by norm_num) _
    (fun E hE _ => ?_) mixedState σ' mixedState_sound (fun _ _ => by norm_num [mixedState]) h⟩
  rw [List.eq_of_mem_replicate hE]
  exact mixedEnv_below moist

/-- C131 for the same storms: the run exists and no sand is created beyond the tolerance. -/
example (moist : ℕ → Fin (cells 2 0) → ℝ) :
    ∃ σ : ℕ → Whole.State 2 0 2, σ 0 = mixedState ∧
      (∀ k, Whole.step byInverse mixedConfig (mixedEnv (moist k)) (σ k) = some (.ok (σ (k + 1)))) ∧
      ∀ n, sandMass mixedConfig (σ n) ≤ sandMass mixedConfig (σ 0) + n * 0.002 := by
  obtain ⟨σ, h0, h⟩ := states_exist byInverse mixedConfig mixedConfig_ok mixedConfig_names mixedGrid
    (fun k => mixedEnv (moist k)) (fun k _ => mixedEnv_ok (moist k)) mixedState fun _ _ => le_rfl
  refine ⟨σ, h0, h, fun n => ?_⟩
  obtain ⟨-, b⟩ := C131_fractions byInverse byInverse_exact mixedConfig mixedConfig_ok mixedGrid
    ⟨rfl, fun _ _ _ _ => by norm_num [mixedConfig], fun _ _ _ _ => rfl, rfl, rfl, by norm_num [mixedConfig]⟩ 159 0.0025 (by norm_num)
    (by norm_num) (fun k => mixedEnv (moist k)) σ n
    (fun k _ _ => ⟨mixedEnv_ok (moist k), Or.inl rfl, (mixedEnv_below (moist k)).2.1, (mixedEnv_below (moist k)).2.2.1,
      (mixedEnv_below (moist k)).2.2.2⟩)
    (by rw [h0]; exact mixedState_sound) (by rw [h0]; intro c f; norm_num [mixedState]) fun k _ => h k
  have e : mixedConfig.setup.bed.maxError * (2 : ℕ) * innerArea 2 0 mixedConfig = 0.002 := by
    unfold innerArea
    norm_num [mixedConfig]
  rw [e] at b
  exact (b fun _ _ _ => le_rfl).2 fun k _ _ => ⟨fun _ => rfl, fun _ => rfl, Or.inr ⟨fun _ => rfl, fun _ => rfl⟩⟩

end Aeolis.Props
