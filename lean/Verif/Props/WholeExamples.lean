import Verif.Props.WholeBound

/-!
C125–C128: runs always return, and examples: a transect with one fraction.
-/

set_option linter.unusedSectionVars false

namespace Aeolis.Props

open Finset Aeolis.Spec Aeolis.Sand Aeolis.Solver Aeolis.Whole

variable {nx ny nf : ℕ}

theorem step_returns (sp : LinSolve nx ny) (C : Whole.Config nf) (hC : ConfigOk C) (hN : NamesOk C) (hG : GridOk nx ny C)
    (E : Env nx ny nf) (hE : Windy E → EnvOk C E) (σ : Whole.State nx ny nf) (h0 : ∀ c f, 0 ≤ (σ.cap c f).Cu0) :
    ∃ τ, Whole.step sp C E σ = some (.ok τ) ∧ ∀ c f, 0 ≤ (τ.cap c f).Cu0 := by
  obtain ⟨τ, hτ⟩ := C125_total sp C hC hN hG E (fun h => (hE h).real) σ h0
  refine ⟨τ, hτ, ?_⟩
  have h1 := hτ
  unfold Whole.step at h1
  simp only at h1
  split_ifs at h1 with hw
  · match ht : transport sp C E (waves C E σ) with
    | none => simp [ht] at h1
    | some (.error e) => simp [ht] at h1
    | some (.ok ρ) =>
      simp only [ht] at h1
      rw [← Except.ok.inj (Option.some.inj h1)]
      have hz : ∀ c f, 0 ≤ ((waves C E σ).cap c f).Cu0 := h0
      exact fun c f => ((transport_cap hC (hE hw) hz (transport_ok.mp ht)).1 c f).2.2
  · rw [← Except.ok.inj (Option.some.inj h1)]
    exact h0

/-- **C125** A run with onshore winds and any number of steps always returns. -/
theorem C125_run_total (sp : LinSolve nx ny) (C : Whole.Config nf) (hC : ConfigOk C) (hN : NamesOk C) (hG : GridOk nx ny C)
    (Es : List (Env nx ny nf)) (hE : ∀ E ∈ Es, Windy E → EnvOk C E) (σ : Whole.State nx ny nf) (h0 : ∀ c f, 0 ≤ (σ.cap c f).Cu0) :
    ∃ σ', Whole.run sp C Es σ = some (.ok σ') := by
  induction Es generalizing σ with
  | nil => exact ⟨σ, rfl⟩
  | cons E Es ih =>
    obtain ⟨τ, hτ, h1⟩ := step_returns sp C hC hN hG E (hE E (by simp)) σ h0
    obtain ⟨σ', h⟩ := ih (fun E' h' => hE E' (by simp [h'])) τ h1
    refine ⟨σ', ?_⟩
    unfold Whole.run
    simp only [hτ]
    exact h

/-- The states of an endless run. -/
theorem states_exist (sp : LinSolve nx ny) (C : Whole.Config nf) (hC : ConfigOk C) (hN : NamesOk C) (hG : GridOk nx ny C)
    (E : ℕ → Env nx ny nf) (hE : ∀ k, Windy (E k) → EnvOk C (E k)) (σ : Whole.State nx ny nf) (h0 : ∀ c f, 0 ≤ (σ.cap c f).Cu0) :
    ∃ τ : ℕ → Whole.State nx ny nf, τ 0 = σ ∧ ∀ k, Whole.step sp C (E k) (τ k) = some (.ok (τ (k + 1))) := by
  choose next hnext using fun (k : ℕ) (s : {s : Whole.State nx ny nf // ∀ c f, 0 ≤ (s.cap c f).Cu0}) =>
    step_returns sp C hC hN hG (E k) (hE k) s.1 s.2
  let τ : ℕ → {s : Whole.State nx ny nf // ∀ c f, 0 ≤ (s.cap c f).Cu0} := fun n => Nat.rec ⟨σ, h0⟩ (fun k s => ⟨next k s, (hnext k s).2⟩) n
  exact ⟨fun n => (τ n).1, rfl, fun k => (hnext k (τ k)).1⟩

/-! ### Examples -/

/-- Solution with the inverse of the matrix. -/
noncomputable def byInverse : LinSolve nx ny := fun A y => A⁻¹.mulVec y

theorem byInverse_exact : Exact (byInverse (nx := nx) (ny := ny)) := by
  intro A y h
  unfold byInverse
  rw [Matrix.mulVec_mulVec, Matrix.mul_nonsing_inv _ ((Matrix.isUnit_iff_isUnit_det A).mp h), Matrix.one_mulVec]

/-- A beach: thresholds for moist sand, Bagnold's formulation, three layers of ten centimetres. -/
noncomputable def duneConfig : Whole.Config 1 :=
  { thr := exThreshold "hotta", tr := exTransport "bagnold" "windspeed",
    setup := { bed := { nl := 3, rhog := 2650, porosity := 0.4, maxError := 1e-6, source := .uniform fun _ => 1, processBedupdate := true,
                        processTide := false },
               mixing := false, facDOD := 0.1, thlyr := fun _ => 0.1 },
    bi := 0.05, T := 1, maxIter := 1000, bounds := ⟨"flux", "flux", "circular"⟩, offshoreFlux := 0, onshoreFlux := 0, constOff := 0,
    constOn := 0, alpha := 1, beta := 1, bedcomp := false, ds := fun _ _ => 1, dn := fun _ _ => 1, dsdni := fun _ _ => 1 }

/-- Onshore wind with shear velocity `s` over sand with moisture content `moist`. -/
noncomputable def duneEnv (nx ny : ℕ) (s : ℝ) (moist : Fin (cells nx ny) → ℝ) : Env nx ny 1 :=
  { t := 3600, dt := 3600, wind := fun _ => ⟨10, 10, 0, s, s, 0, s⟩, duran := fun _ _ => ⟨0, 0, 0⟩, hsmix := fun _ => 0, zs := fun _ => 0,
    moist := moist, salt := fun _ => 0, mask := fun _ => (1, 0), zne := fun _ => none, levels := id }

/-- A flat bed with 159 kg of sand per square metre in each layer, and clear air. -/
noncomputable def duneState (nx ny : ℕ) : Whole.State nx ny 1 :=
  { sand := { bed := fun _ => { mass := fun _ _ => 159, pickup := fun _ => 0, zb := 1, zs := 0, dzb := 0 }, Ct := fun _ _ => 0 },
    thr := fun _ => ⟨fun _ => XR.fin 0, fun _ => XR.fin 0, fun _ => XR.fin 0⟩, cap := fun _ _ => ⟨0, 0, 0⟩, speed := fun _ _ => ⟨0, 0, 0⟩,
    w := fun _ _ => 0 }

theorem duneConfig_ok : ConfigOk duneConfig where
  dist := fun _ => zero_le_one
  transport := ⟨exTransport_physical _ _, rfl⟩
  size := fun _ => by norm_num [duneConfig, exThreshold]
  setup := ⟨by norm_num [duneConfig], one_pos, fun _ => by norm_num [duneConfig], fun _ => zero_le_one, by norm_num [duneConfig, Bed.Source.raw]⟩
  bi := by norm_num [duneConfig]
  T := one_pos
  err := by norm_num [duneConfig]
  scheme := ⟨rfl, by norm_num [duneConfig]⟩
  flux := ⟨le_rfl, le_rfl, le_rfl, le_rfl⟩
  off := Or.inl rfl
  on := Or.inl (by decide)
  bed := exThreshold_physical _
  threshold := ⟨rfl, rfl, rfl, rfl⟩
  moist := fun _ => by
    have hl : lower "hotta" = "hotta" := by decide
    simp only [duneConfig, exThreshold, hl]
    decide

theorem duneConfig_names : NamesOk duneConfig where
  speed := by simp [duneConfig, exTransport, grainspeedMethods]
  transport := by
    have hl : lower "bagnold" = "bagnold" := by decide
    simp [duneConfig, exTransport, hl, transportMethods]
  gs := fun h => by have := h.2; cases this
  functions := ⟨rfl, rfl⟩
  on := Or.inl rfl
  lat := Or.inl rfl
  iter := by norm_num [duneConfig]

theorem duneGrid : GridOk 2 0 duneConfig where
  columns := le_rfl
  rows := by norm_num
  ds := fun _ _ _ _ => zero_le_one
  dn := fun _ _ _ _ => zero_le_one
  dsdni := fun _ _ _ _ => zero_le_one
  cells := fun h => absurd h (lt_irrefl 0)

theorem duneEnv_ok (s : ℝ) (hs : 0 < s) (moist : Fin (cells 2 0) → ℝ) : EnvOk duneConfig (duneEnv 2 0 s moist) :=
  C125_windspeed duneConfig rfl _ (by norm_num [duneEnv]) (fun _ => by norm_num [duneEnv]) (fun _ => ⟨hs.le, hs⟩) fun _ => by norm_num [duneEnv]

theorem duneEnv_speed {nx ny : ℕ} (C : Whole.Config 1) (hC : C.tr = duneConfig.tr) (s : ℝ) (moist : Fin (cells nx ny) → ℝ)
    (c : Fin (cells nx ny)) (f : Fin 1) (v : Transport.Speed)
    (h : Transport.grainspeed C.tr ((duneEnv nx ny s moist).wind c) ((duneEnv nx ny s moist).duran c f) = .ok v) : v = ⟨10, 10, 0⟩ := by
  rw [hC] at h
  unfold Transport.grainspeed at h
  rw [show duneConfig.tr.methodGrainspeed = "windspeed" from rfl, if_neg (by decide), if_pos rfl] at h
  exact (Except.ok.inj h).symm

theorem duneState_sound (nx ny : ℕ) : Sound 3 159 (duneState nx ny) :=
  ⟨⟨fun _ _ _ => by norm_num [layerTotal, duneState], fun _ _ _ _ => by norm_num [duneState], fun _ _ => le_rfl⟩,
    fun _ _ => ⟨le_rfl, le_rfl, le_rfl⟩, fun _ _ => le_rfl⟩

theorem duneEnv_below (moist : Fin (cells 2 0) → ℝ) :
    EnvOk duneConfig (duneEnv 2 0 0.5 moist) ∧ Steadying duneConfig (duneEnv 2 0 0.5 moist) ∧
      Copes 2 0 duneConfig 0.0025 159 (duneEnv 2 0 0.5 moist).dt ∧
      ∀ τ ρ, transport byInverse duneConfig (duneEnv 2 0 0.5 moist) τ = some (.ok ρ) →
        (∀ c f, (ρ.cap c f).Cu ≤ 0.0025 ∧ (ρ.cap c f).Cuf ≤ 0.0025) ∧ EndsBelow duneConfig 0.0025 ρ := by
  refine ⟨duneEnv_ok 0.5 (by norm_num) moist, ⟨fun c c' _ _ f s s' h1 h2 => ?_, fun h => absurd h (lt_irrefl 0)⟩,
    copes_one (by norm_num [duneConfig, duneEnv]), fun τ ρ hρ => ?_⟩
  · rw [duneEnv_speed _ rfl _ _ _ _ _ h1, duneEnv_speed _ rfl _ _ _ _ _ h2]
  have hP := transport_ok.mp hρ
  have hu : ∀ c f, (ρ.speed c f) = ⟨10, 10, 0⟩ := by
    intro c f
    refine duneEnv_speed duneConfig rfl 0.5 moist c f _ ?_
    simpa [duneConfig_ok.transport.2] using hP.speed c f
  refine ⟨fun c f => ?_, ⟨fun c _ f => ⟨fun _ => ?_, fun h => ?_⟩, fun c _ f => ⟨fun _ => ?_, fun h => ?_⟩⟩⟩
  · have := bagnold_le duneConfig_ok (duneEnv_ok 0.5 (by norm_num) moist) rfl hP c f (by rw [hu]; norm_num)
    rw [hu] at this
    have e : duneConfig.tr.Cb * (duneConfig.tr.rhoa / duneConfig.tr.g) * ((duneEnv 2 0 0.5 moist).wind c).ustar ^ 3 * (1 / 10) *
        duneConfig.tr.accfac ≤ (0.0025 : ℝ) := by
      norm_num [duneConfig, exTransport, duneEnv]
    exact ⟨this.1.trans e, this.2.1.trans e⟩
  · show (0 : ℝ) * _ ≤ _
    norm_num
  · exact absurd h (by decide)
  · show (0 : ℝ) * _ ≤ _
    norm_num
  · exact absurd h (by decide)

/-- C125 and C128 for a run of any length with a storm over partly wet sand. -/
example (moist : Fin (cells 2 0) → ℝ) (n : ℕ) :
    ∃ σ', Whole.run byInverse duneConfig (List.replicate n (duneEnv 2 0 0.5 moist)) (duneState 2 0) = some (.ok σ') ∧ Sound 3 159 σ' ∧
      ∀ c f, σ'.sand.Ct c f ≤ 0.0025 := by
  obtain ⟨σ', h⟩ := C125_run_total byInverse duneConfig duneConfig_ok duneConfig_names duneGrid
    (List.replicate n (duneEnv 2 0 0.5 moist))
    (fun E hE _ => by rw [List.eq_of_mem_replicate hE]; exact duneEnv_ok 0.5 (by norm_num) moist) (duneState 2 0) fun _ _ => le_rfl
  refine ⟨σ', h, C128_fractions byInverse byInverse_exact duneConfig duneConfig_ok duneGrid rfl 159 0.0025 (by norm_num) (by norm_num) _
    (fun E hE _ => ?_) (duneState 2 0) σ' (duneState_sound 2 0) (fun _ _ => by norm_num [duneState]) h⟩
  rw [List.eq_of_mem_replicate hE]
  exact duneEnv_below moist

/-- C126: a wet cell in a storm. -/
example (σ' : Whole.State 2 0 1) (h : transport byInverse duneConfig (duneEnv 2 0 0.5 fun _ => 0.2) (duneState 2 0) = some (.ok σ')) :
    1 ≤ (σ'.sand.bed 1).zb :=
  C126_not_eroded byInverse byInverse_exact duneConfig duneConfig_ok duneGrid (by norm_num [duneConfig]) 159 _
    (duneEnv_ok 0.5 (by norm_num) _) (duneState 2 0) σ' (duneState_sound 2 0) h 1
    (.wet rfl (by norm_num [waterRatio, duneConfig, exThreshold, duneEnv]))

example : ∃ σ', transport byInverse duneConfig (duneEnv 2 0 0.5 fun _ => 0.2) (duneState 2 0) = some (.ok σ') := by
  obtain ⟨σ', h⟩ := C125_total byInverse duneConfig duneConfig_ok duneConfig_names duneGrid (duneEnv 2 0 0.5 fun _ => 0.2)
    (fun _ => (duneEnv_ok 0.5 (by norm_num) _).real) (duneState 2 0) fun _ _ => le_rfl
  unfold Whole.step at h
  simp only at h
  split_ifs at h with hw
  · have e : waves duneConfig (duneEnv 2 0 0.5 fun _ => 0.2) (duneState 2 0) = duneState 2 0 := by
      unfold waves duneState
      simp only [duneConfig, Bed.mixtoplayer, duneEnv]
      simp
    rw [e] at h
    match ht : transport byInverse duneConfig (duneEnv 2 0 0.5 fun _ => 0.2) (duneState 2 0) with
    | none => simp [ht] at h
    | some (.error e) => simp [ht] at h
    | some (.ok ρ) => exact ⟨ρ, rfl⟩
  · exfalso
    apply hw
    show ∑ c : Fin (cells 2 0), (10 : ℝ) ≠ 0
    simp [cells]

/-- C127: a breeze below the threshold moves nothing, however long it blows. -/
example (n : ℕ) (σ' : Whole.State 2 0 1)
    (h : Whole.run byInverse duneConfig (List.replicate n (duneEnv 2 0 0.1 fun _ => 0)) (duneState 2 0) = some (.ok σ')) :
    Still 3 (duneState 2 0) σ' := by
  refine C127_run byInverse byInverse_exact duneConfig duneConfig_ok duneGrid ⟨⟨fun _ => rfl, fun _ => rfl⟩, fun _ => rfl, fun _ => rfl⟩
    (by norm_num [duneConfig, exThreshold]) rfl _ (fun E hE => ?_) (duneState 2 0) σ' (fun _ _ _ _ => by norm_num [duneState])
    (fun _ _ => le_rfl) (fun _ _ => rfl) h
  rw [List.eq_of_mem_replicate hE]
  refine ⟨fun _ => ⟨duneEnv_ok 0.1 (by norm_num) _, fun _ => zero_le_one, fun _ => le_rfl, fun c f => ?_⟩, fun _ _ => rfl⟩
  have hl : lower "bagnold" = "bagnold" := by decide
  show (0.1 : ℝ) ≤ (if lower "bagnold" = "dk" then 0.8 else 1) * (0.085 * Real.sqrt ((2650 - 1.225) / 1.225 * 9.81 * 0.000225))
  rw [hl, if_neg (by decide), one_mul]
  have : (2 : ℝ) ≤ Real.sqrt ((2650 - 1.225) / 1.225 * 9.81 * 0.000225) := Real.le_sqrt_of_sq_le (by norm_num)
  linarith

/-- The same beach as a planar grid with thresholds from a file. -/
noncomputable def fileConfig : Whole.Config 1 := { duneConfig with thr := { exThreshold "hotta" with thresholdFile := true } }

theorem fileConfig_ok : NumericsOk fileConfig where
  dist := fun _ => zero_le_one
  transport := ⟨exTransport_physical _ _, rfl⟩
  size := fun _ => by norm_num [fileConfig, exThreshold]
  setup := duneConfig_ok.setup
  bi := duneConfig_ok.bi
  T := one_pos
  err := duneConfig_ok.err
  scheme := duneConfig_ok.scheme
  flux := ⟨le_rfl, le_rfl, le_rfl, le_rfl⟩
  off := Or.inl rfl
  on := Or.inl (by decide)

theorem fileGrid : GridOk 2 2 fileConfig where
  columns := le_rfl
  rows := by norm_num
  ds := fun _ _ _ _ => zero_le_one
  dn := fun _ _ _ _ => zero_le_one
  dsdni := fun _ _ _ _ => zero_le_one
  cells := fun _ _ _ _ _ => rfl

theorem fileEnv_ok (s : ℝ) (hs : 0 < s) : EnvOk fileConfig (duneEnv 2 2 s fun _ => 0) where
  dt := by norm_num [duneEnv]
  ustar := fun _ => ⟨hs.le, fun _ => hs⟩
  mask := fun _ => by norm_num [duneEnv]
  speed := fun c f v h => by rw [duneEnv_speed _ rfl _ _ _ _ _ h]; norm_num
  direction := Or.inl ⟨fun c f v h => by rw [duneEnv_speed _ rfl _ _ _ _ _ h]; norm_num,
    fun _ c c' _ _ f v v' h h' => by rw [duneEnv_speed _ rfl _ _ _ _ _ h, duneEnv_speed _ rfl _ _ _ _ _ h']⟩
  ends := fun _ c f v h => by rw [duneEnv_speed _ rfl _ _ _ _ _ h]; norm_num

/-- C127: with a threshold of 0.4 m/s in the file and a shear velocity of 0.3 m/s sand appears in the air. -/
example (σ' : Whole.State 2 2 1)
    (h : transport byInverse fileConfig (duneEnv 2 2 0.3 fun _ => 0)
      { duneState 2 2 with thr := fun _ => ⟨fun _ => XR.fin 0.4, fun _ => XR.fin 0, fun _ => XR.fin 0⟩ } = some (.ok σ')) :
    ∃ c, 0 < σ'.sand.Ct c 0 :=
  (C127_threshold_file_creates_sand byInverse byInverse_exact fileConfig fileConfig_ok fileGrid (by norm_num [fileConfig, duneConfig]) rfl rfl
    rfl _ (fileEnv_ok 0.3 (by norm_num)) _ σ' (fun _ _ => by norm_num [duneState]) (fun _ _ => le_rfl) (fun _ _ => le_rfl) (fun _ => 0.4)
    (fun _ => rfl) (fun _ => by norm_num [duneEnv]) (fun c v h => by rw [duneEnv_speed _ rfl _ _ _ _ _ h]; norm_num) h).1

end Aeolis.Props
