import Verif.Props.Full
import Verif.Props.WholeTrace
import Verif.Props.Duran
import Verif.Props.PlanarExamples
import Verif.Props.FullRun

/-!
Roughness and grain speeds in complete time steps, for any settings: the roughness of each cell is that of the selected method for the sand
in the top layer, it determines the undisturbed shear velocity, and with the method `duran` the grain speeds are those of the drag law
for the wind, the thresholds and the bed slopes of the step.
-/

namespace Aeolis.Props

open Aeolis Aeolis.Spec Transport Solver Sand Whole Bed

variable {nx ny nf : ℕ}

/-- The roughness `z0` of all cells is that of the method of the configuration, for wind speed `v` and the sand `mass` of the top layers. -/
def RoughnessOf (W : Full.WindConfig) (T : Threshold.Config nf) (v : ℝ) {n : ℕ} (mass : Fin n → Fin nf → ℝ) (z0 : Fin n → ℝ) : Prop :=
  ∀ c, Wind.roughness W.methodRoughness { k := W.k, z := W.z, kappa := W.kappa, rhog := W.rhog, rhoa := W.rhoa, g := W.g, size := T.grainSize, dist := T.grainDist, mass := mass c, uw := |v| } = .ok (some (z0 c))

theorem sum_const_ne {v : ℝ} (hv : v ≠ 0) {w : Fin (cells nx ny) → Wind} (h : ∀ c, (w c).uw = |v|) : ∑ c, (w c).uw ≠ 0 := by
  rw [Finset.sum_congr rfl fun c _ => h c, Finset.sum_const, Finset.card_univ, Fintype.card_fin, nsmul_eq_mul]
  have : (0 : ℝ) < (cells nx ny : ℕ) := by
    have : 0 < cells nx ny := by simp [cells]
    exact_mod_cast this
  exact (mul_pos this (abs_pos.mpr hv)).ne'

theorem full_roughnesses_ok {C : Full.Config nx nf} {σ : Full.State nx nf} {v : ℝ} {z0 : Fin (cells nx 0) → ℝ}
    (h : Full.roughnesses C σ v = some (.ok z0)) : RoughnessOf C.wind C.core.thr v (fun c => (σ.core.sand.bed c).mass 0) z0 := by
  unfold Full.roughnesses at h
  split at h
  · simp at h
  · next r hr =>
    split_ifs at h with hv
    have hz := Except.ok.inj (Option.some.inj h)
    intro c
    have := collect_ok.mp hr c
    rw [(hv c).choose_spec] at this
    rw [← hz]
    exact this

theorem planar_roughnesses_ok {C : Planar.Config nx ny nf} {σ : Planar.State nx ny nf} {v : ℝ} {z0 : Fin (cells nx ny) → ℝ}
    (h : Planar.roughnesses C σ v = some (.ok z0)) : RoughnessOf C.wind C.core.thr v (fun c => (σ.core.sand.bed c).mass 0) z0 := by
  unfold Planar.roughnesses at h
  split at h
  · simp at h
  · next r hr =>
    split_ifs at h with hv
    have hz := Except.ok.inj (Option.some.inj h)
    intro c
    have := collect_ok.mp hr c
    rw [(hv c).choose_spec] at this
    rw [← hz]
    exact this

/-- Grain speeds used by a step in which the method is `duran`. -/
theorem full_duran {C : Full.Config nx nf} {E : Env nx 0 nf} {σ : Whole.State nx 0 nf} {zsep : ℕ → ℝ}
    {s : Fin (cells nx 0) → Fin nf → Speed} (h : Full.duranSpeeds C E σ zsep = some s)
    {thr : Fin (cells nx 0) → Threshold.Thr nf} (ht : ∀ c, Threshold.compute C.core.thr (thrCell E (waves C.core E σ) c) ((waves C.core E σ).thr c) = .ok (thr c)) :
    ∀ c f, ∃ u, (thr c).uth0 f = XR.fin u ∧
      Duran.velocity (C.duran f) ⟨E.wind c, u, Duran.slopeS nx 0 (fun _ j => Full.col (fun c => (σ.sand.bed c).zb) j) (fun _ j => C.x j) 0 c, 0,
        Full.col (fun c => (σ.sand.bed c).zb) c, zsep c⟩ = some (s c f) := by
  have hthr : thresholds C.core E (waves C.core E σ) = .ok thr := collect_ok.mpr ht
  unfold Full.duranSpeeds at h
  rw [hthr] at h
  simp only at h
  split_ifs at h with hv
  have hs := Option.some.inj h
  intro c f
  have := (hv c f).choose_spec
  rw [show (hv c f).choose = s c f from congrFun (congrFun hs c) f] at this
  split at this
  · next u hu => exact ⟨u, hu, this⟩
  · simp at this

theorem planar_duran {C : Planar.Config nx ny nf} {E : Env nx ny nf} {σ : Whole.State nx ny nf} {zsep : Fin (cells nx ny) → ℝ}
    {s : Fin (cells nx ny) → Fin nf → Speed} (h : Planar.duranSpeeds C E σ zsep = some s)
    {thr : Fin (cells nx ny) → Threshold.Thr nf} (ht : ∀ c, Threshold.compute C.core.thr (thrCell E (waves C.core E σ) c) ((waves C.core E σ).thr c) = .ok (thr c)) :
    ∀ c f, ∃ u, (thr c).uth0 f = XR.fin u ∧
      Duran.velocity (C.duran f) ⟨E.wind c, u,
        Duran.slopeS nx ny (Planar.grid fun c => (σ.sand.bed c).zb) (fun i j => (C.g i j).1) (Planar.rowOf c) (Planar.colOf c),
        Duran.slopeN ny (Planar.grid fun c => (σ.sand.bed c).zb) (fun i j => (C.g i j).2) (Planar.rowOf c) (Planar.colOf c),
        (σ.sand.bed c).zb, zsep c⟩ = some (s c f) := by
  have hthr : thresholds C.core E (waves C.core E σ) = .ok thr := collect_ok.mpr ht
  unfold Planar.duranSpeeds at h
  rw [hthr] at h
  simp only at h
  split_ifs at h with hv
  have hs := Option.some.inj h
  intro c f
  have := (hv c f).choose_spec
  rw [show (hv c f).choose = s c f from congrFun (congrFun hs c) f] at this
  split at this
  · next u hu => exact ⟨u, hu, this⟩
  · simp at this

/-- **C156** In an executed step on a transect the wind is that of the file at the time of the state, the roughness of each cell is that of the selected
method for the sand of its top layer, and the transport is that of a step of the transport chain driven by the wind and by the
undisturbed shear velocity of that roughness. -/
theorem C156_transect (sp : LinSolve nx 0) (C : Full.Config nx nf) (r : ℕ → ℝ) (dt : ℝ) (σ τ : Full.State nx nf)
    (file : List (ℝ × ℝ × ℝ)) (hp : C.wind.processWind = true) (hf : C.wind.file = some file)
    (h : Full.update sp C r dt σ = some (.ok (τ, true))) :
    ∃ v d z0, ∃ E : Env nx 0 nf, ∃ ρ : Whole.State nx 0 nf, Wind.windAt file σ.clock.t = some (v, d) ∧
      RoughnessOf C.wind C.core.thr v (fun c => (σ.core.sand.bed c).mass 0) z0 ∧
      (∀ c, (E.wind c).uw = |v| ∧ (E.wind c).ustar0 = |v| * |C.wind.kappa / Real.log (C.wind.z / z0 c)|) ∧ E.dt = τ.clock.dt ∧
      Whole.step sp C.core E σ.core = some (.ok ρ) ∧ τ.core.thr = ρ.thr ∧ τ.core.speed = ρ.speed ∧ τ.core.cap = ρ.cap ∧ τ.core.w = ρ.w ∧
      τ.core.sand.Ct = ρ.sand.Ct ∧ (∀ c, (τ.core.sand.bed c).mass = (ρ.sand.bed c).mass) ∧
      (C.core.tr.methodGrainspeed = "duran" → C.core.tr.processTransport = true → v ≠ 0 → ∀ c f, ∃ u, (τ.core.thr c).uth0 f = XR.fin u ∧
        Duran.velocity (C.duran f) ⟨E.wind c, u,
          Duran.slopeS nx 0 (fun _ j => Full.col (fun c => (σ.core.sand.bed c).zb) j) (fun _ j => C.x j) 0 c, 0,
          (σ.core.sand.bed c).zb, τ.zsep c⟩ = some (τ.core.speed c f)) := by
  obtain ⟨w, z0, hw, hz, hb, -, hT⟩ := Full.update_ok h
  have e := hT rfl
  set k := setTimestep C.ts (Full.tsGrids C (Full.prepared C σ w z0) (Full.windComponents C w)) (Full.prepared C σ w z0).clock dt with hk
  obtain ⟨met, wa, m, E, ρ, zb, -, -, -, hE, hstep, -, rfl⟩ := Full.execute_ok e
  have hw' : Wind.windAt file σ.clock.t = some (w.1, w.2) := by
    unfold Full.windNow at hw
    rw [hp, hf] at hw
    simp only at hw
    split at hw
    · simp at hw
    · next x hx => rw [hx, Except.ok.inj hw]
  have hmain : (∀ c, (E.wind c).uw = |w.1| ∧ (E.wind c).ustar0 = |w.1| * |C.wind.kappa / Real.log (C.wind.z / z0 c)|) ∧ E.dt = k.1.dt ∧
      (C.core.tr.methodGrainspeed = "duran" → w.1 ≠ 0 → Full.duranSpeeds C { E with duran := fun _ _ => ⟨0, 0, 0⟩ } σ.core
        (Full.prepared C σ w z0).zsep = some E.duran) := by
    have h0 := fun c => Full.shear0_ustar C σ w z0 c
    unfold Full.env at hE
    simp only at hE
    split_ifs at hE with hd
    · split at hE
      · simp at hE
      · next s hs =>
        obtain rfl := Option.some.inj hE
        exact ⟨fun c => ⟨rfl, h0 c⟩, rfl, fun _ _ => hs⟩
    · obtain rfl := Option.some.inj hE
      refine ⟨fun c => ⟨rfl, h0 c⟩, rfl, fun a b => absurd ⟨a, ?_⟩ hd⟩
      show |w.1| ≠ 0
      exact abs_ne_zero.mpr b
  refine ⟨w.1, w.2, z0, E, ρ, hw', full_roughnesses_ok hz, hmain.1, hmain.2.1, hstep, rfl, rfl, rfl, rfl, rfl, fun _ => rfl, ?_⟩
  intro hd hpt hv c f
  obtain ⟨ht, hs, -⟩ := C132_with_wind sp C.core E σ.core ρ (sum_const_ne hv fun c => (hmain.1 c).1) hstep
  obtain ⟨u, hu, h2⟩ := full_duran (hmain.2.2 hd hv) (thr := ρ.thr) ht c f
  refine ⟨u, hu, ?_⟩
  have hs' := hs c f
  rw [if_pos hpt] at hs'
  unfold Transport.grainspeed at hs'
  rw [if_pos hd] at hs'
  have hcol : Full.col (fun c => (σ.core.sand.bed c).zb) c = (σ.core.sand.bed c).zb := Full.col_apply _ c
  rw [hcol] at h2
  exact h2.trans (congrArg some (Except.ok.inj hs'))

/-- **C156** On a planar grid, see `C156_transect`. -/
theorem C156_planar (sp : LinSolve nx ny) (C : Planar.Config nx ny nf) (r : ℕ → ℕ → ℝ) (dt : ℝ) (σ τ : Planar.State nx ny nf)
    (file : List (ℝ × ℝ × ℝ)) (hp : C.wind.processWind = true) (hf : C.wind.file = some file)
    (h : Planar.update sp C r dt σ = some (.ok (τ, true))) :
    ∃ v d z0, ∃ E : Env nx ny nf, ∃ ρ : Whole.State nx ny nf, Wind.windAt file σ.clock.t = some (v, d) ∧
      RoughnessOf C.wind C.core.thr v (fun c => (σ.core.sand.bed c).mass 0) z0 ∧
      (∀ c, (E.wind c).uw = |v| ∧ (E.wind c).ustar0 = |v| * |C.wind.kappa / Real.log (C.wind.z / z0 c)|) ∧ E.dt = τ.clock.dt ∧
      Whole.step sp C.core E σ.core = some (.ok ρ) ∧ τ.core.thr = ρ.thr ∧ τ.core.speed = ρ.speed ∧ τ.core.cap = ρ.cap ∧ τ.core.w = ρ.w ∧
      τ.core.sand.Ct = ρ.sand.Ct ∧ (∀ c, (τ.core.sand.bed c).mass = (ρ.sand.bed c).mass) ∧
      (C.core.tr.methodGrainspeed = "duran" → C.core.tr.processTransport = true → v ≠ 0 → ∀ c f, ∃ u, (τ.core.thr c).uth0 f = XR.fin u ∧
        Duran.velocity (C.duran f) ⟨E.wind c, u,
          Duran.slopeS nx ny (Planar.grid fun c => (σ.core.sand.bed c).zb) (fun i j => (C.g i j).1) (Planar.rowOf c) (Planar.colOf c),
          Duran.slopeN ny (Planar.grid fun c => (σ.core.sand.bed c).zb) (fun i j => (C.g i j).2) (Planar.rowOf c) (Planar.colOf c),
          (σ.core.sand.bed c).zb, τ.zsep c⟩ = some (τ.core.speed c f)) := by
  obtain ⟨w, z0, res, hw, hz, hres, hb, -, hT⟩ := Planar.update_ok h
  have e := hT rfl
  obtain ⟨met, wa, m, E, ρ, zb, -, -, -, hE, hstep, -, rfl⟩ := Planar.execute_ok e
  have hw' : Wind.windAt file σ.clock.t = some (w.1, w.2) := by
    unfold Planar.windNow at hw
    rw [hp, hf] at hw
    simp only at hw
    split at hw
    · simp at hw
    · next x hx => rw [hx, Except.ok.inj hw]
  set P := Planar.prepared C σ (Planar.windComponents C w) res (Planar.shearNow C σ (Planar.windComponents C w) res (Planar.shear0 C σ w z0)) with hP
  have hmain : (∀ c, (E.wind c).uw = |w.1| ∧ (E.wind c).ustar0 = |w.1| * |C.wind.kappa / Real.log (C.wind.z / z0 c)|) ∧
      E.dt = (setTimestep C.ts (Planar.tsGrids C P (Planar.windComponents C w)) P.clock dt).1.dt ∧
      (C.core.tr.methodGrainspeed = "duran" → w.1 ≠ 0 → Planar.duranSpeeds C { E with duran := fun _ _ => ⟨0, 0, 0⟩ } σ.core
        P.zsep = some E.duran) := by
    have h0 := fun c => Planar.shear0_ustar C σ w z0 c
    unfold Planar.env at hE
    simp only at hE
    split_ifs at hE with hd
    · split at hE
      · simp at hE
      · next s hs =>
        obtain rfl := Option.some.inj hE
        exact ⟨fun c => ⟨rfl, h0 c⟩, rfl, fun _ _ => hs⟩
    · obtain rfl := Option.some.inj hE
      refine ⟨fun c => ⟨rfl, h0 c⟩, rfl, fun a b => absurd ⟨a, ?_⟩ hd⟩
      show |w.1| ≠ 0
      exact abs_ne_zero.mpr b
  refine ⟨w.1, w.2, z0, E, ρ, hw', planar_roughnesses_ok hz, hmain.1, hmain.2.1, hstep, rfl, rfl, rfl, rfl, rfl, fun _ => rfl, ?_⟩
  intro hd hpt hv c f
  obtain ⟨ht, hs, -⟩ := C132_with_wind sp C.core E σ.core ρ (sum_const_ne hv fun c => (hmain.1 c).1) hstep
  obtain ⟨u, hu, h2⟩ := planar_duran (hmain.2.2 hd hv) (thr := ρ.thr) ht c f
  refine ⟨u, hu, ?_⟩
  have hs' := hs c f
  rw [if_pos hpt] at hs'
  unfold Transport.grainspeed at hs'
  rw [if_pos hd] at hs'
  exact h2.trans (congrArg some (Except.ok.inj hs'))

/-! ### Steps return -/

/-- The grains have a velocity wherever the bed is gentle: the slope, times twice the coefficient of the drag law, below one. -/
theorem duran_exists (p : Duran.Params) (x : Duran.Cell) (huw : x.w.uw ≠ 0) (hw : x.w.uws ^ 2 + x.w.uwn ^ 2 = x.w.uw ^ 2)
    (hu : x.w.ustars ^ 2 + x.w.ustarn ^ 2 = x.w.ustar ^ 2) (hs : (2 * p.alpha * x.dhs) ^ 2 + (2 * p.alpha * x.dhn) ^ 2 < 1)
    (h0 : x.uth0 ≠ 0) : ∃ s, Duran.velocity p x = some s := by
  have hd : ∃ e : ℝ × ℝ, Duran.direction x.w = some e ∧ e.1 ^ 2 + e.2 ^ 2 = 1 := by
    unfold Duran.direction
    split_ifs with h
    · have : x.w.ustar ≠ 0 := by linarith
      refine ⟨_, rfl, ?_⟩
      simp only
      field_simp
      exact hu
    · refine ⟨_, rfl, ?_⟩
      simp only
      field_simp
      exact hw
  obtain ⟨e, he, h1⟩ := hd
  unfold Duran.velocity
  rw [he]
  simp only
  have hA : Real.sqrt ((e.1 + 2 * p.alpha * x.dhs) ^ 2 + (e.2 + 2 * p.alpha * x.dhn) ^ 2) ≠ 0 := by
    intro hz
    rw [Real.sqrt_eq_zero (by positivity)] at hz
    have a := sq_nonneg (e.1 + 2 * p.alpha * x.dhs)
    have b := sq_nonneg (e.2 + 2 * p.alpha * x.dhn)
    have a' : e.1 = -(2 * p.alpha * x.dhs) := by
      have := pow_eq_zero_iff (two_ne_zero) |>.mp (le_antisymm (by linarith) a)
      linarith
    have b' : e.2 = -(2 * p.alpha * x.dhn) := by
      have := pow_eq_zero_iff (two_ne_zero) |>.mp (le_antisymm (by linarith) b)
      linarith
    rw [a', b', neg_sq, neg_sq] at h1
    linarith
  split_ifs with hb hc
  · exact ⟨_, rfl⟩
  · rcases hc with hc | hc
    · exact absurd hc h0
    · exact absurd hc hA
  all_goals exact ⟨_, rfl⟩

/-- Speeds of the grains are not negative, for each of the methods. -/
theorem grainspeed_nonneg (p : Transport.Params) (w : Transport.Wind) (hw : 0 ≤ w.uw) (d s : Speed) (hd : 0 ≤ d.u)
    (h : Transport.grainspeed p w d = .ok s) : 0 ≤ s.u := by
  unfold Transport.grainspeed at h
  split_ifs at h
  · exact (Except.ok.inj h) ▸ hd
  · exact (Except.ok.inj h) ▸ hw
  · rw [← Except.ok.inj h]
    exact Real.sqrt_nonneg _

/-- The threshold for the grain size is a positive number. -/
theorem grainsize_positive (c : Threshold.Config nf) (hc : PhysicalBed c) (i : Fin nf) (hi : 0 < c.grainSize i) :
    ∃ u, Threshold.grainsizeThreshold c i = XR.fin u ∧ u ≠ 0 := by
  have h : 0 < (c.rhog - c.rhoa) / c.rhoa * c.g * c.grainSize i := by
    have h1 : 0 < c.rhog - c.rhoa := by linarith [hc.rhog]
    have := hc.rhoa
    have := hc.g
    positivity
  unfold Threshold.grainsizeThreshold
  rw [XR.sqrt_fin h.le]
  exact ⟨_, rfl, (mul_pos hc.Aa (Real.sqrt_pos.mpr h)).ne'⟩

/-- Sensible settings for a transect, whatever the method for the grain speeds and the roughness: the implicit scheme without a limit on the
change of the bed level. -/
structure AnyUsable (C : Full.Config nx nf) : Prop where
  core : ConfigOk C.core
  grid : GridOk nx 0 C.core
  kappa : 0 < C.wind.kappa
  weights : ∀ i k, 0 ≤ C.shelter.vegWeights i k
  mask : ∀ j, 0 < (C.thresholdMask j).1 ∧ 0 ≤ (C.thresholdMask j).2
  step : C.ts.explicit = false ∧ C.ts.maxChange = 999

/-- The bed is gentle and the shear that of a flat bed: what the method `duran` needs. -/
def GentleBed (C : Full.Config nx nf) (zb : Fin (cells nx 0) → ℝ) : Prop :=
  Undisturbed C ∧ ∀ (c : Fin (cells nx 0)) f, |2 * (C.duran f).alpha * Duran.slopeS nx 0 (fun _ j => Full.col zb j) (fun _ j => C.x j) 0 c| < 1

theorem full_speeds (C : Full.Config nx nf) (hC : AnyUsable C) (hN : NamesOk C.core) (σ : Full.State nx nf) (w : ℝ × ℝ) (z0 : Fin (cells nx 0) → ℝ)
    (hg : C.core.tr.methodGrainspeed = "duran" → GentleBed C fun c => (σ.core.sand.bed c).zb)
    (ρ : Full.State nx nf) (hρ : ρ.core = σ.core ∧ ρ.shear = Full.shearNow C σ w z0)
    (dt : ℝ) (h : Hydro.HydroState) (m : Fin (cells nx 0) → Moisture.Cell) :
    ∃ d, Full.env C ρ (Full.windComponents C w) (Full.shear0 C σ w z0) ρ.shear dt h m ρ.zsep =
      some (Full.envWith C ρ (Full.windComponents C w) (Full.shear0 C σ w z0) ρ.shear dt h m d) ∧ ∀ c f, 0 ≤ (d c f).u := by
  unfold Full.env
  simp only
  split_ifs with hd
  · obtain ⟨⟨u1, u2, u3⟩, hs⟩ := hg hd.1
    have hsh : Full.shearNow C σ w z0 = Full.shear0 C σ w z0 := by
      funext j
      simp [Full.shearNow, Full.shear1, Full.shear2, Full.shear3, u1, u2, u3]
    have hv : ∃ d, Full.duranSpeeds C (Full.envWith C ρ (Full.windComponents C w) (Full.shear0 C σ w z0) ρ.shear dt h m fun _ _ => ⟨0, 0, 0⟩)
        ρ.core ρ.zsep = some d ∧ ∀ c f, 0 ≤ (d c f).u := by
      set E := Full.envWith C ρ (Full.windComponents C w) (Full.shear0 C σ w z0) ρ.shear dt h m fun _ _ => ⟨0, 0, 0⟩ with hE
      choose thr hthr using fun c => compute_total C.core.thr (thrCell E (waves C.core E ρ.core) c) ((waves C.core E ρ.core).thr c) hC.core.moist
        hC.core.threshold.2.2.2 hN.functions
      have ht : thresholds C.core E (waves C.core E ρ.core) = .ok thr := collect_ok.mpr hthr
      have hu : ∀ c f, ∃ u, (thr c).uth0 f = XR.fin u ∧ u ≠ 0 := by
        intro c f
        obtain ⟨-, -, -, e, -⟩ := compute_first C.core.thr _ _ _ hC.core.threshold.1 hC.core.threshold.2.1 hC.core.threshold.2.2.1 (hthr c)
        rw [e]
        exact grainsize_positive C.core.thr hC.core.bed f (hC.core.size f)
      unfold Full.duranSpeeds
      rw [ht]
      simp only
      have hall : ∀ (c : Fin (cells nx 0)) (f : Fin nf), ∃ s, (match (thr c).uth0 f with
          | XR.fin u => Duran.velocity (C.duran f) ⟨E.wind c, u, Duran.slopeS nx 0 (fun _ j => Full.col (fun c => (ρ.core.sand.bed c).zb) j)
              (fun _ j => C.x j) 0 c, 0, Full.col (fun c => (ρ.core.sand.bed c).zb) c, ρ.zsep c⟩
          | _ => none) = some s := by
        intro c f
        obtain ⟨u, e, hu0⟩ := hu c f
        rw [e]
        refine duran_exists _ _ hd.2 (Full.components_square C w) ?_ ?_ hu0
        · show (ρ.shear c).ustars ^ 2 + (ρ.shear c).ustarn ^ 2 = (ρ.shear c).ustar ^ 2
          rw [hρ.2, hsh, Full.shear0_ustar, (Full.shear0_direction C σ w z0 c).1, (Full.shear0_direction C σ w z0 c).2, mul_pow, mul_pow, mul_pow,
            ← add_mul, Full.components_square, sq_abs (C.wind.kappa / _)]
          rfl
        · have := hs c f
          rw [← hρ.1] at this
          simp only [mul_zero, ne_eq, OfNat.ofNat_ne_zero, not_false_eq_true, zero_pow, add_zero]
          exact (sq_lt_one_iff_abs_lt_one _).mpr this
      split_ifs with hv
      · refine ⟨_, rfl, fun c f => ?_⟩
        have := (hv c f).choose_spec
        obtain ⟨u, e, -⟩ := hu c f
        generalize (hv c f).choose = q at this ⊢
        rw [e] at this
        exact (C129_magnitude _ _ _ this).1
      · exact absurd hall hv
    obtain ⟨d, hd', hn⟩ := hv
    rw [hd']
    exact ⟨d, rfl, hn⟩
  · exact ⟨fun _ _ => ⟨0, 0, 0⟩, rfl, fun _ _ => le_rfl⟩

/-- The roughness of all cells is positive and below the height of the wind measurements. -/
def RoughBelow (W : Full.WindConfig) (T : Threshold.Config nf) (v : ℝ) {n : ℕ} (mass : Fin n → Fin nf → ℝ) : Prop :=
  ∃ z0 : Fin n → ℝ, RoughnessOf W T v mass z0 ∧ ∀ c, 0 < z0 c ∧ z0 c < W.z

theorem full_roughnesses_intro {C : Full.Config nx nf} {σ : Full.State nx nf} {v : ℝ} {z0 : Fin (cells nx 0) → ℝ}
    (h : RoughnessOf C.wind C.core.thr v (fun c => (σ.core.sand.bed c).mass 0) z0) : Full.roughnesses C σ v = some (.ok z0) := by
  unfold Full.roughnesses
  have hc : collect (fun c => Wind.roughness C.wind.methodRoughness (Full.rough C σ |v| c)) = .ok fun c => some (z0 c) := collect_ok.mpr h
  rw [hc]
  simp only
  have hv : ∀ c, ∃ v, some (z0 c) = some v := fun c => ⟨_, rfl⟩
  rw [dif_pos hv]
  congr 2
  funext c
  exact (Option.some.inj (hv c).choose_spec).symm

theorem planar_roughnesses_intro {C : Planar.Config nx ny nf} {σ : Planar.State nx ny nf} {v : ℝ} {z0 : Fin (cells nx ny) → ℝ}
    (h : RoughnessOf C.wind C.core.thr v (fun c => (σ.core.sand.bed c).mass 0) z0) : Planar.roughnesses C σ v = some (.ok z0) := by
  unfold Planar.roughnesses
  have hc : collect (fun c => Wind.roughness C.wind.methodRoughness (Planar.rough C σ |v| c)) = .ok fun c => some (z0 c) := collect_ok.mpr h
  rw [hc]
  simp only
  have hv : ∀ c, ∃ v, some (z0 c) = some v := fun c => ⟨_, rfl⟩
  rw [dif_pos hv]
  congr 2
  funext c
  exact (Option.some.inj (hv c).choose_spec).symm

/-- With the mean grain size of the top layer as roughness: sand in every top layer, grains smaller than thirty times the height of the
measurements. -/
theorem mean_adaptive_below (W : Full.WindConfig) (T : Threshold.Config nf) (v : ℝ) {n : ℕ} (mass : Fin n → Fin nf → ℝ)
    (hm : W.methodRoughness = "mean_grainsize_adaptive") (h0 : ∀ c f, 0 ≤ mass c f) (hs : ∀ c, 0 < ∑ f, mass c f)
    (hd : ∀ f, 0 < T.grainSize f ∧ T.grainSize f < 30 * W.z) : RoughBelow W T v mass := by
  refine ⟨fun c => (∑ f, T.grainSize f * (mass c f / ∑ j, mass c j)) / 30, fun c => ?_, fun c => ?_⟩
  · unfold Wind.roughness
    rw [hm, if_neg (by decide), if_neg (by decide), if_neg (by decide), if_pos rfl]
    simp only [meanGrainSize]
    rw [if_neg (hs c).ne']
    rfl
  · have hsum : ∑ f, mass c f / ∑ j, mass c j = 1 := by rw [← Finset.sum_div, div_self (hs c).ne']
    obtain ⟨k, -, hk⟩ : ∃ k ∈ Finset.univ, 0 < mass c k := by
      by_contra hno
      push Not at hno
      have : ∑ k, mass c k ≤ 0 := Finset.sum_nonpos fun k hk => hno k hk
      linarith [hs c]
    have hw : ∀ f, 0 ≤ mass c f / ∑ j, mass c j := fun f => div_nonneg (h0 c f) (hs c).le
    constructor
    · refine div_pos (Finset.sum_pos' (fun f _ => mul_nonneg (hd f).1.le (hw f)) ⟨k, Finset.mem_univ _, mul_pos (hd k).1 (div_pos hk (hs c))⟩)
        (by norm_num)
    · have : ∑ f, T.grainSize f * (mass c f / ∑ j, mass c j) < ∑ f, 30 * W.z * (mass c f / ∑ j, mass c j) := by
        refine Finset.sum_lt_sum (fun f _ => mul_le_mul_of_nonneg_right (hd f).2.le (hw f)) ⟨k, Finset.mem_univ _, ?_⟩
        exact mul_lt_mul_of_pos_right (hd k).2 (div_pos hk (hs c))
      rw [← Finset.mul_sum, hsum, mul_one] at this
      rw [div_lt_iff₀ (by norm_num)]
      linarith

/-- **C156** A call of `update` on a transect returns for each method for the grain speeds and each roughness: with `duran` on a gentle bed. -/
theorem C156_transect_total (sp : LinSolve nx 0) (C : Full.Config nx nf) (hC : AnyUsable C) (hN : NamesOk C.core) (hF : FilesOk C) (r : ℕ → ℝ) (dt : ℝ)
    (σ : Full.State nx nf) (h0 : ∀ c f, 0 ≤ (σ.core.cap c f).Cu0)
    (hr : ∀ v, RoughBelow C.wind C.core.thr v fun c => (σ.core.sand.bed c).mass 0)
    (hg : C.core.tr.methodGrainspeed = "duran" → GentleBed C fun c => (σ.core.sand.bed c).zb) :
    ∃ τ b, Full.update sp C r dt σ = some (.ok (τ, b)) ∧ (b = true ↔ ¬ dt < -1) := by
  obtain ⟨w, hw⟩ := windNow_total C hF.toSeriesOk σ
  obtain ⟨z0, hz', hz0⟩ := hr w.1
  have hz := full_roughnesses_intro hz'
  have ht : ∀ (g : TsGrids ℝ (Fin (cells nx 0))) (c : Clock ℝ), setTimestep C.ts g c dt =
      if dt < -1 then ({ c with dt := dt, t := c.t + |dt| }, false) else ({ c with dt := if 0 < dt then dt else C.ts.dt }, true) := by
    intro g c
    unfold setTimestep limitBedChange
    simp [hC.step.1, hC.step.2]
  have hk := ht (Full.tsGrids C (Full.prepared C σ w z0) (Full.windComponents C w)) (Full.prepared C σ w z0).clock
  by_cases hd : dt < -1
  · unfold Full.update
    simp only [hw, hz]
    rw [hk, if_pos hd]
    exact ⟨_, _, rfl, by simp [hd]⟩
  · rw [if_neg hd] at hk
    let ρ : Full.State nx nf := { Full.prepared C σ w z0 with
      clock := { (Full.prepared C σ w z0).clock with dt := if 0 < dt then dt else C.ts.dt } }
    obtain ⟨h, hh⟩ : ∃ h, Hydro.hydroStep C.water (Full.row C ρ) (Full.groundIn C) ρ.clock.t ρ.clock.dt ρ.hydro = .ok h := hydro_total C hF _ _ _ _
    obtain ⟨met, hmet⟩ := meteo_total C hF.toSeriesOk (Hydro.lastTime C.ground ρ.clock.t ρ.clock.dt)
    obtain ⟨m, hm⟩ := moistures_total C hF.toSeriesOk ρ ρ.clock.t _ ρ.clock.dt (Full.windComponents C w).uw met (meteoAt_is hmet) h
    obtain ⟨d, hE, hdn⟩ := full_speeds C hC hN σ w z0 hg ρ ⟨rfl, rfl⟩ ρ.clock.dt h m
    obtain ⟨τ, hτ⟩ := C125_total sp C.core hC.core hN hC.grid
      (Full.envWith C ρ (Full.windComponents C w) (Full.shear0 C σ w z0) ρ.shear ρ.clock.dt h m d) (fun hwind => by
        have hw0 : w.1 ≠ 0 := by
          intro h0
          apply hwind
          simp [Full.envWith, Full.windComponents, h0]
        refine ⟨fun c => ⟨Full.shearNow_nonneg C hC.weights σ w z0 c, fun _ => ?_⟩, fun c => hC.mask c, fun c f s hs => ?_⟩
        · show 0 < (Full.shear0 C σ w z0 c).ustar
          rw [Full.shear0_ustar]
          have hl : 0 < Real.log (C.wind.z / z0 c) := Real.log_pos ((one_lt_div (hz0 c).1).mpr (hz0 c).2)
          exact mul_pos (abs_pos.mpr hw0) (abs_pos.mpr (div_pos hC.kappa hl).ne')
        · exact grainspeed_nonneg _ _ (abs_nonneg w.1) _ s (hdn c f) hs) σ.core h0
    obtain ⟨zb, hzb⟩ := eroded_total C hF.toSeriesOk (by have := hC.grid.columns; omega) ρ.clock.t ρ.clock.dt h.water
      (Full.col fun c => (τ.sand.bed c).zb)
    exact ⟨_, _, Full.update_intro hw hz hk (Full.execute_intro hmet hh hm hE hτ hzb), by simp [hd]⟩

/-- The undisturbed shear velocity has the direction of the wind. -/
theorem planar_shear0_direction (C : Planar.Config nx ny nf) (σ : Planar.State nx ny nf) (w : ℝ × ℝ) (z0 : Fin (cells nx ny) → ℝ)
    (c : Fin (cells nx ny)) :
    (Planar.shear0 C σ w z0 c).ustars = (Planar.windComponents C w).uws * (C.wind.kappa / Real.log (C.wind.z / z0 c)) ∧
      (Planar.shear0 C σ w z0 c).ustarn = (Planar.windComponents C w).uwn * (C.wind.kappa / Real.log (C.wind.z / z0 c)) := by
  have hv : ∀ s : Wind.Shear, (Wind.velocityStress C.wind.rhoa s).ustars = s.ustars ∧ (Wind.velocityStress C.wind.rhoa s).ustarn = s.ustarn := by
    intro s
    unfold Wind.velocityStress
    dsimp only
    split_ifs <;> exact ⟨rfl, rfl⟩
  unfold Planar.shear0 Full.turn Wind.interpolateCell Planar.windComponents rotatePt
  simp only [(hv _).1, (hv _).2]
  constructor <;> ring

/-- Sensible settings for a planar grid, whatever the method for the grain speeds and the roughness: the implicit scheme without a limit on the
change of the bed level. -/
structure PlanarAnyUsable (C : Planar.Config nx ny nf) : Prop where
  core : ConfigOk C.core
  grid : GridOk nx ny C.core
  kappa : 0 < C.wind.kappa
  weights : ∀ i k, 0 ≤ C.shelter.vegWeights i k
  mask : ∀ c, 0 < (C.thresholdMask c).1 ∧ 0 ≤ (C.thresholdMask c).2
  step : C.ts.explicit = false ∧ C.ts.maxChange = 999

/-- The bed is gentle and the shear that of a flat bed: what the method `duran` needs. -/
def PlanarGentle (C : Planar.Config nx ny nf) (zb : Fin (cells nx ny) → ℝ) : Prop :=
  PlanarUndisturbed C ∧ ∀ (c : Fin (cells nx ny)) f,
    (2 * (C.duran f).alpha * Duran.slopeS nx ny (Planar.grid zb) (fun i j => (C.g i j).1) (Planar.rowOf c) (Planar.colOf c)) ^ 2 +
    (2 * (C.duran f).alpha * Duran.slopeN ny (Planar.grid zb) (fun i j => (C.g i j).2) (Planar.rowOf c) (Planar.colOf c)) ^ 2 < 1

theorem planar_speeds (C : Planar.Config nx ny nf) (hC : PlanarAnyUsable C) (hN : NamesOk C.core) (σ : Planar.State nx ny nf) (w : ℝ × ℝ) (z0 : Fin (cells nx ny) → ℝ)
    (res : Option Shear.Result) (hg : C.core.tr.methodGrainspeed = "duran" → PlanarGentle C fun c => (σ.core.sand.bed c).zb)
    (ρ : Planar.State nx ny nf) (hρ : ρ.core = σ.core ∧ ρ.shear = Planar.shearNow C σ (Planar.windComponents C w) res (Planar.shear0 C σ w z0))
    (hres : Planar.stresses C σ (Planar.windComponents C w) (Planar.shear0 C σ w z0) = .ok res)
    (dt : ℝ) (h : Fin (ny + 1) → Hydro.Water) (m : Fin (cells nx ny) → Moisture.Cell) :
    ∃ d, Planar.env C ρ (Planar.windComponents C w) (Planar.shear0 C σ w z0) ρ.shear dt h m ρ.zsep =
      some (Planar.envWith C ρ (Planar.windComponents C w) (Planar.shear0 C σ w z0) ρ.shear dt h m d) ∧ ∀ c f, 0 ≤ (d c f).u := by
  unfold Planar.env
  simp only
  split_ifs with hd
  · obtain ⟨⟨u1, u2, u3⟩, hs⟩ := hg hd.1
    have hres' : res = none := by
      unfold Planar.stresses at hres
      rw [if_neg (by simp [u1])] at hres
      exact (Except.ok.inj hres).symm
    have hsh : Planar.shearNow C σ (Planar.windComponents C w) res (Planar.shear0 C σ w z0) = Planar.shear0 C σ w z0 := by
      funext c
      simp [Planar.shearNow, Planar.shear1, Planar.shear2, Planar.shear3, hres', u2, u3]
    have hv : ∃ d, Planar.duranSpeeds C (Planar.envWith C ρ (Planar.windComponents C w) (Planar.shear0 C σ w z0) ρ.shear dt h m fun _ _ => ⟨0, 0, 0⟩)
        ρ.core ρ.zsep = some d ∧ ∀ c f, 0 ≤ (d c f).u := by
      set E := Planar.envWith C ρ (Planar.windComponents C w) (Planar.shear0 C σ w z0) ρ.shear dt h m fun _ _ => ⟨0, 0, 0⟩ with hE
      choose thr hthr using fun c => compute_total C.core.thr (thrCell E (waves C.core E ρ.core) c) ((waves C.core E ρ.core).thr c) hC.core.moist
        hC.core.threshold.2.2.2 hN.functions
      have ht : thresholds C.core E (waves C.core E ρ.core) = .ok thr := collect_ok.mpr hthr
      have hu : ∀ c f, ∃ u, (thr c).uth0 f = XR.fin u ∧ u ≠ 0 := by
        intro c f
        obtain ⟨-, -, -, e, -⟩ := compute_first C.core.thr _ _ _ hC.core.threshold.1 hC.core.threshold.2.1 hC.core.threshold.2.2.1 (hthr c)
        rw [e]
        exact grainsize_positive C.core.thr hC.core.bed f (hC.core.size f)
      unfold Planar.duranSpeeds
      rw [ht]
      simp only
      have hall : ∀ (c : Fin (cells nx ny)) (f : Fin nf), ∃ s, (match (thr c).uth0 f with
          | XR.fin u => Duran.velocity (C.duran f) ⟨E.wind c, u, 
              Duran.slopeS nx ny (Planar.grid fun c => (ρ.core.sand.bed c).zb) (fun i j => (C.g i j).1) (Planar.rowOf c) (Planar.colOf c),
              Duran.slopeN ny (Planar.grid fun c => (ρ.core.sand.bed c).zb) (fun i j => (C.g i j).2) (Planar.rowOf c) (Planar.colOf c),
              (ρ.core.sand.bed c).zb, ρ.zsep c⟩
          | _ => none) = some s := by
        intro c f
        obtain ⟨u, e, hu0⟩ := hu c f
        rw [e]
        refine duran_exists _ _ hd.2 (Planar.components_square C w) ?_ ?_ hu0
        · show (ρ.shear c).ustars ^ 2 + (ρ.shear c).ustarn ^ 2 = (ρ.shear c).ustar ^ 2
          rw [hρ.2, hsh, Planar.shear0_ustar, (planar_shear0_direction C σ w z0 c).1, (planar_shear0_direction C σ w z0 c).2, mul_pow, mul_pow, mul_pow,
            ← add_mul, Planar.components_square, sq_abs (C.wind.kappa / _)]
          rfl
        · have := hs c f
          rw [← hρ.1] at this
          exact this
      split_ifs with hv
      · refine ⟨_, rfl, fun c f => ?_⟩
        have := (hv c f).choose_spec
        obtain ⟨u, e, -⟩ := hu c f
        generalize (hv c f).choose = q at this ⊢
        rw [e] at this
        exact (C129_magnitude _ _ _ this).1
      · exact absurd hall hv
    obtain ⟨d, hd', hn⟩ := hv
    rw [hd']
    exact ⟨d, rfl, hn⟩
  · exact ⟨fun _ _ => ⟨0, 0, 0⟩, rfl, fun _ _ => le_rfl⟩

/-- **C156** A call of `update` on a planar grid returns for each method for the grain speeds and each roughness: with `duran` on a gentle bed. -/
theorem C156_planar_total (sp : LinSolve nx ny) (C : Planar.Config nx ny nf) (hC : PlanarAnyUsable C) (hN : NamesOk C.core) (hF : PlanarFiles C) (r : ℕ → ℕ → ℝ) (dt : ℝ)
    (σ : Planar.State nx ny nf) (h0 : ∀ c f, 0 ≤ (σ.core.cap c f).Cu0)
    (hr : ∀ v, RoughBelow C.wind C.core.thr v fun c => (σ.core.sand.bed c).mass 0)
    (hg : C.core.tr.methodGrainspeed = "duran" → PlanarGentle C fun c => (σ.core.sand.bed c).zb) :
    ∃ τ b, Planar.update sp C r dt σ = some (.ok (τ, b)) ∧ (b = true ↔ ¬ dt < -1) := by
  obtain ⟨w, hw⟩ := planar_windNow_total C hF.toPlanarSeries σ
  obtain ⟨z0, hz', hz0⟩ := hr w.1
  have hz := planar_roughnesses_intro hz'
  obtain ⟨res, hres⟩ := Planar.stresses_total C σ (Planar.windComponents C w) (Planar.shear0 C σ w z0) hF.bubbles
  let Q := Planar.prepared C σ (Planar.windComponents C w) res (Planar.shearNow C σ (Planar.windComponents C w) res (Planar.shear0 C σ w z0))
  have ht : ∀ (g : TsGrids ℝ (Fin (cells nx ny))) (c : Clock ℝ), setTimestep C.ts g c dt =
      if dt < -1 then ({ c with dt := dt, t := c.t + |dt| }, false) else ({ c with dt := if 0 < dt then dt else C.ts.dt }, true) := by
    intro g c
    unfold setTimestep limitBedChange
    simp [hC.step.1, hC.step.2]
  have hk := ht (Planar.tsGrids C Q (Planar.windComponents C w)) Q.clock
  by_cases hd : dt < -1
  · unfold Planar.update
    simp only [hw, hz, hres]
    rw [ht, if_pos hd]
    exact ⟨_, _, rfl, by simp [hd]⟩
  · rw [if_neg hd] at hk
    let ρ : Planar.State nx ny nf := { Q with
      clock := { Q.clock with dt := if 0 < dt then dt else C.ts.dt } }
    obtain ⟨h, hh⟩ : ∃ h, Planar.waters C ρ ρ.clock.t ρ.clock.dt = .ok h := planar_waters_total C hF ρ _ _
    obtain ⟨met, hmet⟩ := planar_meteo_total C hF.toPlanarSeries (Hydro.lastTime C.ground ρ.clock.t ρ.clock.dt)
    obtain ⟨m, hm⟩ := planar_moistures_total C hF.toPlanarSeries ρ ρ.clock.t _ ρ.clock.dt (Planar.windComponents C w).uw met (planar_meteoAt hmet) h
    obtain ⟨d, hE, hdn⟩ := planar_speeds C hC hN σ w z0 res hg ρ ⟨rfl, rfl⟩ hres ρ.clock.dt (fun i => (h i).water) m
    obtain ⟨τ, hτ⟩ := C125_total sp C.core hC.core hN hC.grid
      (Planar.envWith C ρ (Planar.windComponents C w) (Planar.shear0 C σ w z0) ρ.shear ρ.clock.dt (fun i => (h i).water) m d) (fun hwind => by
        have hw0 : w.1 ≠ 0 := by
          intro h0
          apply hwind
          simp [Planar.envWith, Planar.windComponents, h0]
        refine ⟨fun c => ⟨Planar.shearNow_nonneg C hC.weights σ (Planar.windComponents C w) res w z0 c, fun _ => ?_⟩, fun c => hC.mask c, fun c f s hs => ?_⟩
        · show 0 < (Planar.shear0 C σ w z0 c).ustar
          rw [Planar.shear0_ustar]
          have hl : 0 < Real.log (C.wind.z / z0 c) := Real.log_pos ((one_lt_div (hz0 c).1).mpr (hz0 c).2)
          exact mul_pos (abs_pos.mpr hw0) (abs_pos.mpr (div_pos hC.kappa hl).ne')
        · exact grainspeed_nonneg _ _ (abs_nonneg w.1) _ s (hdn c f) hs) σ.core h0
    obtain ⟨zb, hzb⟩ := planar_eroded_total C hF.toPlanarSeries (by have := hC.grid.columns; omega) ρ.clock.t ρ.clock.dt (fun i => (h i).water)
      (Planar.grid fun c => (τ.sand.bed c).zb)
    exact ⟨_, _, Planar.update_intro hw hz hres rfl hk (Planar.execute_intro hmet hh hm hE hτ hzb), by simp [hd]⟩

/-! ### Examples -/

/-- Roughness from the mean grain size of the top layer, grain speeds from the drag law. -/
noncomputable def dragCoast : Full.Config 2 1 :=
  { coastConfig 20 false with
    wind := { (coastConfig 20 false).wind with methodRoughness := "mean_grainsize_adaptive" }
    core := { duneConfig with tr := exTransport "bagnold" "duran" } }

theorem drag_core : ConfigOk { duneConfig with tr := exTransport "bagnold" "duran" } :=
  { duneConfig_ok with transport := ⟨exTransport_physical _ _, rfl⟩ }

theorem drag_names : NamesOk { duneConfig with tr := exTransport "bagnold" "duran" } :=
  { duneConfig_names with speed := by simp [exTransport, grainspeedMethods] }

theorem dragCoast_usable : AnyUsable dragCoast where
  core := drag_core
  grid := ⟨duneGrid.columns, duneGrid.rows, duneGrid.ds, duneGrid.dn, duneGrid.dsdni, duneGrid.cells⟩
  kappa := by norm_num [dragCoast, coastConfig]
  weights := fun _ _ => by norm_num [dragCoast, coastConfig]
  mask := fun _ => by norm_num [dragCoast, coastConfig]
  step := ⟨rfl, rfl⟩

theorem dragCoast_files : FilesOk dragCoast :=
  have h := coast_files 20 false
  ⟨⟨h.wind, h.tide, h.wave, h.moist, h.salt, h.meteo, h.dune⟩, h.ground⟩

/-- The coast an hour after the start, with wind. -/
noncomputable def windyCoast : Full.State 2 1 := { coastState with clock := ⟨3600, 3600, 3600⟩ }

theorem coast_wind (v d a : ℝ) (h : Wind.windAt [(0, 0, 270), (3600, 20, 270), (7200, 20, a)] 3600 = some (v, d)) : v = 20 := by
  have h1 : interpCircular [((0 : ℝ), (0 : ℝ)), (3600, 20), (7200, 20)] 3600 = some 20 :=
    C08_listed_times [((0 : ℝ), (0 : ℝ)), (3600, 20), (7200, 20)] (by unfold Increasing; norm_num) 1 (by simp)
  unfold Wind.windAt at h
  simp only [List.map_cons, List.map_nil, h1] at h
  split at h
  · rename_i a _ _ e1 _ _
    exact (congrArg Prod.fst (Option.some.inj h)).symm.trans (Option.some.inj e1).symm
  · simp at h

/-- C156: a step on the coast, with the roughness of the mean grain size and the velocities of the drag law. -/
example (r : ℕ → ℝ) : ∃ τ, Full.update byInverse dragCoast r 600 windyCoast = some (.ok (τ, true)) ∧
    ∀ c f, ∃ w : Transport.Wind, w.uw = 20 ∧ w.ustar0 = 20 * |0.41 / Real.log (10 / (0.000225 / 30))| ∧ ∃ u,
      (τ.core.thr c).uth0 f = XR.fin u ∧ Duran.velocity (dragCoast.duran f) ⟨w, u, 0, 0, 1, τ.zsep c⟩ = some (τ.core.speed c f) := by
  have hslope : ∀ c : Fin (cells 2 0), Duran.slopeS 2 0 (fun _ j => Full.col (fun c => (windyCoast.core.sand.bed c).zb) j)
      (fun _ j => dragCoast.x j) 0 c = 0 := by
    intro c
    have hz : ∀ j < 3, Full.col (fun c => (windyCoast.core.sand.bed c).zb) j = 1 := by
      intro j hj
      exact Full.col_apply (nx := 2) (fun c => (windyCoast.core.sand.bed c).zb) ⟨j, hj⟩
    unfold Duran.slopeS
    simp only [lt_irrefl, false_and, if_false]
    split_ifs with h
    · rw [hz _ (by omega), hz _ (by omega), sub_self, zero_div]
    · rfl
  obtain ⟨τ, b, h, hb⟩ := C156_transect_total byInverse dragCoast dragCoast_usable drag_names dragCoast_files r 600 windyCoast (fun _ _ => le_rfl)
    (fun v => mean_adaptive_below _ _ v _ rfl (fun _ _ => by norm_num [windyCoast, coastState, duneState])
      (fun _ => by norm_num [windyCoast, coastState, duneState]) fun f => by norm_num [dragCoast, coastConfig, duneConfig, exThreshold])
    fun _ => ⟨⟨rfl, rfl, rfl⟩, fun c f => by rw [hslope, mul_zero, abs_zero]; exact one_pos⟩
  obtain rfl := hb.mpr (by norm_num)
  obtain ⟨v, d, z0, E, ρ, hv, hz, hE, -, -, -, -, -, -, -, -, hd⟩ := C156_transect byInverse dragCoast r 600 windyCoast τ _ rfl rfl h
  have hv' := coast_wind v d _ hv
  have hz' : ∀ c, z0 c = 0.000225 / 30 := by
    intro c
    have := hz c
    unfold Wind.roughness at this
    rw [show dragCoast.wind.methodRoughness = "mean_grainsize_adaptive" from rfl, if_neg (by decide), if_neg (by decide), if_neg (by decide),
      if_pos rfl] at this
    have e := Except.ok.inj this
    norm_num [meanGrainSize, windyCoast, coastState, duneState, dragCoast, duneConfig, exThreshold] at e
    rw [← e]
    norm_num
  refine ⟨τ, h, fun c f => ⟨E.wind c, ?_, ?_, ?_⟩⟩
  · rw [(hE c).1, hv']; norm_num
  · rw [(hE c).2, hv', hz' c]
    norm_num [dragCoast, coastConfig]
  · obtain ⟨u, hu, e⟩ := hd rfl rfl (by rw [hv']; norm_num) c f
    rw [hslope] at e
    exact ⟨u, hu, e⟩

/-- The same in the bay. -/
noncomputable def dragBay : Planar.Config 2 2 1 :=
  { bayConfig 20 false with
    wind := { (bayConfig 20 false).wind with methodRoughness := "mean_grainsize_adaptive" }
    shelter := { (bayConfig 20 false).shelter with processVegetation := false }
    core := { duneConfig with tr := exTransport "bagnold" "duran" } }

theorem dragBay_usable : PlanarAnyUsable dragBay where
  core := drag_core
  grid := ⟨bayGrid.columns, bayGrid.rows, bayGrid.ds, bayGrid.dn, bayGrid.dsdni, bayGrid.cells⟩
  kappa := by norm_num [dragBay, bayConfig]
  weights := fun _ _ => by norm_num [dragBay, bayConfig]
  mask := fun _ => by norm_num [dragBay, bayConfig]
  step := ⟨rfl, rfl⟩

theorem dragBay_files : PlanarFiles dragBay :=
  have h := bay_files 20 false
  ⟨⟨h.wind, h.tide, h.wave, h.moist, h.salt, h.meteo, h.dune, h.bubbles⟩, h.ground⟩

/-- C156: a step in the bay. -/
example (veg : ℕ → ℕ → Veg.Cell) (fence : Fin (cells 2 2) → Lee.Fence) (r : ℕ → ℕ → ℝ) :
    ∃ τ, Planar.update byInverse dragBay r 600 { bayState veg fence with clock := ⟨3600, 3600, 3600⟩ } = some (.ok (τ, true)) ∧
    ∀ c f, ∃ w : Transport.Wind, w.uw = 20 ∧ w.ustar0 = 20 * |0.41 / Real.log (10 / (0.000225 / 30))| ∧ ∃ u,
      (τ.core.thr c).uth0 f = XR.fin u ∧ Duran.velocity (dragBay.duran f) ⟨w, u, 0, 0, 1, τ.zsep c⟩ = some (τ.core.speed c f) := by
  have hz : ∀ i j, i < 3 → j < 3 → Planar.grid (fun c => ((bayState veg fence).core.sand.bed c).zb) i j = 1 := by
    intro i j hi hj
    have h : i * 3 + j < cells 2 2 := by
      show _ < 9
      omega
    unfold Planar.grid onGrid
    rw [dif_pos h]
    rfl
  have hs1 : ∀ c : Fin (cells 2 2), Duran.slopeS 2 2 (Planar.grid fun c => ((bayState veg fence).core.sand.bed c).zb)
      (fun i j => (dragBay.g i j).1) (Planar.rowOf c) (Planar.colOf c) = 0 := by
    intro c
    have hi : Planar.rowOf c < 3 := by
      have := c.2
      show (c : ℕ) / 3 < 3
      change (c : ℕ) < 9 at this
      omega
    have hj : Planar.colOf c < 3 := Nat.mod_lt _ (by norm_num)
    unfold Duran.slopeS
    simp only
    split_ifs <;> first
      | rfl
      | (rw [hz _ _ (by omega) (by omega), hz _ _ (by omega) (by omega), sub_self, zero_div])
  have hs2 : ∀ c : Fin (cells 2 2), Duran.slopeN 2 (Planar.grid fun c => ((bayState veg fence).core.sand.bed c).zb)
      (fun i j => (dragBay.g i j).2) (Planar.rowOf c) (Planar.colOf c) = 0 := by
    intro c
    have hi : Planar.rowOf c < 3 := by
      have := c.2
      show (c : ℕ) / 3 < 3
      change (c : ℕ) < 9 at this
      omega
    have hj : Planar.colOf c < 3 := Nat.mod_lt _ (by norm_num)
    unfold Duran.slopeN
    simp only
    split_ifs <;> first
      | rfl
      | (rw [hz _ _ (by omega) (by omega), hz _ _ (by omega) (by omega), sub_self, zero_div])
  obtain ⟨τ, b, h, hb⟩ := C156_planar_total byInverse dragBay dragBay_usable drag_names dragBay_files r 600
    { bayState veg fence with clock := ⟨3600, 3600, 3600⟩ } (fun _ _ => le_rfl)
    (fun v => mean_adaptive_below _ _ v _ rfl (fun _ _ => by norm_num [bayState, duneState])
      (fun _ => by norm_num [bayState, duneState]) fun f => by norm_num [dragBay, bayConfig, duneConfig, exThreshold])
    fun _ => ⟨⟨rfl, rfl, rfl⟩, fun c f => by
      have e1 := hs1 c
      have e2 := hs2 c
      simp only [e1, e2]
      norm_num⟩
  obtain rfl := hb.mpr (by norm_num)
  obtain ⟨v, d, z0, E, ρ, hv, hz, hE, -, -, -, -, -, -, -, -, hd⟩ := C156_planar byInverse dragBay r 600 _ τ _ rfl rfl h
  have hv' := coast_wind v d _ hv
  have hz' : ∀ c, z0 c = 0.000225 / 30 := by
    intro c
    have := hz c
    unfold Wind.roughness at this
    rw [show dragBay.wind.methodRoughness = "mean_grainsize_adaptive" from rfl, if_neg (by decide), if_neg (by decide), if_neg (by decide),
      if_pos rfl] at this
    have e := Except.ok.inj this
    norm_num [meanGrainSize, bayState, duneState, dragBay, duneConfig, exThreshold] at e
    rw [← e]
    norm_num
  refine ⟨τ, h, fun c f => ⟨E.wind c, ?_, ?_, ?_⟩⟩
  · rw [(hE c).1, hv']; norm_num
  · rw [(hE c).2, hv', hz' c]
    norm_num [dragBay, bayConfig]
  · obtain ⟨u, hu, e⟩ := hd rfl rfl (by rw [hv']; norm_num) c f
    have e1 := hs1 c
    have e2 := hs2 c
    simp only [e1, e2] at e
    exact ⟨u, hu, e⟩

end Aeolis.Props
