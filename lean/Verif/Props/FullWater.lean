import Verif.Props.FullRun
import Verif.Props.HydroStep
import Verif.Props.Moisture
import Verif.Props.Interp

/-!
C136: the wind does not erode what the tide covers; runs on a transect from the input files.
-/

set_option linter.unusedSectionVars false

namespace Aeolis.Props

open Finset Aeolis.Spec Aeolis.Sand Aeolis.Solver Aeolis.Whole Aeolis.Full

variable {nx nf : ℕ}

/-- The tide has level `v` at time `t` in cell `c`: the series in the file, with the mask. -/
def TideIs (C : Full.Config nx nf) (t : ℝ) (c : Fin (cells nx 0)) (v : ℝ) : Prop :=
  C.water.processTide = true ∧ ∃ ts u, C.water.tideFile = some ts ∧ interpCircular ts t = some u ∧
    v = u * (C.tideMask c).1 + (C.tideMask c).2

/-- How water prevents erosion: by the threshold of flooded cells, or by the moisture of flooded cells if that is computed and the sand
can hold enough water; the water levels for the moisture are computed with the runup. -/
inductive WaterProtects (C : Full.Config nx nf) : Prop
  | level : C.core.thr.thMoisture = false → C.core.thr.processTide = true → WaterProtects C
  | moisture (m : ℝ) : C.core.thr.thMoisture = true → C.moist.processMoist = true → C.water.processRunup = true → C.runupMask = none →
      (lower C.moist.method = "infiltration" ∧ 0 ≤ C.moist.porosity ∧ m = C.moist.porosity ∨
        lower C.moist.method = "surf_moisture" ∧ m = C.moist.satd) → 0.064 < waterRatio C.core.thr m → WaterProtects C

theorem still_water_at {C : Full.Config nx nf} {r : ℕ → ℝ} {σ τ : Full.State nx nf} {E : Env nx 0 nf} {s : ℝ}
    (hi : Hydro.interpolate C.water ⟨σ.zb, C.tideMask, C.waveMask, C.runupMask⟩ s σ.hydro.water = .ok τ.hydro.water)
    {c : Fin (cells nx 0)} {v : ℝ} (hv : TideIs C s c v) :
    τ.hydro.water.SWL c = v ∧ τ.hydro.water.zs c = max v (σ.zb c) ∧
      (C.water.processRunup = true → C.runupMask = none → v ≤ τ.hydro.water.TWL c) := by
  obtain ⟨hp, ts, u, hts, hu, hv⟩ := hv
  obtain ⟨u', hu', hs⟩ := (C60_still_water _ _ _ _ _ hi c).2.2 ts hp hts
  have e : u' = u := Option.some.inj (hu'.symm.trans hu)
  have hs : τ.hydro.water.SWL c = v := by rw [hs, hv, e]
  refine ⟨hs, by rw [(C60_water_level _ _ _ _ _ hi c).1, hs], fun hr hm => ?_⟩
  obtain ⟨h1, -, -, h2⟩ := C63_levels _ _ _ _ _ hr hi c
  rw [h1, (h2 hm).1, hs]
  have := (C63_runup (τ.hydro.water.Hs 0) (τ.hydro.water.Tp 0) C.water.beachSlope).2
  linarith [this.1, this.2.2.1]

/-- Cells that are protected for the chain are not eroded in a call of `update`. -/
theorem protected_not_eroded (sp : LinSolve nx 0) (hsp : Exact sp) (C : Full.Config nx nf) (hC : Usable C) (hlev : NoOtherChanges C)
    (hr : 0 < C.core.setup.bed.rhog * (1 - C.core.setup.bed.porosity)) (M : ℝ) (r : ℕ → ℝ) (dt : ℝ) (σ τ : Full.State nx nf) (b : Bool)
    (hσ : Sound C.core.setup.bed.nl M σ.core) (h : Full.update sp C r dt σ = some (.ok (τ, b))) (c : Fin (cells nx 0))
    (hc : ∀ E, StepOf C σ.clock.t dt E → Forcing C r σ τ E → Protected C.core E (waves C.core E σ.core) c) : σ.zb c ≤ τ.zb c := by
  obtain ⟨-, hbf, hbt, -⟩ := C133_step sp C hC r dt σ τ b h
  cases b with
  | false => simp only [Full.State.zb, (hbf rfl).1, le_refl]
  | true =>
    obtain ⟨E, hS, hF, -, -, -, hstep⟩ := hbt rfl
    have hc := hc E hS hF
    have hl : ∀ ρ : Whole.State nx 0 nf, ((relevel E ρ).sand.bed c).zb = (ρ.sand.bed c).zb := fun ρ => hS.levels hlev _ c
    simp only [Full.State.zb, col_apply]
    unfold Whole.step at hstep
    simp only at hstep
    split_ifs at hstep with hw
    · match ht : transport sp C.core E (waves C.core E σ.core) with
      | none => simp [ht] at hstep
      | some (.error e) => simp [ht] at hstep
      | some (.ok ρ) =>
        simp only [ht] at hstep
        have e := Except.ok.inj (Option.some.inj hstep)
        rw [← e, hl]
        exact C126_not_eroded sp hsp C.core hC.core hC.grid hr M E (hS.ok hw).1 _ ρ (waves_sound C.core hC.core M E σ.core hσ) ht c hc
    · have e := Except.ok.inj (Option.some.inj hstep)
      rw [← e, hl]
      exact le_rfl

/-- **C136** While the tide in the file covers a cell the wind does not lower its bed, whatever the wind, its direction, fences and vegetation.
With groundwater, for which the tide is interpolated again, it has to cover the cell during the whole step. -/
theorem C136_flooded (sp : LinSolve nx 0) (hsp : Exact sp) (C : Full.Config nx nf) (hC : Usable C) (hg : C.ground.on = true → 0 < C.ground.tfac)
    (hlev : NoOtherChanges C) (hwater : WaterProtects C)
    (hr : 0 < C.core.setup.bed.rhog * (1 - C.core.setup.bed.porosity)) (M : ℝ) (r : ℕ → ℝ) (dt : ℝ) (σ τ : Full.State nx nf) (b : Bool)
    (hσ : Sound C.core.setup.bed.nl M σ.core) (h : Full.update sp C r dt σ = some (.ok (τ, b))) (c : Fin (cells nx 0))
    (hv : ∀ s, s = σ.clock.t ∨ C.ground.on = true ∧ σ.clock.t ≤ s ∧ s ≤ σ.clock.t + (if 0 < dt then dt else C.ts.dt) →
      ∃ v, TideIs C s c v ∧ σ.zb c + max 0 (max C.core.thr.eps C.moist.eps) < v) : σ.zb c ≤ τ.zb c := by
  refine protected_not_eroded sp hsp C hC hlev hr M r dt σ τ b hσ h c fun E hS hF => ?_
  obtain ⟨s, hs, hi⟩ := C123_some_time _ _ _ _ _ _ _ hF.water
  have hdt : 0 ≤ E.dt := by rw [hS.time.2]; exact (given_pos hC dt).le
  obtain ⟨v, hv, hdeep⟩ := hv s (hs.imp_right fun ⟨h1, h2⟩ => ⟨h1, by rw [← hS.time.2]; exact h2 (hg h1) hdt⟩)
  obtain ⟨hs, hz, ht⟩ := still_water_at (r := r) (E := E) hi hv
  have m0 := le_max_left (0 : ℝ) (max C.core.thr.eps C.moist.eps)
  have m1 := (le_max_left C.core.thr.eps C.moist.eps).trans (le_max_right (0 : ℝ) (max C.core.thr.eps C.moist.eps))
  have m2 := (le_max_right C.core.thr.eps C.moist.eps).trans (le_max_right (0 : ℝ) (max C.core.thr.eps C.moist.eps))
  cases hwater with
  | level h1 h2 =>
    refine .flooded h1 h2 ?_
    have e1 : ((waves C.core E σ.core).sand.bed c).zb = σ.zb c := (col_apply (fun c => (σ.core.sand.bed c).zb) c).symm
    have e2 : ((waves C.core E σ.core).sand.bed c).zs = E.zs c := rfl
    rw [e1, e2, (hF.levels c).1, hz]
    exact lt_of_lt_of_le (by linarith) (le_max_left _ _)
  | moisture m h1 h2 h3 h4 h5 h6 =>
    refine .wet h1 ?_
    have hT := ht h3 h4
    obtain ⟨-, met, -, -, -, hm⟩ := hF.moisture
    have hm := hm c
    rw [(hF.wet c).1]
    rcases h5 with ⟨k1, k2, rfl⟩ | ⟨k1, rfl⟩
    · rw [(C61_range _ _ _ _ _ _ _ h2 k1 k2 hm).2.2 (by simp only; linarith)]
      exact h6
    · rw [(C62_range _ _ _ _ _ _ _ h2 k1 hm).2.1 (by simp only; linarith)]
      exact h6

/-- **C136** A cell whose surface is at most a centimetre above the non-erodible layer is not eroded. -/
theorem C136_hard_layer (sp : LinSolve nx 0) (hsp : Exact sp) (C : Full.Config nx nf) (hC : Usable C) (hlev : NoOtherChanges C)
    (hr : 0 < C.core.setup.bed.rhog * (1 - C.core.setup.bed.porosity)) (M : ℝ) (r : ℕ → ℝ) (dt : ℝ) (σ τ : Full.State nx nf) (b : Bool)
    (hσ : Sound C.core.setup.bed.nl M σ.core) (h : Full.update sp C r dt σ = some (.ok (τ, b))) (c : Fin (cells nx 0))
    (hn : C.core.thr.thNelayer = true) (z : ℝ) (hz : C.zne c = some z) (hc : σ.zb c ≤ z + 0.01) : σ.zb c ≤ τ.zb c := by
  refine protected_not_eroded sp hsp C hC hlev hr M r dt σ τ b hσ h c fun E hS hF => .hard z hn ((hF.hard c).trans hz) ?_
  have e1 : ((waves C.core E σ.core).sand.bed c).zb = σ.zb c := (col_apply (fun c => (σ.core.sand.bed c).zb) c).symm
  rw [e1]
  exact hc

/-! ### Example -/

/-- The coast at high tide: the cells lie a metre above mean sea level, the tide reaches 3 m with a mask that triples it. -/
example (r : ℕ → ℝ) (dt : ℝ) (σ τ : Full.State 2 1) (b : Bool) (hσ : Sound 3 159 σ.core) (ht : σ.clock.t = 21600)
    (h : Full.update byInverse { coastConfig 20 false with tideMask := fun _ => (3, 0) } r dt σ = some (.ok (τ, b))) (c : Fin (cells 2 0))
    (hz : σ.zb c = 1) : 1 ≤ τ.zb c := by
  have hu := coast_usable 20 false
  rw [← hz]
  refine C136_flooded byInverse byInverse_exact { coastConfig 20 false with tideMask := fun _ => (3, 0) }
    ⟨hu.core, hu.grid, hu.speed, hu.on, hu.kappa, hu.rough, hu.weights, hu.mask, hu.step⟩ (fun h => by cases h) ⟨rfl, rfl, rfl⟩
    (.moisture 0.4 rfl rfl rfl rfl (Or.inl ⟨by show lower "infiltration" = "infiltration"; decide, by norm_num [coastConfig], rfl⟩)
      (by norm_num [waterRatio, coastConfig, duneConfig, exThreshold]))
    (by norm_num [coastConfig, duneConfig]) 159 r dt σ τ b hσ h c fun s hs => ⟨3, ⟨rfl, _, 1, rfl, ?_, by norm_num⟩, ?_⟩
  · rw [hs.resolve_right (fun h => by cases h.1), ht]
    exact C08_listed_times [((0 : ℝ), (-1 : ℝ)), (21600, 1)] (by norm_num [Increasing]) 1 (by simp)
  · rw [hz]
    norm_num [coastConfig, duneConfig, exThreshold]

end Aeolis.Props
