import Verif.Props.PlanarRun
import Verif.Props.HydroStep
import Verif.Props.Moisture
import Verif.Props.Interp

/-!
C143: the wind does not erode what the tide covers; runs on a planar grid from the input files.
-/

set_option linter.unusedSectionVars false

namespace Aeolis.Props

open Finset Aeolis.Spec Aeolis.Sand Aeolis.Solver Aeolis.Whole Aeolis.Planar

variable {nx ny nf : ℕ}

/-- The tide has level `v` at time `t` in cell `c`: the series in the file, with the mask. -/
def PlanarTideIs (C : Planar.Config nx ny nf) (t : ℝ) (c : Fin (cells nx ny)) (v : ℝ) : Prop :=
  C.water.processTide = true ∧ ∃ ts u, C.water.tideFile = some ts ∧ interpCircular ts t = some u ∧
    v = u * (C.tideMask (rowOf c) (colOf c)).1 + (C.tideMask (rowOf c) (colOf c)).2

/-- How water prevents erosion: by the threshold of flooded cells, or by the moisture of flooded cells if that is computed and the sand
can hold enough water; the water levels for the moisture are computed with the runup. -/
inductive PlanarWaterProtects (C : Planar.Config nx ny nf) : Prop
  | level : C.core.thr.thMoisture = false → C.core.thr.processTide = true → PlanarWaterProtects C
  | moisture (m : ℝ) : C.core.thr.thMoisture = true → C.moist.processMoist = true → C.water.processRunup = true → C.runupMask = none →
      (lower C.moist.method = "infiltration" ∧ 0 ≤ C.moist.porosity ∧ m = C.moist.porosity ∨
        lower C.moist.method = "surf_moisture" ∧ m = C.moist.satd) → 0.064 < waterRatio C.core.thr m → PlanarWaterProtects C

theorem planar_still_water {C : Planar.Config nx ny nf} {σ τ : Planar.State nx ny nf} {s : ℝ} {c : Fin (cells nx ny)}
    (hi : Hydro.interpolate C.water ⟨σ.zb (rowIx c), C.tideMask (rowIx c), C.waveMask (rowIx c), C.runupMask.map fun m => m (rowIx c)⟩ s
      (σ.water (rowIx c)) = .ok (τ.water (rowIx c))) {v : ℝ} (hv : PlanarTideIs C s c v) :
    (τ.water (rowIx c)).SWL (colOf c) = v ∧ (τ.water (rowIx c)).zs (colOf c) = max v (σ.core.sand.bed c).zb ∧
      (C.water.processRunup = true → C.runupMask = none → v ≤ (τ.water (rowIx c)).TWL (colOf c)) := by
  obtain ⟨hp, ts, u, hts, hu, hv⟩ := hv
  obtain ⟨u', hu', hs⟩ := (C60_still_water _ _ _ _ _ hi (colOf c)).2.2 ts hp hts
  have e : u' = u := Option.some.inj (hu'.symm.trans hu)
  have hs : (τ.water (rowIx c)).SWL (colOf c) = v := by rw [hs, hv, e]; rfl
  have hzb : σ.zb (rowIx c) (colOf c) = (σ.core.sand.bed c).zb := Planar.grid_apply (fun c => (σ.core.sand.bed c).zb) c
  refine ⟨hs, by rw [(C60_water_level _ _ _ _ _ hi (colOf c)).1, hs]; exact congrArg _ hzb, fun hr hm => ?_⟩
  obtain ⟨h1, -, -, h2⟩ := C63_levels _ _ _ _ _ hr hi (colOf c)
  rw [h1, (h2 (by rw [hm]; rfl)).1, hs]
  have := (C63_runup ((τ.water (rowIx c)).Hs 0) ((τ.water (rowIx c)).Tp 0) C.water.beachSlope).2
  linarith [this.1, this.2.2.1]

/-- Cells that are protected for the chain are not eroded in a call of `update`. -/
theorem planar_not_eroded (sp : LinSolve nx ny) (hsp : Exact sp) (C : Planar.Config nx ny nf) (hC : PlanarUsable C) (hlev : PlanarNoOtherChanges C)
    (hr : 0 < C.core.setup.bed.rhog * (1 - C.core.setup.bed.porosity)) (M : ℝ) (r : ℕ → ℕ → ℝ) (dt : ℝ) (σ τ : Planar.State nx ny nf) (b : Bool)
    (hσ : Sound C.core.setup.bed.nl M σ.core) (h : Planar.update sp C r dt σ = some (.ok (τ, b))) (c : Fin (cells nx ny))
    (hF : PlanarSeries C) (hs : FromSector C) (hc : ∀ E, PlanarStep C σ.clock.t dt E → PlanarForcing C r σ τ E → Protected C.core E (waves C.core E σ.core) c) : (σ.core.sand.bed c).zb ≤ (τ.core.sand.bed c).zb := by
  obtain ⟨-, hbf, hbt, -⟩ := C140_step sp C hC r dt σ τ b h
  cases b with
  | false => rw [(hbf rfl).1]
  | true =>
    obtain ⟨E, hS, hE, -, -, -, hstep⟩ := hbt rfl
    have hc := hc E hS hE
    have hl : ∀ ρ : Whole.State nx ny nf, ((relevel E ρ).sand.bed c).zb = (ρ.sand.bed c).zb := fun ρ => hS.levels hlev _ c
    unfold Whole.step at hstep
    simp only at hstep
    split_ifs at hstep with hw
    · match ht : transport sp C.core E (waves C.core E σ.core) with
      | none => simp [ht] at hstep
      | some (.error e) => simp [ht] at hstep
      | some (.ok ρ) =>
        simp only [ht] at hstep
        have e := Except.ok.inj (Option.some.inj hstep)
        rw [← e, hl]
        exact C126_not_eroded sp hsp C.core hC.core hC.grid hr M E ((hS.ok hw).1 (C140_sector C hF hs _ _ E hS)) _ ρ (waves_sound C.core hC.core M E σ.core hσ) ht c hc
    · have e := Except.ok.inj (Option.some.inj hstep)
      rw [← e, hl]
      exact le_rfl

/-- **C143** While the tide in the file covers a cell the wind does not lower its bed, whatever the wind and the vegetation, fences included, on
planar grids with wind from the sector.  With groundwater, for which the tide is interpolated again, it has to cover the cell during the whole
step. -/
theorem C143_flooded (sp : LinSolve nx ny) (hsp : Exact sp) (C : Planar.Config nx ny nf) (hC : PlanarUsable C) (hF : PlanarSeries C)
    (hs : FromSector C) (hg : C.ground.on = true → 0 < C.ground.tfac) (hlev : PlanarNoOtherChanges C) (hwater : PlanarWaterProtects C)
    (hr : 0 < C.core.setup.bed.rhog * (1 - C.core.setup.bed.porosity)) (M : ℝ) (r : ℕ → ℕ → ℝ) (dt : ℝ) (σ τ : Planar.State nx ny nf)
    (b : Bool) (hσ : Sound C.core.setup.bed.nl M σ.core) (h : Planar.update sp C r dt σ = some (.ok (τ, b))) (c : Fin (cells nx ny))
    (hv : ∀ s, s = σ.clock.t ∨ C.ground.on = true ∧ σ.clock.t ≤ s ∧ s ≤ σ.clock.t + (if 0 < dt then dt else C.ts.dt) →
      ∃ v, PlanarTideIs C s c v ∧ (σ.core.sand.bed c).zb + max 0 (max C.core.thr.eps C.moist.eps) < v) :
    (σ.core.sand.bed c).zb ≤ (τ.core.sand.bed c).zb := by
  refine planar_not_eroded sp hsp C hC hlev hr M r dt σ τ b hσ h c hF hs fun E hS hE => ?_
  obtain ⟨s, hs, hi⟩ := C148_some_time _ _ _ _ _ _ _ _ hE.water
  have hdt : 0 ≤ E.dt := by rw [hS.time.2]; exact (planar_given_pos hC dt).le
  obtain ⟨v, hv, hdeep⟩ := hv s (hs.imp_right fun ⟨h1, h2⟩ => ⟨h1, by rw [← hS.time.2]; exact h2 (hg h1) hdt⟩)
  obtain ⟨-, hz, ht⟩ := planar_still_water (hi (rowIx c)) hv
  have m0 := le_max_left (0 : ℝ) (max C.core.thr.eps C.moist.eps)
  have m1 := (le_max_left C.core.thr.eps C.moist.eps).trans (le_max_right (0 : ℝ) (max C.core.thr.eps C.moist.eps))
  have m2 := (le_max_right C.core.thr.eps C.moist.eps).trans (le_max_right (0 : ℝ) (max C.core.thr.eps C.moist.eps))
  cases hwater with
  | level h1 h2 =>
    refine .flooded h1 h2 ?_
    have e1 : ((waves C.core E σ.core).sand.bed c).zb = (σ.core.sand.bed c).zb := rfl
    have e2 : ((waves C.core E σ.core).sand.bed c).zs = E.zs c := rfl
    rw [e1, e2, (hE.levels c).1, hz]
    exact lt_of_lt_of_le (by linarith) (le_max_left _ _)
  | moisture m h1 h2 h3 h4 h5 h6 =>
    refine .wet h1 ?_
    have hT := ht h3 h4
    obtain ⟨-, met, -, -, -, hm⟩ := hE.moisture
    have hm := hm c
    rw [(hE.wet c).1]
    rcases h5 with ⟨k1, k2, rfl⟩ | ⟨k1, rfl⟩
    · rw [(C61_range _ _ _ _ _ _ _ h2 k1 k2 hm).2.2 (by simp only; linarith)]
      exact h6
    · rw [(C62_range _ _ _ _ _ _ _ h2 k1 hm).2.1 (by simp only; linarith)]
      exact h6

/-- **C143** A cell whose surface is at most a centimetre above the non-erodible layer is not eroded. -/
theorem C143_hard_layer (sp : LinSolve nx ny) (hsp : Exact sp) (C : Planar.Config nx ny nf) (hC : PlanarUsable C) (hF : PlanarSeries C)
    (hs : FromSector C) (hlev : PlanarNoOtherChanges C)
    (hr : 0 < C.core.setup.bed.rhog * (1 - C.core.setup.bed.porosity)) (M : ℝ) (r : ℕ → ℕ → ℝ) (dt : ℝ) (σ τ : Planar.State nx ny nf)
    (b : Bool) (hσ : Sound C.core.setup.bed.nl M σ.core) (h : Planar.update sp C r dt σ = some (.ok (τ, b))) (c : Fin (cells nx ny))
    (hn : C.core.thr.thNelayer = true) (z : ℝ) (hz : C.zne (rowOf c) (colOf c) = some z) (hc : (σ.core.sand.bed c).zb ≤ z + 0.01) :
    (σ.core.sand.bed c).zb ≤ (τ.core.sand.bed c).zb :=
  planar_not_eroded sp hsp C hC hlev hr M r dt σ τ b hσ h c hF hs fun E _ hE => .hard z hn ((hE.hard c).trans hz) hc

end Aeolis.Props
