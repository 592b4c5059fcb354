import Verif.Props.DatumProgram
import Verif.Props.PlanarExamples
import Verif.Props.PlanarProgram

/-!
C160 on planar grids: without shear over the topography, which does depend on the datum (C110), complete time steps do not depend on the datum of the
levels.
-/

namespace Aeolis.Props

open Finset Aeolis.Spec Aeolis.Sand Aeolis.Solver Aeolis.Whole Aeolis.Planar

variable {nx ny nf : ℕ}

/-- The configuration with all levels raised: tide, non-erodible layer, bed at the start, lowest level of vegetation, dune toe (also where the
probability of collisions is computed from it). -/
noncomputable def planarHigherConfig (h : ℝ) (C : Planar.Config nx ny nf) : Planar.Config nx ny nf :=
  { C with
    water := { C.water with tideFile := C.water.tideFile.map (higherSeries h) }
    zne := fun i j => (C.zne i j).map (· + h)
    zb0 := fun c => C.zb0 c + h
    shelter := { C.shelter with veg := { C.shelter.veg with zmin := C.shelter.veg.zmin + h } }
    dune := { C.dune with
      par := { C.dune.par with toe := C.dune.par.toe + h }
      collisions := fun eta wl sigma dt Tp => C.dune.collisions eta (wl - h) sigma dt Tp } }

/-- The state of the second grid is that of the first with the bed raised.  Nothing is asked of the water levels, as they are computed anew in each
step. -/
structure PlanarHigher (h : ℝ) (σ σ' : Planar.State nx ny nf) : Prop where
  clock : σ'.clock = σ.clock
  uw : σ'.uw = σ.uw
  udir : σ'.udir = σ.udir
  shear : σ'.shear = σ.shear
  core : atLevel (fun _ => 0) σ'.core = atLevel (fun _ => 0) (higher h σ.core)
  mix : ∀ i : Fin (ny + 1), ∀ j, j ≤ nx → (σ'.hydro i).water.Hsmix j = (σ.hydro i).water.Hsmix j
  moist : σ'.moist = σ.moist
  veg : ∀ i j, i ≤ ny → j ≤ nx → σ'.veg i j = σ.veg i j
  dzbavg : σ'.dzbavg = σ.dzbavg
  dzbveg : σ'.dzbveg = σ.dzbveg

/-- No process that compares levels with the datum: the water level is that of the tide, with runup, there is no shear over the topography, no fences and
no groundwater, the moisture is not that of `surf_moisture`, which depends on the groundwater, and the grain speed is not that of Durán. -/
structure PlanarNoDatum (C : Planar.Config nx ny nf) : Prop where
  tide : C.water.processTide = true
  series : C.water.tideFile ≠ none
  runup : C.water.processRunup = true
  mask : ∀ i j, i ≤ ny → j ≤ nx → (C.tideMask i j).1 = 1
  shear : C.wind.processShear = false
  fences : C.shelter.processFences = false
  ground : C.ground.on = false
  moist : C.moist.processMoist = true → lower C.moist.method ≠ "surf_moisture"
  speed : C.core.tr.methodGrainspeed ≠ "duran"

/-- The levels of the second grid are those of the first, raised. -/
def HigherGrid (nx ny : ℕ) (h : ℝ) (z z' : ℕ → ℕ → ℝ) : Prop := ∀ i j, i ≤ ny → j ≤ nx → z' i j = z i j + h

theorem rowOf_le (c : Fin (cells nx ny)) : rowOf c ≤ ny := Nat.lt_succ_iff.mp (rowIx c).2

theorem colOf_le (c : Fin (cells nx ny)) : colOf c ≤ nx := Nat.lt_succ_iff.mp (Nat.mod_lt _ (Nat.succ_pos _))

theorem grid_higher (h : ℝ) (X : Fin (cells nx ny) → ℝ) : HigherGrid nx ny h (Planar.grid X) (Planar.grid fun c => X c + h) := fun i j hi hj => by
  obtain ⟨hc, e, -⟩ := Props.grid_at (nx := nx) hi hj
  unfold Planar.grid
  rw [e, e]

theorem PlanarHigher.cell {h : ℝ} {σ σ' : Planar.State nx ny nf} (L : PlanarHigher h σ σ') (c : Fin (cells nx ny)) :
    { σ'.core.sand.bed c with zs := 0 } = { higherCell h (σ.core.sand.bed c) with zs := 0 } :=
  congrFun (congrArg (fun τ : Whole.State nx ny nf => τ.sand.bed) L.core) c

theorem PlanarHigher.level {h : ℝ} {σ σ' : Planar.State nx ny nf} (L : PlanarHigher h σ σ') (c : Fin (cells nx ny)) :
    (σ'.core.sand.bed c).zb = (σ.core.sand.bed c).zb + h := by
  have := congrArg Bed.Cell.zb (L.cell c)
  exact this

theorem PlanarHigher.mass {h : ℝ} {σ σ' : Planar.State nx ny nf} (L : PlanarHigher h σ σ') (c : Fin (cells nx ny)) :
    (σ'.core.sand.bed c).mass = (σ.core.sand.bed c).mass := by
  have := congrArg Bed.Cell.mass (L.cell c)
  exact this

theorem PlanarHigher.dzb {h : ℝ} {σ σ' : Planar.State nx ny nf} (L : PlanarHigher h σ σ') (c : Fin (cells nx ny)) :
    (σ'.core.sand.bed c).dzb = (σ.core.sand.bed c).dzb := by
  have := congrArg Bed.Cell.dzb (L.cell c)
  exact this

theorem PlanarHigher.zb {h : ℝ} {σ σ' : Planar.State nx ny nf} (L : PlanarHigher h σ σ') : HigherGrid nx ny h σ.zb σ'.zb := by
  intro i j hi hj
  unfold State.zb
  rw [show (fun c => (σ'.core.sand.bed c).zb) = fun c => (σ.core.sand.bed c).zb + h from funext fun c => L.level c]
  exact grid_higher h _ i j hi hj

open Classical in
/-- Results of all elements that end in the same way. -/
theorem collect_same {ι α : Type*} {R : ι → α → α → Prop} {f f' : ι → Except PyErr α} (h : ∀ i, SameEnd (R i) (f i) (f' i)) :
    SameEnd (fun a b => ∀ i, R i (a i) (b i)) (collect f) (collect f') := by
  by_cases k : ∀ i, ∃ a, f i = .ok a
  · choose a ha using k
    have k' : ∀ i, ∃ b, f' i = .ok b ∧ R i (a i) b := by
      intro i
      have := h i
      rw [ha i] at this
      rcases hb : f' i with e | b
      · rw [hb] at this
        exact this.elim
      · rw [hb] at this
        exact ⟨b, rfl, this⟩
    choose b hb using k'
    rw [collect_ok.mpr ha, collect_ok.mpr fun i => (hb i).1]
    exact fun i => (hb i).2
  · have k' : ¬∀ i, ∃ b, f' i = .ok b := by
      intro k'
      apply k
      intro i
      obtain ⟨b, hb⟩ := k' i
      have := h i
      rw [hb] at this
      rcases ha : f i with e | a
      · rw [ha] at this
        exact this.elim
      · exact ⟨a, rfl⟩
    have e : (fun e => ∃ i, f' i = Except.error e) = fun e => ∃ i, f i = Except.error e := by
      funext e
      apply propext
      constructor
      · rintro ⟨i, hi⟩
        refine ⟨i, ?_⟩
        have := h i
        rw [hi] at this
        rcases ha : f i with e' | a
        · rw [ha] at this
          rw [show e' = e from this]
        · rw [ha] at this
          exact this.elim
      · rintro ⟨i, hi⟩
        refine ⟨i, ?_⟩
        have := h i
        rw [hi] at this
        rcases ha : f' i with e' | a
        · rw [ha] at this
          rw [show e = e' from this]
        · rw [ha] at this
          exact this.elim
    have q : ∀ P Q : PyErr → Prop, Q = P → SameEnd (fun a b : ι → α => ∀ i, R i (a i) (b i)) (if h : ∃ e, P e then .error h.choose else .error .valueError)
        (if h : ∃ e, Q e then .error h.choose else .error .valueError) := by
      rintro P Q rfl
      split_ifs <;> exact rfl
    unfold collect
    rw [dif_neg k, dif_neg k']
    exact q _ _ e

/-! ### Parts of a step -/

theorem planar_shearNow_higher {C : Planar.Config nx ny nf} (hC : PlanarNoDatum C) {h : ℝ} {σ σ' : Planar.State nx ny nf} (L : PlanarHigher h σ σ')
    (now : Full.Now) (s : Fin (cells nx ny) → Wind.Shear) : shearNow (planarHigherConfig h C) σ' now none s = shearNow C σ now none s := by
  have h2 : ∀ (D : Planar.Config nx ny nf) ρ s, D.shelter.processFences = false → shear2 D ρ now s = s := fun D ρ s hD =>
    funext fun c => if_neg (by rw [hD]; decide)
  unfold shearNow
  rw [h2 C _ _ hC.fences, h2 (planarHigherConfig h C) _ _ hC.fences]
  funext c
  unfold shear3
  rw [show (fun c : Fin (cells nx ny) => (σ'.veg (rowOf c) (colOf c)).rho) = fun c : Fin (cells nx ny) => (σ.veg (rowOf c) (colOf c)).rho from
    funext fun c => by rw [L.veg _ _ (rowOf_le c) (colOf_le c)]]
  rfl

open Classical in
theorem planar_moistures_higher {C : Planar.Config nx ny nf} (hC : PlanarNoDatum C) {h : ℝ} {σ σ' : Planar.State nx ny nf} (L : PlanarHigher h σ σ')
    (t dt uw : ℝ) (met : Option Moisture.Meteo) {s s' : Fin (ny + 1) → Hydro.HydroState} (hs : ∀ i, HigherWater nx h (s i).water (s' i).water) :
    moistures (planarHigherConfig h C) σ' t dt uw met s' = moistures C σ t dt uw met s := by
  have : ∀ c : Fin (cells nx ny),
      Moisture.update C.moist t dt met ⟨(s' (rowIx c)).water.TWL (colOf c), (σ'.core.sand.bed c).zb, (s' (rowIx c)).gw (colOf c),
        (s' (rowIx c)).gwPrev (colOf c), (s' (rowIx c)).wetting (colOf c), uw⟩ (σ'.moist c) =
      Moisture.update C.moist t dt met ⟨(s (rowIx c)).water.TWL (colOf c), (σ.core.sand.bed c).zb, (s (rowIx c)).gw (colOf c),
        (s (rowIx c)).gwPrev (colOf c), (s (rowIx c)).wetting (colOf c), uw⟩ (σ.moist c) := by
    intro c
    rw [L.moist]
    refine moisture_higher C.moist hC.moist t dt met _ _ ?_ _
    show (s' (rowIx c)).water.TWL (colOf c) - (σ'.core.sand.bed c).zb = (s (rowIx c)).water.TWL (colOf c) - (σ.core.sand.bed c).zb
    rw [(hs (rowIx c)).TWL _ (colOf_le c), L.level c, add_sub_add_right_eq_sub]
  unfold moistures
  change (let r := fun c : Fin (cells nx ny) =>
    Moisture.update C.moist t dt met ⟨(s' (rowIx c)).water.TWL (colOf c), (σ'.core.sand.bed c).zb, (s' (rowIx c)).gw (colOf c),
      (s' (rowIx c)).gwPrev (colOf c), (s' (rowIx c)).wetting (colOf c), uw⟩ (σ'.moist c)
    if hs : ∀ c, ∃ v, r c = some v then some (collect fun c => (hs c).choose) else none) = _
  simp only [this]

theorem avalanche_rows (p : Ava.Params) (z z' : Ava.Grid) (hz : ∀ i j, i ≤ p.my → z' i j = z i j) (i j : ℕ) (hi : i ≤ p.my) :
    Ava.avalanche p z' i j = Ava.avalanche p z i j := by
  have h1 := C158_turned_rows p z (fun i j => z (p.my - i) j) (fun i j => p.ds (p.my - i) j) (fun i j => p.dn (p.my - i) j)
    (fun i j => p.zne (p.my - i) j) (fun _ _ _ => rfl) (fun _ _ _ => rfl) (fun _ _ _ => rfl) (fun _ _ _ => rfl) (p.my - i) j (by omega)
  have h2 := C158_turned_rows p z' (fun i j => z (p.my - i) j) (fun i j => p.ds (p.my - i) j) (fun i j => p.dn (p.my - i) j)
    (fun i j => p.zne (p.my - i) j) (fun _ _ _ => rfl) (fun _ _ _ => rfl) (fun _ _ _ => rfl) (fun i j _ => (hz _ j (by omega)).symm) (p.my - i) j (by omega)
  rw [show p.my - (p.my - i) = i by omega] at h1 h2
  rw [← h2, h1]

theorem avalanche_cells (p : Ava.Params) (z z' : Ava.Grid) (hz : ∀ i j, i ≤ p.my → j ≤ p.mx → z' i j = z i j) (i j : ℕ) (hi : i ≤ p.my) (hj : j ≤ p.mx) :
    Ava.avalanche p z' i j = Ava.avalanche p z i j := by
  rw [avalanche_grid p (fun i j => if i ≤ p.my then z i j else z' i j) z' (fun i j hj => by
    by_cases q : i ≤ p.my
    · simp only [if_pos q]; exact hz i j q hj
    · simp only [if_neg q]) i j hj]
  exact avalanche_rows p z _ (fun i j hi => if_pos hi) i j hi

theorem planar_slid_higher (C : Planar.Config nx ny nf) (h : ℝ) (z z' : ℕ → ℕ → ℝ) (hz : HigherGrid nx ny h z z') :
    HigherGrid nx ny h (slid C z) (slid (planarHigherConfig h C) z') := by
  intro i j hi hj
  unfold slid
  rw [avalanche_cells (avaIn (planarHigherConfig h C)) (fun i j => z i j + h) z' (fun i j hi hj => hz i j hi hj) i j hi hj]
  exact congrFun (congrFun (C158_datum (avaIn C) h fun i j => z i j) i) j

theorem planar_levels_higher (C : Planar.Config nx ny nf) (h dt : ℝ) (windy : Bool) (lzb lzb' : Fin (cells nx ny) → ℝ) (hl : ∀ c, lzb' c = lzb c + h)
    (l : Fin (cells nx ny) → ℝ × ℝ × ℝ) (c : Fin (cells nx ny)) :
    levels (planarHigherConfig h C) dt windy lzb' (fun c => ((l c).1 + h, (l c).2.1 + h, (l c).2.2)) c =
      ((levels C dt windy lzb l c).1 + h, (levels C dt windy lzb l c).2.1 + h, (levels C dt windy lzb l c).2.2) := by
  unfold levels
  split_ifs
  · dsimp only
    rw [planar_slid_higher C h (Planar.grid fun c => (l c).1) _ (grid_higher h fun c => (l c).1) _ _ (rowOf_le c) (colOf_le c), hl c]
    rw [show (planarHigherConfig h C).zb0 c = C.zb0 c + h from rfl, wetBedReset_higher]
    rw [add_sub_add_right_eq_sub]
    rfl
  · rfl

theorem planar_eroded_higher (C : Planar.Config nx ny nf) (h t dt : ℝ) (w w' : Fin (ny + 1) → Hydro.Water) (hw : ∀ i, HigherWater nx h (w i) (w' i))
    (z z' : ℕ → ℕ → ℝ) (hz : HigherGrid nx ny h z z') :
    SameEnd (HigherGrid nx ny h) (Planar.eroded C t dt w z) (Planar.eroded (planarHigherConfig h C) t dt w' z') := by
  unfold Planar.eroded
  rw [show (planarHigherConfig h C).dune.process = C.dune.process from rfl]
  split_ifs
  · rw [show (planarHigherConfig h C).water.tideFile = C.water.tideFile.map (higherSeries h) from rfl,
      show (planarHigherConfig h C).water.waveFile = C.water.waveFile from rfl]
    rcases C.water.tideFile with _ | tide
    · rfl
    rcases C.water.waveFile with _ | wave
    · rfl
    dsimp only [Option.map_some]
    rw [C160_series]
    generalize Hydro.series tide t = a
    generalize Hydro.series (wave.map fun x => (x.1, x.2.2)) t = b
    rcases a with e | wl <;> rcases b with e' | Tp
    · rfl
    · rfl
    · rfl
    dsimp only [Except.map]
    have h0 : (0 : ℕ) ≤ nx := Nat.zero_le _
    have hr : ∀ i : Fin (ny + 1), SameEnd (HigherRow nx h)
        (Erosion.row nx C.dune.par ⟨(w i).R 0, wl, C.dune.collisions ((w i).eta 0) wl ((w i).sigma 0) dt Tp⟩ (fun j => (C.g i j).1) (z i))
        (Erosion.row nx (planarHigherConfig h C).dune.par
          ⟨(w' i).R 0, wl + h, (planarHigherConfig h C).dune.collisions ((w' i).eta 0) (wl + h) ((w' i).sigma 0) dt Tp⟩
          (fun j => ((planarHigherConfig h C).g i j).1) (z' i)) := by
      intro i
      rw [(hw i).R 0 h0, (hw i).eta 0 h0, (hw i).sigma 0 h0]
      rw [show (planarHigherConfig h C).dune.collisions ((w i).eta 0) (wl + h) ((w i).sigma 0) dt Tp =
          C.dune.collisions ((w i).eta 0) wl ((w i).sigma 0) dt Tp by
        show C.dune.collisions ((w i).eta 0) (wl + h - h) ((w i).sigma 0) dt Tp = _
        rw [add_sub_cancel_right]]
      exact C160_erosion h C.dune.par ⟨(w i).R 0, wl, C.dune.collisions ((w i).eta 0) wl ((w i).sigma 0) dt Tp⟩ (fun j => (C.g i j).1) (z i) (z' i)
        fun j hj => hz i j (Nat.lt_succ_iff.mp i.2) hj
    have hc := collect_same hr
    revert hc
    generalize (collect fun i : Fin (ny + 1) =>
      Erosion.row nx C.dune.par ⟨(w i).R 0, wl, C.dune.collisions ((w i).eta 0) wl ((w i).sigma 0) dt Tp⟩ (fun j => (C.g i j).1) (z i)) = a
    generalize (collect fun i : Fin (ny + 1) => Erosion.row nx (planarHigherConfig h C).dune.par
      ⟨(w' i).R 0, wl + h, (planarHigherConfig h C).dune.collisions ((w' i).eta 0) (wl + h) ((w' i).sigma 0) dt Tp⟩
      (fun j => ((planarHigherConfig h C).g i j).1) (z' i)) = b
    intro hc
    rcases a with e | y <;> rcases b with e' | y'
    · exact hc
    · exact hc.elim
    · exact hc.elim
    · refine planar_slid_higher C h _ _ fun i j hi hj => ?_
      rw [dif_pos (Nat.lt_succ_iff.mpr hi), dif_pos (Nat.lt_succ_iff.mpr hi)]
      exact hc ⟨i, Nat.lt_succ_iff.mpr hi⟩ j hj
  · exact hz

theorem denser_cells (dx dy rho rho' : ℕ → ℕ → ℝ) (hr : ∀ i j, i ≤ ny → j ≤ nx → rho' i j = rho i j) (i j : ℕ) (hi : i ≤ ny) (hj : j ≤ nx) :
    Veg.denserNeighbours ny nx rho' dx dy i j = Veg.denserNeighbours ny nx rho dx dy i j := by
  unfold Veg.denserNeighbours
  have h1 := hr i j hi hj
  have h2 := hr i (j - 1) hi (by omega)
  have h4 := hr (i - 1) j (by omega) hj
  by_cases k : j < nx <;> by_cases k' : i < ny
  · have h3 := hr i (j + 1) hi k
    have h5 := hr (i + 1) j k' hj
    simp only [h1, h2, h3, h4, h5]
  · have h3 := hr i (j + 1) hi k
    simp only [h1, h2, h3, h4, k', false_and, if_false]
  · have h5 := hr (i + 1) j k' hj
    simp only [h1, h2, h4, h5, k, false_and, if_false]
  · simp only [h1, h2, h4, k, k', false_and, if_false]

/-! ### A complete step -/

theorem planar_finished_higher (C : Planar.Config nx ny nf) (r : ℕ → ℕ → ℝ) {h : ℝ} {σ σ' : Planar.State nx ny nf} (L : PlanarHigher h σ σ')
    {s s' : Fin (ny + 1) → Hydro.HydroState} (hs : ∀ i, HigherWater nx h (s i).water (s' i).water) (m : Fin (cells nx ny) → Moisture.Cell)
    (τ : Whole.State nx ny nf) : PlanarHigher h (finished C r σ s m τ) (finished (planarHigherConfig h C) r σ' s' m (higher h τ)) := by
  have h1 : ∀ c, Bed.averageChange σ'.clock.dt (planarHigherConfig h C).accfac (planarHigherConfig h C).avgTime (σ'.core.sand.bed c).zb (σ.dzbavg c)
      ((σ'.core.sand.bed c).zb + ((higher h τ).sand.bed c).dzb) =
      Bed.averageChange σ.clock.dt C.accfac C.avgTime (σ.core.sand.bed c).zb (σ.dzbavg c) ((σ.core.sand.bed c).zb + (τ.sand.bed c).dzb) := by
    intro c
    rw [averageChange_change, averageChange_change, L.clock]
    rfl
  have h2 : (finished (planarHigherConfig h C) r σ' s' m (higher h τ)).dzbavg = (finished C r σ s m τ).dzbavg := by
    unfold finished
    simp only [L.dzbavg, h1, L.uw]
  have h3 : (finished (planarHigherConfig h C) r σ' s' m (higher h τ)).dzbveg = (finished C r σ s m τ).dzbveg := by
    unfold finished
    simp only [L.dzbavg, h1, L.uw, L.dzbveg]
  refine ⟨?_, L.uw, ?_, ?_, rfl, fun i => (hs i).Hsmix, rfl, ?_, h2, h3⟩
  · unfold finished
    dsimp only
    rw [L.clock]
    rfl
  · unfold finished
    dsimp only
    rw [L.udir]
    rfl
  · unfold finished
    dsimp only
    rw [L.shear]
    rfl
  · intro i j hi hj
    have e : ∀ (C : Planar.Config nx ny nf) σ s τ, (finished C r σ s m τ).veg i j = if C.shelter.processVegetation then
        Veg.vegStep { C.shelter.veg with dtOpt := σ.clock.dt } ny nx C.shelter.dx C.core.ds C.core.dn
          (fun i j => ⟨Planar.grid (fun c => (τ.sand.bed c).zb) i j, Planar.grid (fun c => (τ.sand.bed c).zs) i j,
            Planar.grid (finished C r σ s m τ).dzbveg i j⟩) r σ.veg i j else σ.veg i j := by
      intro C σ s τ
      unfold finished
      dsimp only
      split_ifs <;> rfl
    rw [e, e, h3, show (planarHigherConfig h C).shelter.processVegetation = C.shelter.processVegetation from rfl, L.clock]
    split_ifs
    · unfold Veg.vegStep Veg.germinate
      dsimp only
      rw [denser_cells _ _ (fun i j => (σ.veg i j).rho) (fun i j => (σ'.veg i j).rho) (fun i j hi hj => by rw [L.veg i j hi hj]) i j hi hj, L.veg i j hi hj]
      rw [show Planar.grid (fun c => ((higher h τ).sand.bed c).zb) i j = Planar.grid (fun c => (τ.sand.bed c).zb) i j + h from grid_higher h _ i j hi hj,
        show Planar.grid (fun c => ((higher h τ).sand.bed c).zs) i j = Planar.grid (fun c => (τ.sand.bed c).zs) i j + h from grid_higher h _ i j hi hj]
      unfold Veg.grow
      exact dying_higher h { C.shelter.veg with dtOpt := σ.clock.dt }
        ⟨Planar.grid (fun c => (τ.sand.bed c).zb) i j, Planar.grid (fun c => (τ.sand.bed c).zs) i j, Planar.grid (finished C r σ s m τ).dzbveg i j⟩ _
    · exact L.veg i j hi hj

open Classical in
theorem planar_waters_higher {C : Planar.Config nx ny nf} (hC : PlanarNoDatum C) {h : ℝ} {σ σ' : Planar.State nx ny nf} (L : PlanarHigher h σ σ') (t dt : ℝ) :
    SameEnd (fun s s' => ∀ i, HigherWater nx h (s i).water (s' i).water) (waters C σ t dt) (waters (planarHigherConfig h C) σ' t dt) := by
  obtain ⟨ts, hts⟩ := Option.ne_none_iff_exists'.mp hC.series
  have e : (planarHigherConfig h C).water = { C.water with tideFile := some (higherSeries h ts) } := by
    unfold planarHigherConfig
    rw [hts]
    rfl
  have hrow : ∀ i : Fin (ny + 1), SameEnd (HigherWater nx h) (Hydro.interpolate C.water (row C σ i) t (σ.hydro i).water)
      (Hydro.interpolate (planarHigherConfig h C).water (row (planarHigherConfig h C) σ' i) t (σ'.hydro i).water) := by
    intro i
    have hi : (i : ℕ) ≤ ny := Nat.lt_succ_iff.mp i.2
    have hw := C160_water h C.water ts hC.tide hts (row C σ i) (σ'.zb i) (fun j hj => hC.mask i j hi hj) (fun j hj => L.zb i j hi hj) t (σ.hydro i).water
      { (σ.hydro i).water with
        SWL := fun j => (σ.hydro i).water.SWL j + h, TWL := fun j => (σ.hydro i).water.TWL j + h, DSWL := fun j => (σ.hydro i).water.DSWL j + h,
        zs := fun j => (σ.hydro i).water.zs j + h, Hsmix := (σ'.hydro i).water.Hsmix }
      ⟨fun _ _ => rfl, fun _ _ => rfl, fun _ _ => rfl, fun _ _ => rfl, fun _ _ => rfl, fun _ _ => rfl, fun _ _ => rfl, fun _ _ => rfl, fun _ _ => rfl,
        L.mix i⟩
    have q := C160_levels_computed { C.water with tideFile := some (higherSeries h ts) } hC.runup { row C σ i with zb := σ'.zb i } t
      { (σ.hydro i).water with
        SWL := fun j => (σ.hydro i).water.SWL j + h, TWL := fun j => (σ.hydro i).water.TWL j + h, DSWL := fun j => (σ.hydro i).water.DSWL j + h,
        zs := fun j => (σ.hydro i).water.zs j + h, Hsmix := (σ'.hydro i).water.Hsmix } (σ'.hydro i).water rfl
    have hw := (congrArg (SameEnd (HigherWater nx h) (Hydro.interpolate C.water (row C σ i) t (σ.hydro i).water)) q).mpr hw
    rw [e]
    exact hw
  have hX := collect_same hrow
  have g : ∀ (D : Planar.Config nx ny nf) r s, D.ground.on = false → Hydro.gridGround D.water r (groundIn D) (groundRow D) t dt s = .ok s :=
    fun D r s hg => if_neg (by rw [show (groundIn D).on = D.ground.on from rfl, hg]; decide)
  unfold waters Hydro.gridStep
  simp only [g C _ _ hC.ground, g (planarHigherConfig h C) _ _ hC.ground]
  revert hX
  generalize (collect fun i : Fin (ny + 1) => Hydro.interpolate C.water (row C σ i) t (σ.hydro i).water) = a
  generalize (collect fun i : Fin (ny + 1) =>
    Hydro.interpolate (planarHigherConfig h C).water (row (planarHigherConfig h C) σ' i) t (σ'.hydro i).water) = b
  intro hX
  rcases a with e | w <;> rcases b with e' | w'
  · exact hX
  · exact hX.elim
  · exact hX.elim
  · exact hX

theorem planar_env_higher {C : Planar.Config nx ny nf} {h : ℝ} {σ σ' : Planar.State nx ny nf} (L : PlanarHigher h σ σ') (now : Full.Now)
    (u0 u : Fin (cells nx ny) → Wind.Shear) (dt : ℝ) {s s' : Fin (ny + 1) → Hydro.HydroState} (hs : ∀ i, HigherWater nx h (s i).water (s' i).water)
    (m : Fin (cells nx ny) → Moisture.Cell) :
    HigherEnv h (envWith C σ now u0 u dt (fun i => (s i).water) m fun _ _ => ⟨0, 0, 0⟩)
      (envWith (planarHigherConfig h C) σ' now u0 u dt (fun i => (s' i).water) m fun _ _ => ⟨0, 0, 0⟩) := by
  refine ⟨?_, fun l c => planar_levels_higher C h dt _ _ _ L.level l c⟩
  unfold envWith
  dsimp only
  rw [L.clock, show (fun c : Fin (cells nx ny) => (s' (rowIx c)).water.zs (colOf c)) = fun c : Fin (cells nx ny) => (s (rowIx c)).water.zs (colOf c) + h from
      funext fun c => (hs _).zs _ (colOf_le c),
    show (fun c : Fin (cells nx ny) => (s' (rowIx c)).water.Hsmix (colOf c)) = fun c : Fin (cells nx ny) => (s (rowIx c)).water.Hsmix (colOf c) from
      funext fun c => (hs _).Hsmix _ (colOf_le c)]
  rfl

/-- After a step the water levels are raised as well. -/
structure PlanarRaised (h : ℝ) (σ σ' : Planar.State nx ny nf) : Prop extends PlanarHigher h σ σ' where
  all : σ'.core = higher h σ.core
  water : ∀ i, HigherWater nx h (σ.hydro i).water (σ'.hydro i).water

open Classical in
theorem planar_execute_higher (sp : LinSolve nx ny) {C : Planar.Config nx ny nf} (hC : PlanarNoDatum C) {h : ℝ} (r : ℕ → ℕ → ℝ) (now : Full.Now)
    (u0 : Fin (cells nx ny) → Wind.Shear) {σ σ' : Planar.State nx ny nf} (L : PlanarHigher h σ σ') :
    SameOutcome (PlanarRaised h) (execute sp C r now u0 σ) (execute sp (planarHigherConfig h C) r now u0 σ') := by
  have hE : ∀ (D : Planar.Config nx ny nf) ρ u dt s m z, D.core.tr.methodGrainspeed ≠ "duran" →
      env D ρ now u0 u dt s m z = some (envWith D ρ now u0 u dt s m fun _ _ => ⟨0, 0, 0⟩) :=
    fun D ρ u dt s m z hD => if_neg fun k => hD k.1
  unfold execute
  rw [L.clock, L.shear, show meteoAt (planarHigherConfig h C) = meteoAt C from rfl, show (planarHigherConfig h C).ground = C.ground from rfl]
  rcases meteoAt C (Hydro.lastTime C.ground σ.clock.t σ.clock.dt) with e | met
  · rfl
  dsimp only
  have hH := planar_waters_higher hC L σ.clock.t σ.clock.dt
  revert hH
  generalize waters C σ σ.clock.t σ.clock.dt = a
  generalize waters (planarHigherConfig h C) σ' σ.clock.t σ.clock.dt = b
  intro hH
  rcases a with e | s <;> rcases b with e' | s'
  · exact hH
  · exact hH.elim
  · exact hH.elim
  dsimp only
  rw [planar_moistures_higher hC L _ _ _ _ hH]
  rcases moistures C σ σ.clock.t σ.clock.dt now.uw met s with _ | (e | m)
  · trivial
  · rfl
  dsimp only
  rw [hE C _ _ _ _ _ _ hC.speed, hE (planarHigherConfig h C) _ _ _ _ _ _ hC.speed]
  dsimp only
  have hcore : ∀ E : Env nx ny nf, Whole.step sp C.core E σ'.core = Whole.step sp C.core E (higher h σ.core) := by
    intro E
    have e1 : ∀ τ : Whole.State nx ny nf, Whole.step sp C.core E τ = Whole.step sp C.core E (atLevel (fun _ => 0) τ) := fun _ => rfl
    rw [e1, L.core, ← e1]
  rw [show (planarHigherConfig h C).core = C.core from rfl, hcore, C160_step sp C.core h _ _ (planar_env_higher L now u0 σ.shear σ.clock.dt hH m)]
  rcases Whole.step sp C.core (envWith C σ now u0 σ.shear σ.clock.dt (fun i => (s i).water) m fun _ _ => ⟨0, 0, 0⟩) σ.core with _ | (e | τ)
  · trivial
  · rfl
  dsimp only [Option.map_some, Except.map]
  have hR := planar_eroded_higher C h σ.clock.t σ.clock.dt (fun i => (s i).water) (fun i => (s' i).water) hH (Planar.grid fun c => (τ.sand.bed c).zb)
    (Planar.grid fun c => ((higher h τ).sand.bed c).zb) (grid_higher h _)
  revert hR
  generalize Planar.eroded C σ.clock.t σ.clock.dt (fun i => (s i).water) (Planar.grid fun c => (τ.sand.bed c).zb) = a
  generalize Planar.eroded (planarHigherConfig h C) σ.clock.t σ.clock.dt (fun i => (s' i).water) (Planar.grid fun c => ((higher h τ).sand.bed c).zb) = b
  intro hR
  rcases a with e | z <;> rcases b with e' | z'
  · exact hR
  · exact hR.elim
  · exact hR.elim
  have e : withLevels (higher h τ) z' = higher h (withLevels τ z) := by
    unfold withLevels higher
    dsimp only
    congr 2
    funext c
    unfold higherCell
    dsimp only
    rw [hR _ _ (rowOf_le c) (colOf_le c)]
  dsimp only
  rw [e]
  exact ⟨planar_finished_higher C r L hH m (withLevels τ z), rfl, hH⟩

open Classical in
/-- **C160** A call of the time loop on a planar grid without shear over the topography: with the bed, the tide and all other levels raised by the same
height, the call ends in the same way; thresholds, transport, sand, moisture and vegetation are the same, bed and water levels are raised by that height. -/
theorem C160_planar_update (sp : LinSolve nx ny) (C : Planar.Config nx ny nf) (hC : PlanarNoDatum C) (h : ℝ) (r : ℕ → ℕ → ℝ) (dt : ℝ)
    (σ σ' : Planar.State nx ny nf) (L : PlanarHigher h σ σ') :
    SameOutcome (fun a b => PlanarHigher h a.1 b.1 ∧ b.2 = a.2 ∧ (a.2 = true → PlanarRaised h a.1 b.1)) (Planar.update sp C r dt σ)
      (Planar.update sp (planarHigherConfig h C) r dt σ') := by
  have h1 : windNow (planarHigherConfig h C) σ' = windNow C σ := by
    unfold windNow
    rw [L.clock, L.uw, L.udir]
    rfl
  have h2 : ∀ u, roughnesses (planarHigherConfig h C) σ' u = roughnesses C σ u := by
    intro u
    unfold roughnesses rough
    simp only [L.mass]
    rfl
  have hst : ∀ (D : Planar.Config nx ny nf) ρ now s, D.wind.processShear = false → stresses D ρ now s = .ok none := fun D ρ now s hD =>
    if_neg fun q => by
      have := q.2
      rw [hD] at this
      cases this
  unfold Planar.update
  rw [h1]
  rcases windNow C σ with e | w
  · rfl
  dsimp only
  rw [h2]
  rcases roughnesses C σ w.1 with _ | (e | z0)
  · trivial
  · rfl
  dsimp only
  have hs0 : shear0 (planarHigherConfig h C) σ' w z0 = shear0 C σ w z0 := by
    funext j
    unfold shear0
    rw [L.shear]
    rfl
  rw [hst C _ _ _ hC.shear, hst (planarHigherConfig h C) _ _ _ hC.shear, hs0,
    show windComponents (planarHigherConfig h C) w = windComponents C w from rfl]
  dsimp only
  rw [planar_shearNow_higher hC L]
  generalize shearNow C σ (windComponents C w) none (shear0 C σ w z0) = u
  have hp : PlanarHigher h (prepared C σ (windComponents C w) none u) (prepared (planarHigherConfig h C) σ' (windComponents C w) none u) := by
    refine ⟨?_, rfl, rfl, rfl, L.core, L.mix, L.moist, L.veg, L.dzbavg, L.dzbveg⟩
    unfold prepared
    dsimp only
    rw [L.clock]
  generalize prepared C σ (windComponents C w) none u = ρ at hp
  generalize prepared (planarHigherConfig h C) σ' (windComponents C w) none u = ρ' at hp
  have hg : tsGrids (planarHigherConfig h C) ρ' (windComponents C w) = tsGrids C ρ (windComponents C w) := by
    unfold tsGrids
    rw [show (fun c => (ρ'.core.sand.bed c).dzb) = fun c => (ρ.core.sand.bed c).dzb from funext fun c => hp.dzb c]
    rfl
  rw [hg, hp.clock, show (planarHigherConfig h C).ts = C.ts from rfl]
  generalize setTimestep C.ts (tsGrids C ρ (windComponents C w)) ρ.clock dt = k
  have hk : PlanarHigher h { ρ with clock := k.1 } { ρ' with clock := k.1 } :=
    ⟨rfl, hp.uw, hp.udir, hp.shear, hp.core, hp.mix, hp.moist, hp.veg, hp.dzbavg, hp.dzbveg⟩
  split_ifs
  · have hX := planar_execute_higher sp hC r (windComponents C w) (shear0 C σ w z0) hk
    revert hX
    generalize execute sp C r (windComponents C w) (shear0 C σ w z0) { ρ with clock := k.1 } = a
    generalize execute sp (planarHigherConfig h C) r (windComponents C w) (shear0 C σ w z0) { ρ' with clock := k.1 } = b
    intro hX
    rcases a with _ | (e | τ) <;> rcases b with _ | (e' | τ')
    · trivial
    · exact hX.elim
    · exact hX.elim
    · exact hX.elim
    · exact hX
    · exact hX.elim
    · exact hX.elim
    · exact hX.elim
    · exact ⟨hX.toPlanarHigher, rfl, fun _ => hX⟩
  · exact ⟨hk, rfl, fun q => by cases q⟩

open Classical in
/-- **C160** A run on a planar grid without shear over the topography, whatever the calls. -/
theorem C160_planar_run (sp : LinSolve nx ny) (C : Planar.Config nx ny nf) (hC : PlanarNoDatum C) (h : ℝ) (calls : List ((ℕ → ℕ → ℝ) × ℝ))
    (σ σ' : Planar.State nx ny nf) (L : PlanarHigher h σ σ') :
    SameOutcome (PlanarHigher h) (Planar.run sp C calls σ) (Planar.run sp (planarHigherConfig h C) calls σ') := by
  induction calls generalizing σ σ' with
  | nil => exact L
  | cons x xs ih =>
    unfold Planar.run
    have hX := C160_planar_update sp C hC h x.1 x.2 σ σ' L
    revert hX
    generalize Planar.update sp C x.1 x.2 σ = a
    generalize Planar.update sp (planarHigherConfig h C) x.1 x.2 σ' = b
    intro hX
    rcases a with _ | (e | ⟨τ, k⟩) <;> rcases b with _ | (e' | ⟨τ', k'⟩)
    · trivial
    · exact hX.elim
    · exact hX.elim
    · exact hX.elim
    · exact hX
    · exact hX.elim
    · exact hX.elim
    · exact hX.elim
    · exact ih τ τ' hX.1

/-! ### Example -/

/-- The bay with vegetation, avalanches and dune erosion, without shear over the topography and fences. -/
noncomputable def openBay : Planar.Config 2 2 1 :=
  { bayConfig 20 true with
    wind := { (bayConfig 20 true).wind with processShear := false }
    shelter := { (bayConfig 20 true).shelter with processFences := false } }

theorem openBay_usable : PlanarUsable openBay :=
  let h := bay_usable 20 true
  ⟨h.core, h.grid, h.rows, h.speed, h.kappa, h.rough, h.weights, h.mask, h.step⟩

theorem openBay_files : PlanarFiles openBay :=
  let h := bay_files 20 true
  ⟨⟨h.wind, h.tide, h.wave, h.moist, h.salt, h.meteo, h.dune, fun _ => rfl⟩, h.ground⟩

theorem openBay_sector : FromSector openBay := bay_sector 20 (by norm_num) true

theorem openBay_noDatum : PlanarNoDatum openBay :=
  ⟨rfl, by simp [openBay, bayConfig], rfl, fun _ _ _ _ => rfl, rfl, rfl, rfl, fun _ => by
    show lower "infiltration" ≠ "surf_moisture"
    decide, by
    show duneConfig.tr.methodGrainspeed ≠ "duran"
    rw [show duneConfig.tr.methodGrainspeed = "windspeed" from rfl]
    decide⟩

/-- A bay at the Dead Sea: all runs return, and the bed is the same but for the height. -/
example (veg : ℕ → ℕ → Veg.Cell) (fence : Fin (cells 2 2) → Lee.Fence) (calls : List ((ℕ → ℕ → ℝ) × ℝ)) :
    ∃ τ τ', Planar.run byInverse openBay calls (bayState veg fence) = some (.ok τ) ∧
      Planar.run byInverse (planarHigherConfig (-430) openBay) calls { bayState veg fence with core := higher (-430) (duneState 2 2) } = some (.ok τ') ∧
        ∀ c, (τ'.core.sand.bed c).zb = (τ.core.sand.bed c).zb + -430 ∧ (τ'.core.sand.bed c).mass = (τ.core.sand.bed c).mass := by
  have L : PlanarHigher (-430) (bayState veg fence) { bayState veg fence with core := higher (-430) (duneState 2 2) } :=
    ⟨rfl, rfl, rfl, rfl, rfl, fun _ _ _ => rfl, rfl, fun _ _ _ _ => rfl, rfl, rfl⟩
  obtain ⟨τ, hτ⟩ := C140_run_total byInverse openBay openBay_usable duneConfig_names openBay_files openBay_sector calls (bayState veg fence) fun _ _ => le_rfl
  have hX := C160_planar_run byInverse openBay openBay_noDatum (-430) calls _ _ L
  rw [hτ] at hX
  revert hX
  generalize Planar.run byInverse (planarHigherConfig (-430) openBay) calls { bayState veg fence with core := higher (-430) (duneState 2 2) } = b
  intro hX
  rcases b with _ | (e | τ')
  · exact hX.elim
  · exact hX.elim
  · exact ⟨τ, τ', hτ, rfl, fun c => ⟨PlanarHigher.level hX c, PlanarHigher.mass hX c⟩⟩

/-! ### From the files -/

/-- The files with a raised bed. -/
def planarHigherFiles (h : ℝ) (F : PlanarProgram.Files nx ny nf) : PlanarProgram.Files nx ny nf := { F with bed := fun i j => F.bed i j + h }

open Classical in
/-- **C160** Files of a planar grid with a raised bed give the raised state at the start. -/
theorem C160_planar_initialise (C : Planar.Config nx ny nf) (F : PlanarProgram.Files nx ny nf) (t h : ℝ) :
    SameOutcome (fun a b => b.1 = planarHigherConfig h a.1 ∧ PlanarHigher h a.2 b.2) (PlanarProgram.initialise C F t)
      (PlanarProgram.initialise (planarHigherConfig h C) (planarHigherFiles h F) t) := by
  unfold PlanarProgram.initialise
  rw [show PlanarProgram.composition (planarHigherConfig h C) (planarHigherFiles h F) = PlanarProgram.composition C F from rfl,
    show PlanarProgram.directions (planarHigherConfig h C) (planarHigherFiles h F) = PlanarProgram.directions C F from rfl]
  change SameOutcome _ _ (match Grid.initGrid ny nx (fun i j => (C.g i j).1) (fun i j => (C.g i j).2) with
    | .error e => some (Except.error e)
    | .ok m => _)
  rcases Grid.initGrid ny nx (fun i j => (C.g i j).1) (fun i j => (C.g i j).2) with e | m
  · exact rfl
  dsimp only
  rcases PlanarProgram.composition C F with e | mass
  · exact rfl
  dsimp only
  rcases PlanarProgram.directions C F with e | wind
  · exact rfl
  dsimp only
  rw [show roughnesses (planarHigherConfig h C) (PlanarProgram.started (planarHigherConfig h C) (planarHigherFiles h F) t mass) 0 =
    roughnesses C (PlanarProgram.started C F t mass) 0 from rfl]
  rcases roughnesses C (PlanarProgram.started C F t mass) 0 with _ | (e | z)
  · trivial
  · exact rfl
  · exact ⟨rfl, rfl, rfl, rfl, rfl, rfl, fun _ _ _ => rfl, rfl, fun _ _ _ _ => rfl, rfl, rfl⟩

theorem planar_initialise_noDatum {C : Planar.Config nx ny nf} (hC : PlanarNoDatum C) (F : PlanarProgram.Files nx ny nf) (t : ℝ) {a}
    (ha : PlanarProgram.initialise C F t = some (.ok a)) : PlanarNoDatum a.1 := by
  unfold PlanarProgram.initialise at ha
  split at ha
  · cases ha
  split at ha
  · cases ha
  split at ha
  · cases ha
  dsimp only at ha
  split at ha
  · cases ha
  · cases ha
  cases ha
  exact ⟨hC.tide, hC.series, hC.runup, hC.mask, hC.shear, hC.fences, hC.ground, hC.moist, hC.speed⟩

/-- States of the model with the counter of time steps, the second raised. -/
def PlanarHigherCount (h : ℝ) (w w' : Planar.State nx ny nf × ℕ) : Prop := PlanarHigher h w.1 w'.1 ∧ w'.2 = w.2

open Classical in
theorem planar_engine_higher (sp : LinSolve nx ny) (C : Planar.Config nx ny nf) (hC : PlanarNoDatum C) (h : ℝ) (rand : ℕ → ℕ → ℕ → ℝ) :
    SameEngine (PlanarHigherCount h) (PlanarProgram.engine sp C rand) (PlanarProgram.engine sp (planarHigherConfig h C) rand) where
  time w w' hw := by
    show w'.1.clock.t = w.1.clock.t
    rw [hw.1.clock]
  dt w w' hw := by
    show w'.1.clock.dt = w.1.clock.dt
    rw [hw.1.clock]
  steps w w' hw := hw.2
  update w w' hw := by
    have hX := C160_planar_update sp C hC h (rand w.2) (-1) w.1 w'.1 hw.1
    unfold PlanarProgram.engine
    dsimp only
    rw [hw.2]
    revert hX
    generalize Planar.update sp C (rand w.2) (-1) w.1 = a
    generalize Planar.update sp (planarHigherConfig h C) (rand w.2) (-1) w'.1 = b
    intro hX
    rcases a with _ | (x | a) <;> rcases b with _ | (y | b)
    · exact rfl
    · exact hX.elim
    · exact hX.elim
    · exact hX.elim
    · exact hX
    · exact hX.elim
    · exact hX.elim
    · exact hX.elim
    · refine ⟨hX.1, ?_⟩
      dsimp only
      rw [hX.2.1]
  quiet := rfl
  quiet' := rfl

open Classical in
/-- **C160** A complete run on a planar grid from files with raised bed, tide and levels: it fails with the same error, is still running after the same
number of rounds, or ends with output at the same times, the same progress and statistics, and the raised state. -/
theorem C160_planar_program (sp : LinSolve nx ny) (C : Planar.Config nx ny nf) (hC : PlanarNoDatum C) (F : PlanarProgram.Files nx ny nf)
    (rand : ℕ → ℕ → ℕ → ℝ) (solves solves' : Planar.State nx ny nf × ℕ → ℕ) (h : ℝ) (hsol : ∀ w w', PlanarHigherCount h w w' → solves' w' = solves w)
    (c : Runner.Cfg ℝ) (restart : Runner.RestartArg) (walls : List (ℝ × ℝ)) :
    SameEnd (SameStage fun a b => SameRun (PlanarHigherCount h) a.1 b.1 ∧ b.2 = a.2) (PlanarProgram.program sp C F rand solves c restart walls)
      (PlanarProgram.program sp (planarHigherConfig h C) (planarHigherFiles h F) rand solves' c restart walls) := by
  have hX := C160_planar_initialise C F c.tstart h
  have hN := @planar_initialise_noDatum nx ny nf C hC F c.tstart
  unfold PlanarProgram.program
  revert hX hN
  generalize PlanarProgram.initialise C F c.tstart = a
  generalize PlanarProgram.initialise (planarHigherConfig h C) (planarHigherFiles h F) c.tstart = b
  intro hX hN
  rcases a with _ | (e | ⟨C', σ⟩) <;> rcases b with _ | (e' | ⟨D, σ'⟩)
  · exact rfl
  · exact hX.elim
  · exact hX.elim
  · exact hX.elim
  · exact hX
  · exact hX.elim
  · exact hX.elim
  · exact hX.elim
  · obtain ⟨h1, h2⟩ := hX
    dsimp only at h1 h2 ⊢
    rw [h1]
    exact C160_same_run c (planar_engine_higher sp C' (hN rfl) h rand) solves solves' hsol restart walls _ _ ⟨h2, rfl⟩

/-- C160: two days of storm in a bay at the Dead Sea, with plants, avalanches and dune erosion. -/
example (rand : ℕ → ℕ → ℕ → ℝ) (walls : List (ℝ × ℝ)) (hw : 49 ≤ walls.length) :
    ∃ s s' r, PlanarProgram.program byInverse openBay bayFiles rand Prod.snd twoDays .absent walls = .ok (some (s, r)) ∧
      PlanarProgram.program byInverse (planarHigherConfig (-430) openBay) (planarHigherFiles (-430) bayFiles) rand Prod.snd twoDays .absent walls =
        .ok (some (s', r)) ∧
      s'.records = s.records ∧ ∀ c, (s'.w.1.core.sand.bed c).zb = (s.w.1.core.sand.bed c).zb + -430 := by
  obtain ⟨C', σ, τ, s, r, -, -, -, hp, -⟩ := C147_completes byInverse openBay bayFiles
    (planar_startable_of openBay_usable rfl rfl) duneConfig_names openBay_files (bay_wind_sector 20 (by norm_num) true) one_pos twoDays
    twoDays_asked rand Prod.snd walls (hw.trans' (bay_steps 20 true).le)
  have hX := C160_planar_program byInverse openBay openBay_noDatum bayFiles rand Prod.snd Prod.snd (-430) (fun _ _ h => h.2) twoDays .absent walls
  rw [hp] at hX
  revert hX
  generalize PlanarProgram.program byInverse (planarHigherConfig (-430) openBay) (planarHigherFiles (-430) bayFiles) rand Prod.snd twoDays .absent walls = b
  intro hX
  rcases b with e | (_ | ⟨s', r'⟩)
  · exact hX.elim
  · exact hX.elim
  · obtain ⟨h1, h2⟩ := hX
    dsimp only at h1 h2
    rw [h2]
    exact ⟨s, s', r, hp, rfl, h1.records, fun c => h1.w.1.level c⟩

end Aeolis.Props
