import Verif.Model.PlanarProgram
import Verif.Props.PlanarBudget
import Verif.Props.PlanarRange
import Verif.Props.PlanarExamples
import Verif.Props.Grid
import Verif.Props.Program

/-!
C147: complete runs on a planar grid, from the files to the last state.
-/

set_option linter.unusedSectionVars false

namespace Aeolis.Props

open Finset Aeolis.Spec Aeolis.Sand Aeolis.Solver Aeolis.Whole Aeolis.Planar

variable {nx ny nf : ℕ}

/-- Files and parameters of a planar grid that can be run: first cell, its neighbour in the row and its neighbour in the column at different places,
layers of equal thickness, no limit on the change of the bed level per step, and what `PlanarUsable` asks for. -/
structure PlanarStartable (C : Planar.Config nx ny nf) (F : PlanarProgram.Files nx ny nf) : Prop where
  core : ConfigOk C.core
  columns : 2 ≤ nx
  rows : 2 ≤ ny
  coordinates : C.g 0 1 ≠ C.g 0 0 ∧ C.g 1 0 ≠ C.g 0 0
  speed : C.core.tr.methodGrainspeed = "windspeed"
  kappa : 0 < C.wind.kappa
  rough : ∃ z0, PlanarRoughness C z0 ∧ 0 < z0 ∧ z0 < C.wind.z
  weights : ∀ i k, 0 ≤ C.shelter.vegWeights i k
  mask : ∀ c, 0 < (C.thresholdMask c).1 ∧ 0 ≤ (C.thresholdMask c).2
  step : C.ts.explicit = false ∧ 0 < C.ts.dt ∧ C.ts.maxChange = 999
  density : 0 ≤ C.core.setup.bed.rhog ∧ C.core.setup.bed.porosity ≤ 1
  layers : ∀ k, C.core.setup.thlyr k = C.core.setup.thlyr 0
  composition : F.bedcomp = none ∧ match F.grainDist with
    | .single g => Shares g
    | .layered rows => F.intDtype = false ∧ rows.length = C.core.setup.bed.nl ∧ ∀ g ∈ rows, Shares g
  convention : C.wind.file = none ∨ F.convention = "nautical" ∨ F.convention = "cartesian"

/-- Mass of a layer at the start: density of the packed sand times thickness. -/
def planarLayerMass (C : Planar.Config nx ny nf) : ℝ := C.core.setup.bed.rhog * (1 - C.core.setup.bed.porosity) * C.core.setup.thlyr 0

/-- The initial state: the bed of the file, layers of the given mass with the given grain sizes, clear air, dry and without salt, the clock at the
start time, the vegetation of the file without negative densities, the fences of the file. -/
structure PlanarInitial (C : Planar.Config nx ny nf) (F : PlanarProgram.Files nx ny nf) (t : ℝ) (σ : Planar.State nx ny nf) : Prop where
  bed : ∀ c, (σ.core.sand.bed c).zb = F.bed (rowOf c) (colOf c)
  layers : ∀ c, ∀ k < C.core.setup.bed.nl, ∑ f, (σ.core.sand.bed c).mass k f = planarLayerMass C
  fractions : ∀ c, ∀ k < C.core.setup.bed.nl, ∃ g, (F.grainDist = .single g ∨ ∃ rows, F.grainDist = .layered rows ∧ rows[k]? = some g) ∧
    ∀ f, (σ.core.sand.bed c).mass k f * ∑ j, g j = planarLayerMass C * g f
  air : ∀ c f, σ.core.sand.Ct c f = 0
  sound : Sound C.core.setup.bed.nl (planarLayerMass C) σ.core
  dry : ∀ c, (σ.moist c).moist = 0 ∧ (σ.moist c).salt = 0
  clock : σ.clock.t = t
  unstepped : σ.clock.dt = 0
  plants : ∀ i j, (σ.veg i j).rho = match F.veg with
    | none => 0
    | some file => max 0 (file i j)
  fences : C.shelter.processFences = true → ∀ c, (σ.fence c).height = F.fence (rowOf c) (colOf c) ∧
    (σ.fence c).top = F.bed (rowOf c) (colOf c) + F.fence (rowOf c) (colOf c)

/-- The configuration after the initialisation: cell sizes from the distances of the first cell to its neighbours (that of the columns in `dn`, that of
the rows in `ds`: C78), the grid turned by the angle of its first row about the mean of its
coordinates, directions in the nautical convention, the initial bed, the roughness of the
wind shear module; all else is as given. -/
structure PlanarReadied (C : Planar.Config nx ny nf) (F : PlanarProgram.Files nx ny nf) (C' : Planar.Config nx ny nf) : Prop where
  usable : PlanarUsable C'
  sizes : ∀ i j, C'.core.dn i j = distance (C.g 0 1) (C.g 0 0) ∧ C'.core.ds i j = distance (C.g 1 0) (C.g 0 0) ∧
    C'.core.ds i j * C'.core.dn i j * C'.core.dsdni i j = 1
  turned : C'.alpha = Grid.orientation ((C.g 0 1).1 - (C.g 0 0).1) ((C.g 0 1).2 - (C.g 0 0).2)
  coordinates : ∀ i j, C'.g i j = rotatePt C'.alpha
    ((∑ k ∈ Finset.range (ny + 1), ∑ l ∈ Finset.range (nx + 1), (C.g k l).1) / ((ny + 1) * (nx + 1)),
      (∑ k ∈ Finset.range (ny + 1), ∑ l ∈ Finset.range (nx + 1), (C.g k l).2) / ((ny + 1) * (nx + 1))) (C.g i j)
  wind : C'.wind.file = C.wind.file.map fun file => file.map (nautical F.convention)
  stress : ∃ z0, PlanarRoughness C z0 ∧ C'.shearModule = { C.shearModule with rough := .scalar z0 }
  same : C' = { C with
    core := { C.core with ds := C'.core.ds, dn := C'.core.dn, dsdni := C'.core.dsdni, bedcomp := false }
    wind := { C.wind with file := C'.wind.file }
    shearModule := C'.shearModule
    alpha := C'.alpha
    g := C'.g
    zb0 := fun c => F.bed (rowOf c) (colOf c) }

theorem convention_ok {conv : String} (h : conv = "nautical" ∨ conv = "cartesian") (file : List Wind.Record) :
    Wind.applyConvention conv file = .ok (file.map (nautical conv)) := by
  unfold Wind.applyConvention
  rcases h with e | e
  · rw [e, if_pos rfl]
    congr 1
    refine List.map_congr_left fun r _ => ?_
    unfold nautical
    rw [if_pos rfl]
    split_ifs <;> rfl
  · rw [e, if_neg (by decide), if_pos rfl, List.map_map]
    congr 1
    refine List.map_congr_left fun r _ => ?_
    unfold nautical
    rw [if_neg (by decide)]
    simp only [Function.comp_apply]
    split_ifs <;> rfl

theorem planar_directions_ok {C : Planar.Config nx ny nf} {F : PlanarProgram.Files nx ny nf}
    (h : C.wind.file = none ∨ F.convention = "nautical" ∨ F.convention = "cartesian") :
    PlanarProgram.directions C F = .ok (C.wind.file.map fun file => file.map (nautical F.convention)) := by
  unfold PlanarProgram.directions
  match hf : C.wind.file with
  | none => rfl
  | some file =>
    have h := h.resolve_left (by simp [hf])
    simp only [convention_ok h]
    rfl

theorem planar_composition_ok {C : Planar.Config nx ny nf} {F : PlanarProgram.Files nx ny nf} (hS : PlanarStartable C F) :
    ∃ mass, PlanarProgram.composition C F = .ok mass ∧ ∀ c, ∀ k < C.core.setup.bed.nl,
      ∃ g, Shares g ∧ (F.grainDist = .single g ∨ ∃ rows, F.grainDist = .layered rows ∧ rows[k]? = some g) ∧
        ∀ f, mass c k f = planarLayerMass C * (g f / ∑ j, g j) := by
  obtain ⟨hb, hg⟩ := hS.composition
  unfold PlanarProgram.composition
  rw [hb]
  match hd : F.grainDist with
  | .single g =>
    rw [hd] at hg
    refine ⟨_, collect_ok.mpr fun c => rfl, fun c k _ => ⟨g, hg, Or.inl rfl, fun f => ?_⟩⟩
    unfold planarLayerMass
    rw [← hS.layers k]
    rfl
  | .layered rows =>
    rw [hd] at hg
    obtain ⟨hi, hl, hg⟩ := hg
    have key : Bed.initMass C.core.setup.bed.nl C.core.setup.bed.rhog C.core.setup.bed.porosity C.core.setup.thlyr F.intDtype none
        (.layered rows) = some fun k f =>
          C.core.setup.bed.rhog * (1 - C.core.setup.bed.porosity) * C.core.setup.thlyr k * Bed.gs (rows.getD k 0) f := by
      simp [Bed.initMass, hi, hl]
    refine ⟨_, collect_ok.mpr fun c => by
      simp only [Option.map_none, key]
      rfl, fun c k hk => ?_⟩
    have hk' : k < rows.length := by omega
    refine ⟨rows[k], hg _ (List.getElem_mem hk'), Or.inr ⟨rows, rfl, List.getElem?_eq_getElem hk'⟩, fun f => ?_⟩
    have h2 : rows.getD k 0 = rows[k] := by simp [List.getD, hk']
    unfold planarLayerMass
    rw [← hS.layers k]
    simp only [h2]
    rfl

theorem planarLayerMass_nonneg {C : Planar.Config nx ny nf} {F : PlanarProgram.Files nx ny nf} (hS : PlanarStartable C F) : 0 ≤ planarLayerMass C :=
  mul_nonneg (mul_nonneg hS.density.1 (by linarith [hS.density.2])) (hS.core.setup.thick 0)

theorem distance_pos {a b : ℝ × ℝ} (h : a ≠ b) : 0 < distance a b := by
  unfold distance
  rw [Real.sqrt_pos]
  by_contra hn
  have h1 := sq_nonneg (a.1 - b.1)
  have h2 := sq_nonneg (a.2 - b.2)
  have e1 : a.1 - b.1 = 0 := by
    rw [← sq_eq_zero_iff]
    linarith
  have e2 : a.2 - b.2 = 0 := by
    rw [← sq_eq_zero_iff]
    linarith
  exact h (Prod.ext (by linarith) (by linarith))

theorem planar_metrics {C : Planar.Config nx ny nf} {F : PlanarProgram.Files nx ny nf} (hS : PlanarStartable C F) :
    ∃ m, Grid.initGrid ny nx (fun i j => (C.g i j).1) (fun i j => (C.g i j).2) = .ok m ∧
      m.alpha = Grid.orientation ((C.g 0 1).1 - (C.g 0 0).1) ((C.g 0 1).2 - (C.g 0 0).2) ∧
      ∀ i j, m.dn i j = distance (C.g 0 1) (C.g 0 0) ∧ m.ds i j = distance (C.g 1 0) (C.g 0 0) ∧ m.dsdni i j = 1 / (m.ds i j * m.dn i j) := by
  have h2 := hS.columns
  have h3 := hS.rows
  have : ∃ m, Grid.initGrid ny nx (fun i j => (C.g i j).1) (fun i j => (C.g i j).2) = .ok m ∧
      m.alpha = Grid.orientation ((C.g 0 1).1 - (C.g 0 0).1) ((C.g 0 1).2 - (C.g 0 0).2) ∧ ∀ i j, m.dsdni i j = 1 / (m.ds i j * m.dn i j) := by
    unfold Grid.initGrid
    rw [if_neg (by omega)]
    refine ⟨_, rfl, ?_, fun i j => rfl⟩
    simp only [if_neg (show ny ≠ 0 by omega)]
  obtain ⟨m, hm, ha, hi⟩ := this
  refine ⟨m, hm, ha, fun i j => ?_⟩
  obtain ⟨h1, h2⟩ := C78_planar ny nx (by omega) _ _ m hm i j
  exact ⟨h1, h2, hi i j⟩

/-- **C147** Initialisation of a planar grid: it succeeds, and gives the state and the configuration of the files. -/
theorem C147_initialise (C : Planar.Config nx ny nf) (F : PlanarProgram.Files nx ny nf) (hS : PlanarStartable C F) (t : ℝ) :
    ∃ C' σ, PlanarProgram.initialise C F t = some (.ok (C', σ)) ∧ PlanarInitial C F t σ ∧ PlanarReadied C F C' := by
  obtain ⟨m, hm, ha, hsz⟩ := planar_metrics hS
  obtain ⟨mass, hmass, hmix⟩ := planar_composition_ok hS
  have hdir := planar_directions_ok hS.convention
  obtain ⟨z, hz, hz0, hz1⟩ := hS.rough
  have hrough := planar_roughnesses C z hz (PlanarProgram.started C F t mass) 0
  refine ⟨PlanarProgram.configured C F m (C.wind.file.map fun file => file.map (nautical F.convention)) fun _ => z,
    PlanarProgram.started C F t mass, ?_, ?_, ?_⟩
  · unfold PlanarProgram.initialise
    simp only [hm, hmass, hdir, hrough]
  · have hM := planarLayerMass_nonneg hS
    have hnn : ∀ c, ∀ k < C.core.setup.bed.nl, ∀ f, 0 ≤ mass c k f := by
      intro c k hk f
      obtain ⟨g, hg, -, e⟩ := hmix c k hk
      rw [e]
      exact mul_nonneg hM (div_nonneg (hg.1 f) (sum_nonneg fun j _ => hg.1 j))
    have hsum : ∀ c, ∀ k < C.core.setup.bed.nl, ∑ f, mass c k f = planarLayerMass C := by
      intro c k hk
      obtain ⟨g, hg, -, e⟩ := hmix c k hk
      simp only [e]
      rw [← mul_sum, ← sum_div, div_self hg.2, mul_one]
    refine ⟨fun c => rfl, hsum, fun c k hk => ?_, fun c f => rfl, ⟨⟨hsum, hnn, fun c f => le_rfl⟩, fun c f => ⟨le_rfl, le_rfl, le_rfl⟩,
      fun c f => le_rfl⟩, fun c => ⟨rfl, rfl⟩, rfl, rfl, fun i j => ?_, fun h c => ?_⟩
    · obtain ⟨g, hg, hg', e⟩ := hmix c k hk
      refine ⟨g, hg', fun f => ?_⟩
      show mass c k f * _ = _
      rw [e f, mul_assoc, div_mul_cancel₀ _ hg.2]
    · show (PlanarProgram.plants C F i j).rho = _
      unfold PlanarProgram.plants
      match F.veg with
      | none => rfl
      | some file =>
        show (if file i j < 0 then file i j * 0 else file i j) = max 0 (file i j)
        split_ifs with h
        · rw [max_eq_left h.le, mul_zero]
        · rw [max_eq_right (not_lt.mp h)]
    · show (PlanarProgram.palisade C F c).height = _ ∧ (PlanarProgram.palisade C F c).top = _
      unfold PlanarProgram.palisade
      rw [if_pos h]
      exact ⟨rfl, rfl⟩
  · have hc := hS.core
    have p1 := distance_pos hS.coordinates.1
    have p2 := distance_pos hS.coordinates.2
    have hds : ∀ i j, m.ds i j = distance (C.g 1 0) (C.g 0 0) := fun i j => (hsz i j).2.1
    have hdn : ∀ i j, m.dn i j = distance (C.g 0 1) (C.g 0 0) := fun i j => (hsz i j).1
    have hinv : ∀ i j, m.dsdni i j = 1 / (distance (C.g 1 0) (C.g 0 0) * distance (C.g 0 1) (C.g 0 0)) := fun i j => by
      rw [(hsz i j).2.2, hds, hdn]
    have hpos : 0 < distance (C.g 1 0) (C.g 0 0) * distance (C.g 0 1) (C.g 0 0) := mul_pos p2 p1
    refine ⟨⟨?_, ⟨hS.columns, by have := hS.rows; omega, fun i _ j hj => ?_, fun i _ j _ => ?_, fun i _ j hj => ?_, fun _ i _ j _ => ?_⟩,
      hS.rows, hS.speed, hS.kappa, ⟨z, hz, hz0, hz1⟩, hS.weights, hS.mask, hS.step⟩, fun i j => ⟨hdn i j, hds i j, ?_⟩, ha, fun i j => rfl, rfl,
      ⟨z, hz, ?_⟩, ?_⟩
    · exact ⟨⟨hc.dist, hc.transport, hc.size, hc.setup, hc.bi, hc.T, hc.err, hc.scheme, hc.flux, hc.off, hc.on⟩, hc.bed, hc.threshold, hc.moist⟩
    · show 0 ≤ m.ds i j
      rw [hds]
      exact p2.le
    · show 0 ≤ m.dn i j
      rw [hdn]
      exact p1.le
    · show 0 ≤ m.dsdni i j
      rw [hinv]
      exact one_div_nonneg.mpr hpos.le
    · show m.ds i j * m.dsdni i j = m.ds 0 j * m.dsdni 0 j
      rw [hds, hds, hinv, hinv]
    · show m.ds i j * m.dn i j * m.dsdni i j = 1
      rw [hds, hdn, hinv]
      field_simp
    · show ({ C.shearModule with rough := PlanarProgram.moduleRough C fun _ => z } : Shear.Settings) = _
      unfold PlanarProgram.moduleRough
      rw [if_pos (by rcases hz with h | h | h <;> simp [h.1])]
    · unfold PlanarProgram.configured
      simp only [hS.composition.1]
      rfl

/-! ### The run -/

/-- A run of the program with an engine that counts its steps and moves the clock by `h` in each: it completes. -/
theorem counted_run {S : Type*} (c : Runner.Cfg ℝ) (hc : Asked c) (e : Runner.Engine ℝ (S × ℕ)) (solves : S × ℕ → ℕ) (walls : List (ℝ × ℝ)) (f : ℕ → S)
    (h : ℝ) (hh : 0 < h) (hsteps : ∀ w, e.steps w = w.2) (hcb : e.callback = none) (htime : ∀ k, e.time (f k, k) = c.tstart + k * h)
    (hup : ∀ k, e.update (f k, k) = .ok (f (k + 1), k + 1)) (hw : ⌊(c.tstop - c.tstart) / h⌋₊ + 1 ≤ walls.length) :
    ∃ s r, Runner.run c e solves .absent walls (f 0, 0) = .ok (some (s, r)) ∧
      s.w = (f (⌊(c.tstop - c.tstart) / h⌋₊ + 1), ⌊(c.tstop - c.tstart) / h⌋₊ + 1) ∧
      s.records = (Writer.run c.outputTimes ⟨0, []⟩
        ((List.range (⌊(c.tstop - c.tstart) / h⌋₊ + 2)).map fun k : ℕ => c.tstart + k * h)).records ∧
      r.2 * (⌊(c.tstop - c.tstart) / h⌋₊ + 1 : ℕ) = c.tstop := by
  set n := ⌊(c.tstop - c.tstart) / h⌋₊ + 1 with hn
  have hin : ∀ i < n, c.tstart + i * h ≤ c.tstop := by
    intro i hi
    have h1 : (i : ℝ) ≤ (c.tstop - c.tstart) / h := by
      have : i ≤ ⌊(c.tstop - c.tstart) / h⌋₊ := Nat.lt_succ_iff.mp hi
      exact (Nat.cast_le.mpr this).trans (Nat.floor_le (div_nonneg (by linarith [hc.time]) hh.le))
    have := (le_div_iff₀ hh).mp h1
    linarith
  have hend : c.tstop < c.tstart + n * h := by
    have h1 : (c.tstop - c.tstart) / h < n := by
      rw [hn]
      push_cast
      exact Nat.lt_floor_add_one _
    have := (div_lt_iff₀ hh).mp h1
    linarith
  have path : ∀ k ≤ n, Path e c.tstop (f (n - k), n - k) ((List.range k).map fun i => (f (n - k + i), n - k + i)) (f n, n) := by
    intro k
    induction k with
    | zero =>
      intro _
      exact .stop _ (by rw [Nat.sub_zero, htime]; exact hend)
    | succ k ih =>
      intro hk
      rw [List.range_succ_eq_map, List.map_cons, List.map_map]
      have e1 : n - (k + 1) + 1 = n - k := by omega
      refine .step _ (f (n - k), n - k) _ _ (by
        show e.time (f (n - (k + 1)), n - (k + 1)) ≤ c.tstop
        rw [htime]; exact hin _ (by omega)) (by
        have : afterCallback e (f (n - (k + 1)), n - (k + 1)) = (f (n - (k + 1)), n - (k + 1)) := by
          unfold afterCallback
          rw [hcb]
        show e.update (afterCallback e (f (n - (k + 1)), n - (k + 1))) = _
        rw [this, hup, e1]) ?_
      have := ih (by omega)
      have e2 : (List.range k).map ((fun i => (f (n - (k + 1) + i), n - (k + 1) + i)) ∘ Nat.succ) =
          (List.range k).map fun i => (f (n - k + i), n - k + i) := by
        refine List.map_congr_left fun i _ => ?_
        simp only [Function.comp_apply]
        rw [show n - (k + 1) + i.succ = n - k + i by omega]
      rw [e2]
      exact this
  have hp := path n le_rfl
  rw [Nat.sub_self] at hp
  simp only [zero_add] at hp
  have hlist : (List.range n).map (fun i => (f i, i)) ++ [(f n, n)] = (List.range (n + 1)).map fun i => (f i, i) := by
    rw [(List.range_succ : List.range (n + 1) = _), List.map_append, List.map_singleton]
  have htail : ((List.range (n + 1)).map fun i => (f i, i)).tail = (List.range n).map fun i => (f (i + 1), i + 1) := by
    rw [List.range_succ_eq_map, List.map_cons, List.tail_cons, List.map_map]
    rfl
  obtain ⟨s, r, hrun, hsw⟩ := C103_completes c e solves walls (f 0, 0) (f n, n) _ hp (by simpa using hw) hc.restart
    hc.time.ne' hc.snapshot (by
      rw [htime]
      simpa using hc.first)
    (by
      rw [hlist, htail, hn, List.range_succ_eq_map]
      intro x hx
      simp only [List.map_cons, List.head?_cons, Option.mem_def, Option.some.injEq] at hx
      rw [← hx, hsteps])
    (by
      rw [hlist, htail]
      intro x hx
      obtain ⟨i, -, rfl⟩ := List.mem_map.mp hx
      rw [htime]
      have : 0 < ((i + 1 : ℕ) : ℝ) * h := mul_pos (by positivity) hh
      linarith)
    (by rw [hsteps, hn]; simp)
  obtain ⟨ws', hp', -, hrec, -, hr2, -⟩ := C103_completed c _ solves .absent walls _ s r hrun
  rw [hsw] at hp' hrec hr2
  obtain ⟨rfl, -⟩ := Runner.path_unique hp hp'
  refine ⟨s, r, hrun, hsw, ?_, ?_⟩
  · rw [hrec, hlist, List.map_map]
    congr 2
    refine List.map_congr_left fun i _ => ?_
    exact htime i
  · rw [hsteps] at hr2
    exact hr2

/-- The calls of `update` made by the run: no time step is asked for. -/
def planarCalls (rand : ℕ → ℕ → ℕ → ℝ) (n : ℕ) : List ((ℕ → ℕ → ℝ) × ℝ) := (List.range n).map fun i => (rand i, -1)

/-- Number of steps of a run from `tstart` to beyond `tstop`. -/
noncomputable def planarSteps (C : Planar.Config nx ny nf) (c : Runner.Cfg ℝ) : ℕ := ⌊(c.tstop - c.tstart) / (C.ts.dt * C.accfac)⌋₊ + 1

theorem planar_run_append (sp : LinSolve nx ny) (C : Planar.Config nx ny nf) (xs ys : List ((ℕ → ℕ → ℝ) × ℝ)) :
    ∀ (σ ρ : Planar.State nx ny nf), Planar.run sp C xs σ = some (.ok ρ) → Planar.run sp C (xs ++ ys) σ = Planar.run sp C ys ρ := by
  induction xs with
  | nil =>
    intro σ ρ h
    rw [← Except.ok.inj (Option.some.inj h)]
    rfl
  | cons x xs ih =>
    intro σ ρ h
    rw [List.cons_append]
    unfold Planar.run at h ⊢
    match h1 : Planar.update sp C x.1 x.2 σ with
    | none => simp [h1] at h
    | some (.error e) => simp [h1] at h
    | some (.ok (σ', b)) =>
      simp only [h1] at h ⊢
      rw [ih σ' ρ h]
      cases ys <;> rfl

/-- The states of a run from a state in a set of states `I` that no call leaves and in which every call returns. -/
theorem planar_states (sp : LinSolve nx ny) (C : Planar.Config nx ny nf) (hC : PlanarUsable C) (I : Planar.State nx ny nf → Prop)
    (hI : ∀ (r : ℕ → ℕ → ℝ) (σ : Planar.State nx ny nf), I σ → ∃ τ b, Planar.update sp C r (-1) σ = some (.ok (τ, b)) ∧ I τ)
    (rand : ℕ → ℕ → ℕ → ℝ) (σ : Planar.State nx ny nf) (h0 : I σ) :
    ∃ f : ℕ → Planar.State nx ny nf, f 0 = σ ∧ (∀ k, Planar.update sp C (rand k) (-1) (f k) = some (.ok (f (k + 1), true))) ∧
      (∀ k : ℕ, (f k).clock.t = σ.clock.t + k * (C.ts.dt * C.accfac)) ∧ ∀ n, Planar.run sp C (planarCalls rand n) σ = some (.ok (f n)) := by
  have next : ∀ (k : ℕ) (ρ : {ρ : Planar.State nx ny nf // I ρ}), ∃ ρ' : {ρ : Planar.State nx ny nf // I ρ},
      Planar.update sp C (rand k) (-1) ρ.1 = some (.ok (ρ'.1, true)) ∧ ρ'.1.clock.t = ρ.1.clock.t + C.ts.dt * C.accfac := by
    intro k ρ
    obtain ⟨ρ', b, hu, h0'⟩ := hI (rand k) ρ.1 ρ.2
    obtain ⟨hb, -, hbt, -⟩ := C140_step sp C hC (rand k) (-1) ρ.1 ρ' b hu
    have hb' : b = true := by
      cases b with
      | true => rfl
      | false => exact absurd (hb.mp rfl) (lt_irrefl _)
    subst hb'
    obtain ⟨E, hE, -, ht, -⟩ := hbt rfl
    rw [hE.time.2, if_neg (by norm_num)] at ht
    exact ⟨⟨ρ', h0'⟩, hu, ht⟩
  choose nxt hu ht using next
  let f : ℕ → {ρ : Planar.State nx ny nf // I ρ} := fun k => Nat.rec ⟨σ, h0⟩ (fun k ρ => nxt k ρ) k
  have hf : ∀ k, Planar.update sp C (rand k) (-1) (f k).1 = some (.ok ((f (k + 1)).1, true)) := fun k => hu k (f k)
  refine ⟨fun k => (f k).1, rfl, hf, fun k => ?_, fun n => ?_⟩
  · induction k with
    | zero => simp [f]
    | succ k ih =>
      have := ht k (f k)
      show (nxt k (f k)).1.clock.t = _
      rw [this, ih]
      push_cast
      ring
  · induction n with
    | zero => rfl
    | succ n ih =>
      unfold planarCalls at ih ⊢
      rw [List.range_succ, List.map_append, List.map_singleton, planar_run_append sp C _ _ _ _ ih]
      unfold Planar.run
      simp only [hf]
      rfl

theorem planar_readied_files {C C' : Planar.Config nx ny nf} {F : PlanarProgram.Files nx ny nf} (hR : PlanarReadied C F C') (hF : PlanarFiles C) :
    PlanarFiles C' := by
  have e := hR.same
  have hw := hR.wind
  refine ⟨⟨fun file h => ?_, ?_, ?_, ?_, ?_, ?_, ?_, ?_⟩, ?_⟩
  · rw [hw] at h
    match hf : C.wind.file with
    | none => simp [hf] at h
    | some raw =>
      rw [hf] at h
      obtain rfl := Option.some.inj h
      obtain ⟨h1, h2⟩ := hF.wind raw hf
      refine ⟨by simpa using h1, ?_⟩
      rw [List.pairwise_map]
      exact h2
  all_goals rw [e]
  · exact hF.tide
  · exact hF.wave
  · exact hF.moist
  · exact hF.salt
  · exact hF.meteo
  · exact hF.dune
  · exact hF.bubbles
  · exact hF.ground

theorem planar_readied_names {C C' : Planar.Config nx ny nf} {F : PlanarProgram.Files nx ny nf} (hR : PlanarReadied C F C') (hN : NamesOk C.core) :
    NamesOk C'.core := by
  rw [hR.same]
  exact ⟨hN.speed, hN.transport, hN.gs, hN.functions, hN.on, hN.lat, hN.iter⟩

/-- All records of the wind file have directions from which the wind blows ahead, strictly onshore, on the grid turned by the angle of its first row. -/
def WindFromSector (C : Planar.Config nx ny nf) (F : PlanarProgram.Files nx ny nf) : Prop :=
  let alpha := Grid.orientation ((C.g 0 1).1 - (C.g 0 0).1) ((C.g 0 1).2 - (C.g 0 0).2)
  C.wind.processWind = true ∧ ∃ file, C.wind.file = some file ∧ ∀ r ∈ file, 0 ≤ r.2.1 ∧
    Real.sin (((nautical F.convention r).2.2 - C.wind.alfa + alpha) / 180 * Real.pi) < 0 ∧
    Real.cos (((nautical F.convention r).2.2 - C.wind.alfa + alpha) / 180 * Real.pi) ≤ 0

theorem planar_readied_sector {C C' : Planar.Config nx ny nf} {F : PlanarProgram.Files nx ny nf} (hR : PlanarReadied C F C') (hs : WindFromSector C F) :
    FromSector C' := by
  obtain ⟨hp, file, hf, hr⟩ := hs
  have e := hR.same
  refine ⟨by rw [e]; exact hp, file.map (nautical F.convention), by rw [hR.wind, hf]; rfl, fun r h => ?_⟩
  obtain ⟨r', h', rfl⟩ := List.mem_map.mp h
  obtain ⟨h1, h2, h3⟩ := hr r' h'
  have ea : C'.wind.alfa = C.wind.alfa := by rw [e]
  rw [hR.turned, ea]
  exact ⟨h1, h2, h3⟩

/-- A run in which every call returns, from the initial state on, completes. -/
theorem planar_completes_within (sp : LinSolve nx ny) (C : Planar.Config nx ny nf) (F : PlanarProgram.Files nx ny nf) (hS : PlanarStartable C F)
    (c : Runner.Cfg ℝ) (I : Planar.State nx ny nf → Prop) (hstart : ∀ σ, PlanarInitial C F c.tstart σ → I σ)
    (hstep : ∀ C', PlanarReadied C F C' → ∀ (r : ℕ → ℕ → ℝ) (σ : Planar.State nx ny nf), I σ →
      ∃ τ b, Planar.update sp C' r (-1) σ = some (.ok (τ, b)) ∧ I τ)
    (hacc : 0 < C.accfac) (hc : Asked c)
    (rand : ℕ → ℕ → ℕ → ℝ) (solves : Planar.State nx ny nf × ℕ → ℕ) (walls : List (ℝ × ℝ)) (hw : planarSteps C c ≤ walls.length) :
    ∃ C' σ τ s r, PlanarProgram.initialise C F c.tstart = some (.ok (C', σ)) ∧ PlanarInitial C F c.tstart σ ∧ PlanarReadied C F C' ∧
      PlanarProgram.program sp C F rand solves c .absent walls = .ok (some (s, r)) ∧ s.w = (τ, planarSteps C c) ∧
      Planar.run sp C' (planarCalls rand (planarSteps C c)) σ = some (.ok τ) ∧
      τ.clock.t = c.tstart + planarSteps C c * (C.ts.dt * C.accfac) ∧
      s.records = (Writer.run c.outputTimes ⟨0, []⟩
        ((List.range (planarSteps C c + 1)).map fun k : ℕ => c.tstart + k * (C.ts.dt * C.accfac))).records ∧
      r.2 * planarSteps C c = c.tstop := by
  obtain ⟨C', σ, hi, hI, hR⟩ := C147_initialise C F hS c.tstart
  have hts : C'.ts = C.ts := by rw [hR.same]
  have hac : C'.accfac = C.accfac := by rw [hR.same]
  obtain ⟨f, hf0, hfu, hft, hfr⟩ := planar_states sp C' hR.usable I (hstep C' hR) rand σ (hstart σ hI)
  rw [hts, hac, hI.clock] at hft
  obtain ⟨s, r, h1, h2, h3, h4⟩ := counted_run c hc (PlanarProgram.engine sp C' rand) solves walls f (C.ts.dt * C.accfac)
    (mul_pos hS.step.2.1 hacc) (fun _ => rfl) rfl hft (fun k => by
      show (match Planar.update sp C' (rand k) (-1) (f k) with
        | none => Except.error PyErr.valueError
        | some (.error e) => .error e
        | some (.ok (σ, b)) => .ok (σ, if b then k + 1 else k)) = _
      rw [hfu]
      rfl) hw
  refine ⟨C', σ, f (planarSteps C c), s, r, hi, hI, hR, ?_, h2, hfr _, hft _, h3, h4⟩
  unfold PlanarProgram.program
  simp only [hi]
  rw [hf0] at h1
  exact h1

/-- **C147** A run of the program on a planar grid with wind from a sector ahead completes: the files are read, the number of time steps is the one
that first passes the stop time, the states are those of as many calls of `update`, the output is written at the times of the output rule, and the last
state is that after the last call. -/
theorem C147_completes (sp : LinSolve nx ny) (C : Planar.Config nx ny nf) (F : PlanarProgram.Files nx ny nf) (hS : PlanarStartable C F)
    (hN : NamesOk C.core) (hF : PlanarFiles C) (hs : WindFromSector C F) (hacc : 0 < C.accfac) (c : Runner.Cfg ℝ) (hc : Asked c)
    (rand : ℕ → ℕ → ℕ → ℝ) (solves : Planar.State nx ny nf × ℕ → ℕ) (walls : List (ℝ × ℝ)) (hw : planarSteps C c ≤ walls.length) :
    ∃ C' σ τ s r, PlanarProgram.initialise C F c.tstart = some (.ok (C', σ)) ∧ PlanarInitial C F c.tstart σ ∧ PlanarReadied C F C' ∧
      PlanarProgram.program sp C F rand solves c .absent walls = .ok (some (s, r)) ∧ s.w = (τ, planarSteps C c) ∧
      Planar.run sp C' (planarCalls rand (planarSteps C c)) σ = some (.ok τ) ∧
      τ.clock.t = c.tstart + planarSteps C c * (C.ts.dt * C.accfac) ∧
      s.records = (Writer.run c.outputTimes ⟨0, []⟩
        ((List.range (planarSteps C c + 1)).map fun k : ℕ => c.tstart + k * (C.ts.dt * C.accfac))).records ∧
      r.2 * planarSteps C c = c.tstop :=
  planar_completes_within sp C F hS c (fun σ => ∀ c f, 0 ≤ (σ.core.cap c f).Cu0) (fun _ hI c f => (hI.sound.cap c f).2.2)
    (fun C' hR r σ h0 => C140_total sp C' hR.usable (planar_readied_names hR hN) (planar_readied_files hR hF) (planar_readied_sector hR hs) r (-1) σ h0)
    hacc hc rand solves walls hw

/-! ### What the wind does in a run -/

theorem planar_readied_below {C C' : Planar.Config nx ny nf} {F : PlanarProgram.Files nx ny nf} (hR : PlanarReadied C F C') {umax : ℝ}
    (hu : PlanarWindBelow C umax) : PlanarWindBelow C' umax := by
  obtain ⟨hp, file, hf, hle⟩ := hu
  refine ⟨by rw [hR.same]; exact hp, file.map (nautical F.convention), by rw [hR.wind, hf]; rfl, fun r hr => ?_⟩
  obtain ⟨r', hr', rfl⟩ := List.mem_map.mp hr
  exact hle r' hr'

theorem planar_readied_rough {C C' : Planar.Config nx ny nf} {F : PlanarProgram.Files nx ny nf} (hR : PlanarReadied C F C') {z0 : ℝ}
    (h : PlanarRoughness C z0) : PlanarRoughness C' z0 := by
  rw [hR.same]
  exact h

theorem planar_readied_bound {C C' : Planar.Config nx ny nf} {F : PlanarProgram.Files nx ny nf} (hR : PlanarReadied C F C') (z0 u : ℝ) :
    planarBagnold C' z0 u = planarBagnold C z0 u := by
  rw [hR.same]
  rfl

theorem planar_initial_plants {C : Planar.Config nx ny nf} {F : PlanarProgram.Files nx ny nf} {t : ℝ} {σ : Planar.State nx ny nf}
    (hI : PlanarInitial C F t σ) (i j : ℕ) : 0 ≤ (σ.veg i j).rho := by
  rw [hI.plants i j]
  match F.veg with
  | none => exact le_rfl
  | some file => exact le_max_left _ _

/-- **C147** A complete run in a breeze, with the shear velocity of the strongest wind in the file below the threshold of every grain size: the bed in the
last state is that of the bed file, the layers are those of the start, the air is clear. -/
theorem C147_breeze (sp : LinSolve nx ny) (hsp : Exact sp) (C : Planar.Config nx ny nf) (F : PlanarProgram.Files nx ny nf) (hS : PlanarStartable C F)
    (hN : NamesOk C.core) (hF : PlanarFiles C) (hs : WindFromSector C F) (hacc : 0 < C.accfac) (c : Runner.Cfg ℝ) (hc : Asked c)
    (rand : ℕ → ℕ → ℕ → ℝ) (solves : Planar.State nx ny nf × ℕ → ℕ) (walls : List (ℝ × ℝ)) (hw : planarSteps C c ≤ walls.length)
    (hin : NoInflow C.core) (hcs : 0 ≤ C.core.thr.csalt) (hmix : C.core.setup.mixing = false) (hlev : PlanarNoOtherChanges C)
    (hflat : PlanarSheltering C) (hmask : ∀ c, 1 ≤ (C.thresholdMask c).1) (umax z0 : ℝ) (hu : PlanarWindBelow C umax) (hz : PlanarRoughness C z0)
    (hlow : ∀ f, umax * |C.wind.kappa / Real.log (C.wind.z / z0)| ≤ grainThreshold C.core f) :
    ∃ s r σ, PlanarProgram.program sp C F rand solves c .absent walls = .ok (some (s, r)) ∧ PlanarInitial C F c.tstart σ ∧
      (∀ c, (s.w.1.core.sand.bed c).zb = F.bed (rowOf c) (colOf c)) ∧
      (∀ c, ∀ k < C.core.setup.bed.nl, (s.w.1.core.sand.bed c).mass k = (σ.core.sand.bed c).mass k) ∧ (∀ c f, s.w.1.core.sand.Ct c f = 0) := by
  obtain ⟨C', σ, τ, s, r, hi, hI, hR, hp, hsw, hrun, -⟩ := C147_completes sp C F hS hN hF hs hacc c hc rand solves walls hw
  have e := hR.same
  have hnl : C'.core.setup.bed.nl = C.core.setup.bed.nl := by rw [e]
  obtain ⟨τ', hrun', hstill⟩ := C141_breeze sp hsp C' hR.usable (planar_readied_names hR hN) (planar_readied_files hR hF) (planar_readied_sector hR hs)
    (by rw [e]; exact ⟨hin.off, hin.on⟩) (by rw [e]; exact hcs) (by rw [e]; exact hmix) (by rw [e]; exact hlev)
    (by rw [e]; exact ⟨hflat.shear, hflat.fences, hflat.plants⟩) (by rw [e]; exact hmask) umax z0 (planar_readied_below hR hu)
    (planar_readied_rough hR hz) (by rw [e]; exact hlow) (planarCalls rand (planarSteps C c)) σ (by rw [hnl]; exact hI.sound.sand.mass)
    (fun c f => (hI.sound.cap c f).2.2) hI.air (fun c => by rw [(hI.dry c).2]; exact zero_le_one) (planar_initial_plants hI)
  rw [hrun] at hrun'
  obtain rfl := Except.ok.inj (Option.some.inj hrun')
  rw [hnl] at hstill
  refine ⟨s, r, σ, hp, hI, ?_⟩
  rw [hsw]
  exact ⟨fun c => (hstill.level c).trans (hI.bed c), fun c k hk => funext (hstill.mass c k hk), hstill.air⟩

/-- **C147** A complete run in a storm, with any number of fractions and vegetation on a bed that does not change the shear: every layer has the mass it had at the
start, no amount of sand is negative, and nowhere is there more sand in the air than Bagnold's formula gives for the strongest wind in the file.  The layers
must hold what this concentration settles in a time step. -/
theorem C147_storm (sp : LinSolve nx ny) (hsp : Exact sp) (C : Planar.Config nx ny nf) (F : PlanarProgram.Files nx ny nf) (hS : PlanarStartable C F)
    (hN : NamesOk C.core) (hF : PlanarFiles C) (hs : WindFromSector C F) (hacc : 0 < C.accfac) (c : Runner.Cfg ℝ) (hc : Asked c)
    (rand : ℕ → ℕ → ℕ → ℝ) (solves : Planar.State nx ny nf × ℕ → ℕ) (walls : List (ℝ × ℝ)) (hw : planarSteps C c ≤ walls.length)
    (hlat : C.core.bounds.lat = "circular") (hin : SmallInflow C.core) (hflat : PlanarSheltering C) (hb : C.core.tr.methodTransport = "bagnold")
    (umax z0 : ℝ) (hu : PlanarWindBelow C umax) (hz : PlanarRoughness C z0) (hz0 : 0 < z0 ∧ z0 < C.wind.z)
    (hthick : Copes nx ny C.core (planarBagnold C z0 umax) (planarLayerMass C) C.ts.dt) :
    ∃ s r, PlanarProgram.program sp C F rand solves c .absent walls = .ok (some (s, r)) ∧
      (∀ c, ∀ k < C.core.setup.bed.nl, ∑ f, (s.w.1.core.sand.bed c).mass k f = planarLayerMass C ∧ ∀ f, 0 ≤ (s.w.1.core.sand.bed c).mass k f) ∧
      (∀ c f, 0 ≤ s.w.1.core.sand.Ct c f ∧ s.w.1.core.sand.Ct c f ≤ planarBagnold C z0 umax) := by
  obtain ⟨C', σ, τ, s, r, hi, hI, hR, hp, hsw, hrun, -⟩ := C147_completes sp C F hS hN hF hs hacc c hc rand solves walls hw
  have e := hR.same
  have hnl : C'.core.setup.bed.nl = C.core.setup.bed.nl := by rw [e]
  have hbd := planar_readied_bound hR z0 umax
  have hM : 0 ≤ planarBagnold C' z0 umax := planarBagnold_nonneg C' hR.usable umax z0 ⟨hz0.1, by rw [e]; exact hz0.2⟩
  obtain ⟨τ', hrun', hsound, hair⟩ := C141_storm sp hsp C' hR.usable (planar_readied_names hR hN) (planar_readied_files hR hF)
    (planar_readied_sector hR hs) (by rw [e]; exact hlat)
    (by rw [e]; exact ⟨hin.off, hin.on⟩) (by rw [e]; exact ⟨hflat.shear, hflat.fences, hflat.plants⟩)
    (by rw [e]; exact hb) umax z0 (planar_readied_below hR hu) (planar_readied_rough hR hz) ⟨hz0.1, by rw [e]; exact hz0.2⟩ (planarLayerMass C)
    (planarLayerMass_nonneg hS) (planarCalls rand (planarSteps C c)) (fun x hx => by
      obtain ⟨i, -, rfl⟩ := List.mem_map.mp hx
      rw [if_neg (by norm_num), hbd]
      exact ⟨lt_of_eq_of_lt (by rw [e]) hthick.thick, hthick.iter.imp_right fun h => le_of_eq_of_le (by rw [e]) (h.trans_eq (by rw [e]))⟩)
    σ (by rw [hnl]; exact hI.sound) (fun c f => by rw [hI.air]; exact hM) (fun c => by rw [(hI.dry c).2]; exact zero_le_one) (planar_initial_plants hI)
  rw [hrun] at hrun'
  obtain rfl := Except.ok.inj (Option.some.inj hrun')
  rw [hnl] at hsound
  refine ⟨s, r, hp, ?_⟩
  rw [hsw]
  refine ⟨fun c k hk => ?_, fun c f => ⟨hsound.sand.air c f, (hair c f).trans hbd.le⟩⟩
  exact ⟨hsound.sand.layers c k hk, fun f => hsound.sand.mass c k hk f⟩

/-- Sand above the reference level in the inner columns, for cells of the given area: bed levels `zb` and sand `air` in the air. -/
noncomputable def sandOnGrid (C : Planar.Config nx ny nf) (area : ℝ) (zb air : Fin (cells nx ny) → ℝ) : ℝ :=
  ∑ i ∈ range (ny + 1), ∑ j ∈ Ico 1 nx, area * (C.core.setup.bed.rhog * (1 - C.core.setup.bed.porosity) * Planar.grid zb i j + Planar.grid air i j)

/-- **C147** Sand is not created in a complete run: if none is supplied at the ends, the sand in bed and air at the end is at most that of the bed file, up
to the tolerance of the solver in every step. -/
theorem C147_not_created (sp : LinSolve nx ny) (hsp : Exact sp) (C : Planar.Config nx ny nf) (F : PlanarProgram.Files nx ny nf) (hS : PlanarStartable C F)
    (hN : NamesOk C.core) (hF : PlanarFiles C) (hs : WindFromSector C F) (hacc : 0 < C.accfac) (c : Runner.Cfg ℝ) (hc : Asked c)
    (rand : ℕ → ℕ → ℕ → ℝ) (solves : Planar.State nx ny nf × ℕ → ℕ) (walls : List (ℝ × ℝ)) (hw : planarSteps C c ≤ walls.length)
    (hlat : C.core.bounds.lat = "circular") (hne : C.core.thr.thNelayer = false) (hup : C.core.setup.bed.processBedupdate = true)
    (hrho : 0 < C.core.setup.bed.rhog * (1 - C.core.setup.bed.porosity))
    (hin : NoInflow C.core) (hflat : PlanarSheltering C) (hava : PlanarOnlyAvalanches C) (hb : C.core.tr.methodTransport = "bagnold")
    (umax z0 : ℝ) (hu : PlanarWindBelow C umax) (hz : PlanarRoughness C z0) (hz0 : 0 < z0 ∧ z0 < C.wind.z)
    (hthick : Copes nx ny C.core (planarBagnold C z0 umax) (planarLayerMass C) C.ts.dt) :
    ∃ s r, PlanarProgram.program sp C F rand solves c .absent walls = .ok (some (s, r)) ∧
      sandOnGrid C (distance (C.g 1 0) (C.g 0 0) * distance (C.g 0 1) (C.g 0 0)) (fun c => (s.w.1.core.sand.bed c).zb) (fun c => ∑ f, s.w.1.core.sand.Ct c f) ≤
        sandOnGrid C (distance (C.g 1 0) (C.g 0 0) * distance (C.g 0 1) (C.g 0 0)) (fun c => F.bed (rowOf c) (colOf c)) (fun _ => 0) +
          planarSteps C c * (C.core.setup.bed.maxError * nf *
            ((ny + 1) * (nx - 1) * (distance (C.g 1 0) (C.g 0 0) * distance (C.g 0 1) (C.g 0 0)))) := by
  obtain ⟨C', σ, τ, s, r, hi, hI, hR, hp, hsw, hrun, -⟩ := C147_completes sp C F hS hN hF hs hacc c hc rand solves walls hw
  have e := hR.same
  have h2 := hS.columns
  have hnl : C'.core.setup.bed.nl = C.core.setup.bed.nl := by rw [e]
  have hbed : C'.core.setup.bed = C.core.setup.bed := by rw [e]
  have hbd := planar_readied_bound hR z0 umax
  have hM : 0 ≤ planarBagnold C' z0 umax := planarBagnold_nonneg C' hR.usable umax z0 ⟨hz0.1, by rw [e]; exact hz0.2⟩
  have hds : ∀ i j, C'.core.ds i j = distance (C.g 1 0) (C.g 0 0) := fun i j => (hR.sizes i j).2.1
  have hdn : ∀ i j, C'.core.dn i j = distance (C.g 0 1) (C.g 0 0) := fun i j => (hR.sizes i j).1
  obtain ⟨τ', hrun', hsand⟩ := C142_not_created sp hsp C' hR.usable (planar_readied_names hR hN) (planar_readied_files hR hF)
    (planar_readied_sector hR hs)
    ⟨by rw [e]; exact hlat, fun i hi j hj => (hR.sizes i j).2.2, fun i hi j hj => by rw [hdn, hdn], by rw [e]; exact hne, by rw [e]; exact hup,
      by rw [e]; exact hrho⟩
    ⟨fun i _ j _ => by rw [hds, hds], fun i _ => by rw [hdn, hdn]⟩
    (by rw [e]; exact ⟨hin.off, hin.on⟩) (by rw [e]; exact ⟨hflat.shear, hflat.fences, hflat.plants⟩)
    (by rw [e]; exact hava) (distance (C.g 1 0) (C.g 0 0) * distance (C.g 0 1) (C.g 0 0))
    (mul_nonneg (Real.sqrt_nonneg _) (Real.sqrt_nonneg _)) (fun i _ j _ => by rw [hds, hdn]) (by rw [e]; exact hb) umax z0 (planar_readied_below hR hu)
    (planar_readied_rough hR hz) ⟨hz0.1, by rw [e]; exact hz0.2⟩ (planarLayerMass C) (planarLayerMass_nonneg hS)
    (planarCalls rand (planarSteps C c)) (fun x hx => by
      obtain ⟨i, -, rfl⟩ := List.mem_map.mp hx
      rw [if_neg (by norm_num), hbd]
      exact ⟨lt_of_eq_of_lt (by rw [e]) hthick.thick, hthick.iter.imp_right fun h => le_of_eq_of_le (by rw [e]) (h.trans_eq (by rw [e]))⟩)
    σ (by rw [hnl]; exact hI.sound) (fun c f => by rw [hI.air]; exact hM) (fun c => by rw [(hI.dry c).2]; exact zero_le_one) (planar_initial_plants hI)
  rw [hrun] at hrun'
  obtain rfl := Except.ok.inj (Option.some.inj hrun')
  refine ⟨s, r, hp, ?_⟩
  rw [hsw]
  have key : ∀ ρ : Whole.State nx ny nf, sandMass C'.core ρ = sandOnGrid C (distance (C.g 1 0) (C.g 0 0) * distance (C.g 0 1) (C.g 0 0))
      (fun c => (ρ.sand.bed c).zb) (fun c => ∑ f, ρ.sand.Ct c f) := by
    intro ρ
    unfold sandMass sandOnGrid
    refine sum_congr rfl fun i _ => sum_congr rfl fun j _ => ?_
    rw [hds, hdn, hbed, ← Sand.onGrid_sum]
    rfl
  have harea : innerArea nx ny C'.core = (ny + 1) * (nx - 1) * (distance (C.g 1 0) (C.g 0 0) * distance (C.g 0 1) (C.g 0 0)) := by
    unfold innerArea
    simp only [hds, hdn]
    rw [sum_const, sum_const, card_range, Nat.card_Ico, nsmul_eq_mul, nsmul_eq_mul, Nat.cast_sub (by omega)]
    push_cast
    ring
  rw [key, key, harea, hbed] at hsand
  have hlen : (planarCalls rand (planarSteps C c)).length = planarSteps C c := by simp [planarCalls]
  rw [hlen] at hsand
  refine hsand.trans (le_of_eq ?_)
  simp only [hI.bed, hI.air, sum_const_zero]

/-! ### Examples -/

/-- A bed that rises from 1 m by 10 cm per metre, one grain size, plants in the second column, fences of a metre in the third. -/
noncomputable def bayFiles : PlanarProgram.Files 2 2 1 where
  bed := fun _ j => 1 + 0.1 * j
  bedcomp := none
  grainDist := .single fun _ => 1
  intDtype := false
  veg := some fun _ j => if j = 1 then 0.3 else 0
  fence := fun _ j => if j = 2 then 1 else 0
  convention := "nautical"

theorem planar_startable_of {C : Planar.Config 2 2 1} (h : PlanarUsable C) (hg : C.g = fun i j : ℕ => ((j : ℝ), (i : ℝ)))
    (hs : C.core.setup = duneConfig.setup) : PlanarStartable C bayFiles where
  core := h.core
  columns := le_rfl
  rows := le_rfl
  coordinates := by rw [hg]; simp
  speed := h.speed
  kappa := h.kappa
  rough := h.rough
  weights := h.weights
  mask := h.mask
  step := h.step
  density := by rw [hs]; norm_num [duneConfig]
  layers := fun _ => by rw [hs]; rfl
  composition := ⟨rfl, ⟨fun _ => zero_le_one, by simp⟩⟩
  convention := Or.inr (Or.inl rfl)

theorem bay_orientation (umax : ℝ) (dunes : Bool) : Grid.orientation (((bayConfig umax dunes).g 0 1).1 - ((bayConfig umax dunes).g 0 0).1)
    (((bayConfig umax dunes).g 0 1).2 - ((bayConfig umax dunes).g 0 0).2) = 0 := by
  simp [bayConfig, Grid.orientation]

theorem bay_wind_sector (umax : ℝ) (hu : 0 ≤ umax) (dunes : Bool) : WindFromSector (bayConfig umax dunes) bayFiles := by
  obtain ⟨h1, file, h2, h3⟩ := bay_sector umax hu dunes
  refine ⟨h1, file, h2, fun r hr => ?_⟩
  rw [bay_orientation]
  have h := h3 r hr
  have hd : (nautical bayFiles.convention r).2.2 = r.2.2 := by
    unfold nautical
    have : bayFiles.convention = "nautical" := rfl
    rw [this, if_pos rfl]
    obtain rfl := Option.some.inj h2
    simp only [List.mem_cons, List.not_mem_nil, or_false] at hr
    rcases hr with rfl | rfl | rfl <;> norm_num
  rw [hd]
  exact h

theorem bay_steps (umax : ℝ) (dunes : Bool) : planarSteps (bayConfig umax dunes) twoDays = 49 := by
  unfold planarSteps
  have : (twoDays.tstop - twoDays.tstart) / ((bayConfig umax dunes).ts.dt * (bayConfig umax dunes).accfac) = (48 : ℕ) := by
    norm_num [twoDays, bayConfig]
  rw [this, Nat.floor_natCast]

/-- C147: a run with all processes takes 49 steps of an hour. -/
example (rand : ℕ → ℕ → ℕ → ℝ) (solves : Planar.State 2 2 1 × ℕ → ℕ) (walls : List (ℝ × ℝ)) (hw : 49 ≤ walls.length) :
    ∃ s r, PlanarProgram.program byInverse (bayConfig 20 true) bayFiles rand solves twoDays .absent walls = .ok (some (s, r)) ∧
      s.w.1.clock.t = 176400 := by
  obtain ⟨C', σ, τ, s, r, -, -, -, hp, hs, -, ht, -⟩ := C147_completes byInverse (bayConfig 20 true) bayFiles
    (planar_startable_of (bay_usable 20 true) rfl rfl) duneConfig_names (bay_files 20 true) (bay_wind_sector 20 (by norm_num) true) one_pos twoDays
    twoDays_asked rand solves walls (by rwa [bay_steps])
  refine ⟨s, r, hp, ?_⟩
  rw [hs, ht, bay_steps]
  norm_num [twoDays, bayConfig]

/-- C147: a breeze of 3 m/s for two days. -/
example (rand : ℕ → ℕ → ℕ → ℝ) (solves : Planar.State 2 2 1 × ℕ → ℕ) (walls : List (ℝ × ℝ)) (hw : 49 ≤ walls.length) :
    ∃ s r, PlanarProgram.program byInverse (bayConfig 3 false) bayFiles rand solves twoDays .absent walls = .ok (some (s, r)) ∧
      ∀ c, (s.w.1.core.sand.bed c).zb = 1 + 0.1 * colOf c := by
  obtain ⟨s, r, σ, hp, -, hb, -⟩ := C147_breeze byInverse byInverse_exact (bayConfig 3 false) bayFiles
    (planar_startable_of (bay_usable 3 false) rfl rfl) duneConfig_names (bay_files 3 false) (bay_wind_sector 3 (by norm_num) false) one_pos twoDays
    twoDays_asked rand solves walls (by rwa [bay_steps])
    ⟨⟨fun _ => rfl, fun _ => rfl⟩, fun _ => rfl, fun _ => rfl⟩ (by norm_num [bayConfig, duneConfig, exThreshold]) rfl ⟨rfl, rfl, rfl⟩
    (bay_sheltering 3) (fun _ => le_rfl) 3 0.001 ⟨rfl, _, rfl, by norm_num⟩ (Or.inl ⟨rfl, rfl⟩) (fun f => by
      show (3 : ℝ) * |0.41 / Real.log (10 / 0.001)| ≤ grainThreshold duneConfig f
      rw [abs_of_nonneg coast_ratio.1]
      exact le_trans (by linarith [coast_ratio.2]) (coast_grains f))
  exact ⟨s, r, hp, hb⟩

theorem bay_layerMass : planarLayerMass slidingConfig = 159 := by
  norm_num [planarLayerMass, slidingConfig, bayConfig, duneConfig]

theorem sliding_sheltering : PlanarSheltering slidingConfig :=
  let h := bay_sheltering 20
  ⟨h.shear, h.fences, h.plants⟩

/-- C147: storms of up to 20 m/s for two days, with avalanches and plants. -/
example (rand : ℕ → ℕ → ℕ → ℝ) (solves : Planar.State 2 2 1 × ℕ → ℕ) (walls : List (ℝ × ℝ)) (hw : 49 ≤ walls.length) :
    ∃ s r, PlanarProgram.program byInverse slidingConfig bayFiles rand solves twoDays .absent walls = .ok (some (s, r)) ∧
      (∀ c, ∀ k < 3, (s.w.1.core.sand.bed c).mass k 0 = 159) ∧ (∀ c f, s.w.1.core.sand.Ct c f ≤ 0.01) ∧
      sandOnGrid slidingConfig 1 (fun c => (s.w.1.core.sand.bed c).zb) (fun c => ∑ f, s.w.1.core.sand.Ct c f) ≤
        sandOnGrid slidingConfig 1 (fun c => bayFiles.bed (rowOf c) (colOf c)) (fun _ => 0) + 49 * (1e-6 * 3) := by
  have hS : PlanarStartable slidingConfig bayFiles := planar_startable_of sliding_usable rfl rfl
  have hn : planarSteps slidingConfig twoDays = 49 := bay_steps 20 false
  have hsec : WindFromSector slidingConfig bayFiles := bay_wind_sector 20 (by norm_num) false
  have hthick : planarBagnold slidingConfig 0.001 20 / slidingConfig.core.T * slidingConfig.ts.dt < planarLayerMass slidingConfig := by
    rw [bay_layerMass]
    have := bay_thick 0 (by norm_num)
    rwa [if_neg (lt_irrefl _)] at this
  obtain ⟨s, r, hp, hm, ha⟩ := C147_storm byInverse byInverse_exact slidingConfig bayFiles hS duneConfig_names sliding_files hsec one_pos twoDays
    twoDays_asked rand solves walls (hw.trans' hn.le) rfl ⟨⟨fun _ => zero_le_one, fun _ => rfl⟩, fun _ => zero_le_one, fun _ => rfl⟩ sliding_sheltering
    rfl 20 0.001 ⟨rfl, _, rfl, by norm_num⟩ (Or.inl ⟨rfl, rfl⟩) (by norm_num [slidingConfig, bayConfig]) (copes_one hthick)
  obtain ⟨s', r', hp', hc⟩ := C147_not_created byInverse byInverse_exact slidingConfig bayFiles hS duneConfig_names sliding_files hsec one_pos twoDays
    twoDays_asked rand solves walls (hw.trans' hn.le) rfl rfl rfl
    (by norm_num [slidingConfig, bayConfig, duneConfig])
    ⟨⟨fun _ => rfl, fun _ => rfl⟩, fun _ => rfl, fun _ => rfl⟩ sliding_sheltering ⟨rfl, rfl⟩
    rfl 20 0.001 ⟨rfl, _, rfl, by norm_num⟩ (Or.inl ⟨rfl, rfl⟩) (by norm_num [slidingConfig, bayConfig]) (copes_one hthick)
  rw [hp] at hp'
  obtain ⟨rfl, rfl⟩ := Prod.mk.inj (Option.some.inj (Except.ok.inj hp'))
  refine ⟨s, r, hp, fun c k hk => (Fin.sum_univ_one _).symm.trans ((hm c k hk).1.trans bay_layerMass), fun c f => (ha c f).2.trans bay_bound, ?_⟩
  have hd : distance (slidingConfig.g 1 0) (slidingConfig.g 0 0) * distance (slidingConfig.g 0 1) (slidingConfig.g 0 0) = 1 := by
    norm_num [distance, slidingConfig, bayConfig]
  rw [hn, hd] at hc
  refine hc.trans (le_of_eq ?_)
  norm_num [slidingConfig, bayConfig, duneConfig]

end Aeolis.Props
