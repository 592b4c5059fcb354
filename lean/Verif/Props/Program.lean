import Verif.Model.Program
import Verif.Props.FullBudget
import Verif.Props.FullRange
import Verif.Props.Grid
import Verif.Props.Runner

/-!
C146: complete runs on a transect, from the files to the last state.
-/

set_option linter.unusedSectionVars false

namespace Aeolis.Props

open Finset Aeolis.Spec Aeolis.Sand Aeolis.Solver Aeolis.Whole Aeolis.Full Aeolis.Program

variable {nx nf : ℕ}

/-- Shares of the fractions, not all zero. -/
def Shares (g : Fin nf → ℝ) : Prop := (∀ f, 0 ≤ g f) ∧ ∑ f, g f ≠ 0

/-- Grain sizes for all layers, or a line per layer. -/
def GoodGrains (nl : ℕ) (F : Files nx nf) : Prop :=
  F.bedcomp = none ∧ match F.grainDist with
    | .single g => Shares g
    | .layered rows => F.intDtype = false ∧ rows.length = nl ∧ ∀ g ∈ rows, Shares g

/-- Files and parameters of a transect that can be run: increasing coordinates, layers of equal thickness, no limit on the change of the bed level
per step, and what `Usable` asks for. -/
structure Startable (C : Full.Config nx nf) (F : Files nx nf) : Prop where
  core : ConfigOk C.core
  columns : 2 ≤ nx
  coordinates : ∀ j < nx, C.x j < C.x (j + 1)
  speed : C.core.tr.methodGrainspeed = "windspeed"
  on : C.core.bounds.on = "flux" ∨ C.core.bounds.on = "constant" ∨ C.core.bounds.off = "noflux"
  kappa : 0 < C.wind.kappa
  rough : ∃ z0, RoughnessIs C z0 ∧ 0 < z0 ∧ z0 < C.wind.z
  weights : ∀ i k, 0 ≤ C.shelter.vegWeights i k
  mask : ∀ j, 0 < (C.thresholdMask j).1 ∧ 0 ≤ (C.thresholdMask j).2
  step : C.ts.explicit = false ∧ 0 < C.ts.dt ∧ C.ts.maxChange = 999
  density : 0 ≤ C.core.setup.bed.rhog ∧ C.core.setup.bed.porosity ≤ 1
  layers : ∀ k, C.core.setup.thlyr k = C.core.setup.thlyr 0
  grains : GoodGrains C.core.setup.bed.nl F
  convention : C.wind.file = none ∨ F.convention = "nautical" ∨ F.convention = "cartesian"

/-- Mass of a layer at the start: density of the packed sand times thickness. -/
def layerMass (C : Full.Config nx nf) : ℝ := C.core.setup.bed.rhog * (1 - C.core.setup.bed.porosity) * C.core.setup.thlyr 0

/-- The initial state: the bed of the file, layers of the given mass with the given grain sizes, clear air, dry and without salt, the clock at the
start time, the vegetation of the file without negative densities. -/
structure Initial (C : Full.Config nx nf) (F : Files nx nf) (t : ℝ) (σ : Full.State nx nf) : Prop where
  bed : ∀ c, (σ.core.sand.bed c).zb = F.bed c
  layers : ∀ c, ∀ k < C.core.setup.bed.nl, ∑ f, (σ.core.sand.bed c).mass k f = layerMass C
  fractions : ∀ c, ∀ k < C.core.setup.bed.nl, ∃ g, (F.grainDist = .single g ∨ ∃ rows, F.grainDist = .layered rows ∧ rows[k]? = some g) ∧
    ∀ f, (σ.core.sand.bed c).mass k f * ∑ j, g j = layerMass C * g f
  air : ∀ c f, σ.core.sand.Ct c f = 0
  sound : Sound C.core.setup.bed.nl (layerMass C) σ.core
  dry : ∀ c, (σ.moist c).moist = 0 ∧ (σ.moist c).salt = 0
  clock : σ.clock.t = t
  unstepped : σ.clock.dt = 0
  plants : ∀ j, (σ.veg j).rho = match F.veg with
    | none => 0
    | some file => max 0 (file j)
  fences : C.shelter.processFences = true → ∀ j, (σ.fence j).height = F.fence j ∧ (σ.fence j).top = F.bed j + F.fence j

/-- A record of the wind file with its direction in the nautical convention, away from the direction in which the code would divide by zero. -/
noncomputable def nautical (conv : String) (r : Wind.Record) : Wind.Record :=
  (r.1, r.2.1, if conv = "nautical" then (if r.2.2 = 0 then 0.01 else r.2.2) else 270 - (if r.2.2 = 270 then 270.01 else r.2.2))

/-- The configuration after the initialisation: cell sizes from the coordinates, a width of one metre, directions in the nautical convention, the
initial bed; all else is as given. -/
structure Readied (C : Full.Config nx nf) (F : Files nx nf) (C' : Full.Config nx nf) : Prop where
  usable : Usable C'
  sizes : ∀ j, C'.core.ds 0 j = (if j = 0 then C.x 1 - C.x 0 else C.x j - C.x (j - 1)) ∧ C'.core.dn 0 j = 1 ∧
    C'.core.dsdni 0 j = 1 / C'.core.ds 0 j
  wind : C'.wind.file = C.wind.file.map fun file => file.map (nautical F.convention)
  same : C' = { C with
    core := { C.core with ds := C'.core.ds, dn := C'.core.dn, dsdni := C'.core.dsdni, bedcomp := false }
    wind := { C.wind with file := C'.wind.file }
    alpha := 0
    zb0 := F.bed }

theorem directions_ok {C : Full.Config nx nf} {F : Files nx nf} (h : C.wind.file = none ∨ F.convention = "nautical" ∨ F.convention = "cartesian") :
    directions C F = .ok (C.wind.file.map fun file => file.map (nautical F.convention)) := by
  unfold directions
  match hf : C.wind.file with
  | none => rfl
  | some file =>
    have h := h.resolve_left (by simp [hf])
    have key : Wind.applyConvention F.convention file = .ok (file.map (nautical F.convention)) := by
      unfold Wind.applyConvention
      rcases h with e | e
      · rw [e, if_pos rfl]
        congr 1
        refine List.map_congr_left fun r _ => ?_
        unfold nautical
        rw [if_pos rfl]
        split_ifs <;> rfl
      · rw [e, if_neg (by decide), if_pos rfl, List.map_map]
        congr 1
        refine List.map_congr_left fun r _ => ?_
        unfold nautical
        rw [if_neg (by decide)]
        simp only [Function.comp_apply]
        split_ifs <;> rfl
    simp only [key]
    rfl

theorem composition_ok {C : Full.Config nx nf} {F : Files nx nf} (hS : Startable C F) :
    ∃ mass, composition C F = .ok mass ∧ ∀ c, ∀ k < C.core.setup.bed.nl,
      ∃ g, Shares g ∧ (F.grainDist = .single g ∨ ∃ rows, F.grainDist = .layered rows ∧ rows[k]? = some g) ∧
        ∀ f, mass c k f = layerMass C * (g f / ∑ j, g j) := by
  obtain ⟨hb, hg⟩ := hS.grains
  unfold composition
  rw [hb]
  match hd : F.grainDist with
  | .single g =>
    rw [hd] at hg
    refine ⟨_, collect_ok.mpr fun c => rfl, fun c k _ => ⟨g, hg, Or.inl rfl, fun f => ?_⟩⟩
    unfold layerMass
    rw [← hS.layers k]
    rfl
  | .layered rows =>
    rw [hd] at hg
    obtain ⟨hi, hl, hg⟩ := hg
    have key : Bed.initMass C.core.setup.bed.nl C.core.setup.bed.rhog C.core.setup.bed.porosity C.core.setup.thlyr F.intDtype none
        (.layered rows) = some fun k f =>
          C.core.setup.bed.rhog * (1 - C.core.setup.bed.porosity) * C.core.setup.thlyr k * Bed.gs (rows.getD k 0) f := by
      simp [Bed.initMass, hi, hl]
    refine ⟨_, collect_ok.mpr fun c => by
      simp only [Option.map_none, key]
      rfl, fun c k hk => ?_⟩
    have hk' : k < rows.length := by omega
    refine ⟨rows[k], hg _ (List.getElem_mem hk'), Or.inr ⟨rows, rfl, List.getElem?_eq_getElem hk'⟩, fun f => ?_⟩
    have h2 : rows.getD k 0 = rows[k] := by simp [List.getD, hk']
    unfold layerMass
    rw [← hS.layers k, h2]
    rfl

theorem layerMass_nonneg {C : Full.Config nx nf} {F : Files nx nf} (hS : Startable C F) : 0 ≤ layerMass C :=
  mul_nonneg (mul_nonneg hS.density.1 (by linarith [hS.density.2])) (hS.core.setup.thick 0)

theorem transect_grid {C : Full.Config nx nf} {F : Files nx nf} (hS : Startable C F) :
    ∃ m, Grid.initGrid 0 nx (fun _ j => C.x j) (fun _ _ => 0) = .ok m ∧ m.alpha = 0 ∧
      (∀ i j, m.ds i j = (if j = 0 then C.x 1 - C.x 0 else C.x j - C.x (j - 1)) ∧ m.dn i j = 1 ∧ m.dsdni i j = 1 / m.ds i j) := by
  have h2 := hS.columns
  unfold Grid.initGrid
  rw [if_neg (by omega)]
  refine ⟨_, rfl, ?_, fun i j => ?_⟩
  · have h := hS.coordinates 0 (by omega)
    unfold Grid.orientation
    simp only [sub_self, if_true]
    rw [if_neg (by intro h'; linarith [h'.1]), if_neg (by intro h'; linarith)]
    simp
  · simp

/-- **C146** Initialisation of a transect: it succeeds, and gives the state and the configuration of the files. -/
theorem C146_initialise (C : Full.Config nx nf) (F : Files nx nf) (hS : Startable C F) (t : ℝ) :
    ∃ C' σ, initialise C F t = .ok (C', σ) ∧ Initial C F t σ ∧ Readied C F C' := by
  obtain ⟨m, hm, ha, hsz⟩ := transect_grid hS
  obtain ⟨mass, hmass, hmix⟩ := composition_ok hS
  have hdir := directions_ok hS.convention
  have hx : ∀ j, (rotatePt m.alpha (centre C, 0) (C.x j, 0)).1 = C.x j := by
    intro j
    rw [ha]
    unfold rotatePt
    simp
  obtain ⟨z, hz, hz0, hz1⟩ := hS.rough
  set C' := configured C F m (C.wind.file.map fun file => file.map (nautical F.convention)) with hC'
  have hrough : (collect fun c => Wind.roughness C.wind.methodRoughness (rough C' (started C F t mass) 0 c)) = .ok fun _ => some z := by
    refine collect_ok.mpr fun c => ?_
    unfold Wind.roughness
    rcases hz with ⟨e, hz⟩ | ⟨e, hz⟩ | ⟨e, hz⟩
    · rw [e, if_pos rfl, hz]
      rfl
    · rw [e, if_neg (by decide), if_pos rfl, hz]
      rfl
    · rw [e, if_neg (by decide), if_neg (by decide), if_pos rfl, hz]
      rfl
  refine ⟨C', started C F t mass, ?_, ?_, ?_⟩
  · unfold initialise
    simp only [hm, hmass, hdir, ← hC', hrough]
  · have hM := layerMass_nonneg hS
    have hnn : ∀ c, ∀ k < C.core.setup.bed.nl, ∀ f, 0 ≤ mass c k f := by
      intro c k hk f
      obtain ⟨g, hg, -, e⟩ := hmix c k hk
      rw [e]
      exact mul_nonneg hM (div_nonneg (hg.1 f) (sum_nonneg fun j _ => hg.1 j))
    have hsum : ∀ c, ∀ k < C.core.setup.bed.nl, ∑ f, mass c k f = layerMass C := by
      intro c k hk
      obtain ⟨g, hg, -, e⟩ := hmix c k hk
      simp only [e]
      rw [← mul_sum, ← sum_div, div_self hg.2, mul_one]
    refine ⟨fun c => rfl, hsum, fun c k hk => ?_, fun c f => rfl, ⟨⟨hsum, hnn, fun c f => le_rfl⟩, fun c f => ⟨le_rfl, le_rfl, le_rfl⟩,
      fun c f => le_rfl⟩, fun c => ⟨rfl, rfl⟩, rfl, rfl, fun j => ?_, fun h j => ?_⟩
    · obtain ⟨g, hg, hg', e⟩ := hmix c k hk
      refine ⟨g, hg', fun f => ?_⟩
      show mass c k f * _ = _
      rw [e f, mul_assoc, div_mul_cancel₀ _ hg.2]
    · show (plants C F j).rho = _
      unfold plants
      match F.veg with
      | none => rfl
      | some file =>
        show (if file j < 0 then file j * 0 else file j) = max 0 (file j)
        split_ifs with h
        · rw [max_eq_left h.le, mul_zero]
        · rw [max_eq_right (not_lt.mp h)]
    · show (palisade C F j).height = _ ∧ (palisade C F j).top = _
      unfold palisade
      rw [if_pos h]
      exact ⟨rfl, rfl⟩
  · have hpos : ∀ i j, j ≤ nx → 0 < m.ds i j := by
      intro i j hj
      have h2 := hS.columns
      rw [(hsz i j).1]
      split_ifs with h0
      · linarith [hS.coordinates 0 (by omega)]
      · have := hS.coordinates (j - 1) (by omega)
        rw [show j - 1 + 1 = j by omega] at this
        linarith
    have hc := hS.core
    refine ⟨⟨?_, ⟨hS.columns, by omega, fun i _ j hj => (hpos i j hj).le, fun i _ j _ => ?_, fun i _ j hj => ?_, fun h => absurd h (by omega)⟩,
      hS.speed, hS.on, hS.kappa, ⟨z, hz, hz0, hz1⟩, hS.weights, hS.mask, hS.step⟩, fun j => hsz 0 j, rfl, ?_⟩
    · exact ⟨⟨hc.dist, hc.transport, hc.size, hc.setup, hc.bi, hc.T, hc.err, hc.scheme, hc.flux, hc.off, hc.on⟩, hc.bed, hc.threshold, hc.moist⟩
    · show 0 ≤ m.dn i j
      rw [(hsz i j).2.1]
      exact zero_le_one
    · show 0 ≤ m.dsdni i j
      rw [(hsz i j).2.2]
      exact one_div_nonneg.mpr (hpos i j hj).le
    · rw [hC']
      unfold configured
      rw [ha] at hx
      simp only [ha, hx, hS.grains.1]
      rfl

/-! ### The run -/

/-- The calls of `update` made by the run: no time step is asked for. -/
def calls (rand : ℕ → ℕ → ℝ) (k n : ℕ) : List ((ℕ → ℝ) × ℝ) := (List.range n).map fun i => (rand (k + i), -1)

theorem calls_succ (rand : ℕ → ℕ → ℝ) (k n : ℕ) : calls rand k (n + 1) = (rand k, -1) :: calls rand (k + 1) n := by
  unfold calls
  rw [List.range_succ_eq_map, List.map_cons, List.map_map]
  congr 1
  refine List.map_congr_left fun i _ => ?_
  simp only [Function.comp_apply]
  rw [show k + Nat.succ i = k + 1 + i by omega]

/-- A run from a state in a set of states `I` that no call leaves and in which every call returns. -/
theorem engine_path (sp : LinSolve nx 0) (C : Full.Config nx nf) (hC : Usable C) (I : Full.State nx nf → Prop)
    (hI : ∀ (r : ℕ → ℝ) (σ : Full.State nx nf), I σ → ∃ τ b, Full.update sp C r (-1) σ = some (.ok (τ, b)) ∧ I τ) (rand : ℕ → ℕ → ℝ)
    (tstop : ℝ) (n : ℕ) : ∀ (k : ℕ) (σ : Full.State nx nf), I σ →
      (∀ i < n, σ.clock.t + i * (C.ts.dt * C.accfac) ≤ tstop) → tstop < σ.clock.t + n * (C.ts.dt * C.accfac) →
      ∃ ws τ, Path (engine sp C rand) tstop (σ, k) ws (τ, k + n) ∧ ws.length = n ∧ Full.run sp C (calls rand k n) σ = some (.ok τ) ∧
        (ws ++ [(τ, k + n)]).map (fun w => w.1.clock.t) = (List.range (n + 1)).map (fun i : ℕ => σ.clock.t + i * (C.ts.dt * C.accfac)) ∧
        (ws ++ [(τ, k + n)]).map (fun w => w.2) = (List.range (n + 1)).map fun i => k + i := by
  induction n with
  | zero =>
    intro k σ _ _ hend
    refine ⟨[], σ, .stop _ (by simpa [engine] using hend), rfl, rfl, by simp, by simp⟩
  | succ n ih =>
    intro k σ h0 hin hend
    obtain ⟨ρ, b, hu, h0'⟩ := hI (rand k) σ h0
    obtain ⟨hb, -, hbt, -⟩ := C133_step sp C hC (rand k) (-1) σ ρ b hu
    have hb' : b = true := by
      cases b with
      | true => rfl
      | false => exact absurd (hb.mp rfl) (lt_irrefl _)
    subst hb'
    obtain ⟨E, hE, -, ht, -⟩ := hbt rfl
    rw [hE.time.2, if_neg (by norm_num)] at ht
    obtain ⟨ws, τ, hp, hl, hr, htm, hst⟩ := ih (k + 1) ρ h0' (fun i hi => by
        have := hin (i + 1) (by omega)
        push_cast at this
        rw [ht]
        linarith) (by
        push_cast at hend
        rw [ht]
        linarith)
    rw [show k + (n + 1) = k + 1 + n by omega]
    refine ⟨(σ, k) :: ws, τ, .step _ (ρ, k + 1) _ _ ?_ ?_ hp, by simp [hl], ?_, ?_, ?_⟩
    · have := hin 0 (by omega)
      simpa [engine] using this
    · show (match Full.update sp C (rand k) (-1) σ with
        | none => Except.error PyErr.valueError
        | some (.error e) => .error e
        | some (.ok (σ, b)) => .ok (σ, if b then k + 1 else k)) = _
      rw [hu]
      rfl
    · rw [calls_succ]
      unfold Full.run
      simp only [hu]
      exact hr
    · rw [List.cons_append, List.map_cons, htm, List.range_succ_eq_map (n := n + 1), List.map_cons, List.map_map]
      simp only [Nat.cast_zero, zero_mul, add_zero]
      congr 1
      refine List.map_congr_left fun i _ => ?_
      simp only [Function.comp_apply]
      rw [ht]
      push_cast
      ring
    · rw [List.cons_append, List.map_cons, hst, List.range_succ_eq_map (n := n + 1), List.map_cons, List.map_map]
      congr 1
      refine List.map_congr_left fun i _ => ?_
      simp only [Function.comp_apply]
      omega

/-- Number of steps of a run from `tstart` to beyond `tstop`. -/
noncomputable def stepsOf (C : Full.Config nx nf) (c : Runner.Cfg ℝ) : ℕ := ⌊(c.tstop - c.tstart) / (C.ts.dt * C.accfac)⌋₊ + 1

theorem readied_files {C C' : Full.Config nx nf} {F : Files nx nf} (hR : Readied C F C') (hF : FilesOk C) : FilesOk C' := by
  have e := hR.same
  have hw := hR.wind
  refine ⟨⟨fun file h => ?_, ?_, ?_, ?_, ?_, ?_, ?_⟩, ?_⟩
  · rw [hw] at h
    match hf : C.wind.file with
    | none => simp [hf] at h
    | some raw =>
      rw [hf] at h
      obtain rfl := Option.some.inj h
      obtain ⟨h1, h2⟩ := hF.wind raw hf
      refine ⟨by simpa using h1, ?_⟩
      rw [List.pairwise_map]
      exact h2
  all_goals rw [e]
  · exact hF.tide
  · exact hF.wave
  · exact hF.moist
  · exact hF.salt
  · exact hF.meteo
  · exact hF.dune
  · exact hF.ground

theorem readied_names {C C' : Full.Config nx nf} {F : Files nx nf} (hR : Readied C F C') (hN : NamesOk C.core) : NamesOk C'.core := by
  rw [hR.same]
  exact ⟨hN.speed, hN.transport, hN.gs, hN.functions, hN.on, hN.lat, hN.iter⟩

/-- What a run of the program is asked to do: values are stored, the first state is stored, there is time to simulate, no restart files. -/
structure Asked (c : Runner.Cfg ℝ) : Prop where
  restart : c.restart = 0
  snapshot : c.snapshot = true
  first : c.tstart = 0 ∨ c.outputTimes ≤ c.tstart
  time : c.tstart < c.tstop

/-- A run in which every call returns, from the initial state on, completes. -/
theorem completes_within (sp : LinSolve nx 0) (C : Full.Config nx nf) (F : Files nx nf) (hS : Startable C F) (c : Runner.Cfg ℝ)
    (I : Full.State nx nf → Prop) (hstart : ∀ σ, Initial C F c.tstart σ → I σ)
    (hstep : ∀ C', Readied C F C' → ∀ (r : ℕ → ℝ) (σ : Full.State nx nf), I σ → ∃ τ b, Full.update sp C' r (-1) σ = some (.ok (τ, b)) ∧ I τ)
    (hacc : 0 < C.accfac) (hc : Asked c) (rand : ℕ → ℕ → ℝ) (solves : Full.State nx nf × ℕ → ℕ) (walls : List (ℝ × ℝ))
    (hw : stepsOf C c ≤ walls.length) :
    ∃ C' σ τ s r, initialise C F c.tstart = .ok (C', σ) ∧ Initial C F c.tstart σ ∧ Readied C F C' ∧
      program sp C F rand solves c .absent walls = .ok (some (s, r)) ∧ s.w = (τ, stepsOf C c) ∧
      Full.run sp C' (calls rand 0 (stepsOf C c)) σ = some (.ok τ) ∧
      τ.clock.t = c.tstart + stepsOf C c * (C.ts.dt * C.accfac) ∧
      s.records = (Writer.run c.outputTimes ⟨0, []⟩
        ((List.range (stepsOf C c + 1)).map fun k : ℕ => c.tstart + k * (C.ts.dt * C.accfac))).records ∧
      r.2 * stepsOf C c = c.tstop := by
  obtain ⟨C', σ, hi, hI, hR⟩ := C146_initialise C F hS c.tstart
  have hC' := hR.usable
  have hts : C'.ts = C.ts := by rw [hR.same]
  have hac : C'.accfac = C.accfac := by rw [hR.same]
  have hh : 0 < C.ts.dt * C.accfac := mul_pos hS.step.2.1 hacc
  obtain ⟨ws, τ, hp, hl, hr, htm, hst⟩ := engine_path sp C' hC' I (hstep C' hR) rand c.tstop (stepsOf C c) 0 σ (hstart σ hI)
    (by
      intro i hi
      rw [hts, hac, hI.clock]
      have h1 : (i : ℝ) ≤ (c.tstop - c.tstart) / (C.ts.dt * C.accfac) := by
        have : i ≤ ⌊(c.tstop - c.tstart) / (C.ts.dt * C.accfac)⌋₊ := Nat.lt_succ_iff.mp hi
        exact (Nat.cast_le.mpr this).trans (Nat.floor_le (div_nonneg (by linarith [hc.time]) hh.le))
      have := (le_div_iff₀ hh).mp h1
      linarith)
    (by
      rw [hts, hac, hI.clock]
      have h1 : (c.tstop - c.tstart) / (C.ts.dt * C.accfac) < stepsOf C c := by
        unfold stepsOf
        push_cast
        exact Nat.lt_floor_add_one _
      have := (div_lt_iff₀ hh).mp h1
      linarith)
  simp only [hts, hac, hI.clock, zero_add] at hp htm hst
  have htail : ∀ x ∈ (ws ++ [(τ, stepsOf C c)]).tail, ∃ i : ℕ, 1 ≤ i ∧ x.1.clock.t = c.tstart + i * (C.ts.dt * C.accfac) := by
    intro x hx
    have h1 : x.1.clock.t ∈ ((ws ++ [(τ, stepsOf C c)]).map fun w => w.1.clock.t).tail := by
      rw [← List.map_tail]
      exact List.mem_map_of_mem hx
    rw [htm, List.range_succ_eq_map, List.map_cons, List.tail_cons, List.map_map] at h1
    obtain ⟨i, -, e⟩ := List.mem_map.mp h1
    exact ⟨i + 1, by omega, by rw [← e]; simp⟩
  obtain ⟨s, r, hrun, hsw⟩ := C103_completes c (engine sp C' rand) solves walls (σ, 0) (τ, stepsOf C c) ws hp (by rw [hl]; exact hw) hc.restart
    hc.time.ne' hc.snapshot (by
      show σ.clock.t = 0 ∨ _ ≤ σ.clock.t
      rw [hI.clock]
      exact hc.first)
    (by
      intro x hx
      have h1 : ((ws ++ [(τ, stepsOf C c)]).map fun w => w.2).tail.head? = some x.2 := by
        rw [← List.map_tail, List.head?_map, Option.mem_def.mp hx]
        rfl
      rw [hst] at h1
      unfold stepsOf at h1
      rw [List.range_succ_eq_map, List.map_cons, List.tail_cons, List.range_succ_eq_map] at h1
      simp only [List.map_cons, List.head?_cons] at h1
      exact (Option.some.inj h1).symm)
    (by
      intro x hx
      obtain ⟨i, h1, e⟩ := htail x hx
      show x.1.clock.t ≠ _
      rw [e]
      have : 0 < (i : ℝ) * (C.ts.dt * C.accfac) := mul_pos (by exact_mod_cast h1) hh
      linarith)
    (by show stepsOf C c ≠ 0; unfold stepsOf; omega)
  obtain ⟨ws', hp', -, hrec, -, hr2, -⟩ := C103_completed c _ solves .absent walls _ s r hrun
  rw [hsw] at hp' hrec hr2
  obtain ⟨rfl, -⟩ := Runner.path_unique hp hp'
  refine ⟨C', σ, τ, s, r, hi, hI, hR, ?_, hsw, hr, ?_, ?_, hr2⟩
  · unfold program
    simp only [hi]
    exact hrun
  · have := congrArg List.getLast? htm
    rw [List.map_append, List.map_singleton, List.getLast?_append_of_ne_nil _ (by simp), List.range_succ, List.map_append,
      List.map_singleton, List.getLast?_append_of_ne_nil _ (by simp)] at this
    simpa using this
  · rw [hrec]
    exact congrArg (fun l => (Writer.run c.outputTimes ⟨0, []⟩ l).records) htm

/-- **C146** A run of the program completes: the files are read, the number of time steps is the one that first passes the stop time, the states are
those of as many calls of `update`, the output is written at the times of the output rule, and the last state is that after the last call. -/
theorem C146_completes (sp : LinSolve nx 0) (C : Full.Config nx nf) (F : Files nx nf) (hS : Startable C F) (hN : NamesOk C.core) (hF : FilesOk C)
    (hacc : 0 < C.accfac) (c : Runner.Cfg ℝ) (hc : Asked c) (rand : ℕ → ℕ → ℝ) (solves : Full.State nx nf × ℕ → ℕ) (walls : List (ℝ × ℝ))
    (hw : stepsOf C c ≤ walls.length) :
    ∃ C' σ τ s r, initialise C F c.tstart = .ok (C', σ) ∧ Initial C F c.tstart σ ∧ Readied C F C' ∧
      program sp C F rand solves c .absent walls = .ok (some (s, r)) ∧ s.w = (τ, stepsOf C c) ∧
      Full.run sp C' (calls rand 0 (stepsOf C c)) σ = some (.ok τ) ∧
      τ.clock.t = c.tstart + stepsOf C c * (C.ts.dt * C.accfac) ∧
      s.records = (Writer.run c.outputTimes ⟨0, []⟩
        ((List.range (stepsOf C c + 1)).map fun k : ℕ => c.tstart + k * (C.ts.dt * C.accfac))).records ∧
      r.2 * stepsOf C c = c.tstop :=
  completes_within sp C F hS c (fun σ => ∀ c f, 0 ≤ (σ.core.cap c f).Cu0) (fun _ hI c f => (hI.sound.cap c f).2.2)
    (fun C' hR r σ h0 => C133_total sp C' hR.usable (readied_names hR hN) (readied_files hR hF) r (-1) σ h0) hacc hc rand solves walls hw

/-- **C146** (finding) A run that starts later than zero but before the first output time ends with an exception in the first time step. -/
theorem C146_late_start (sp : LinSolve nx 0) (C : Full.Config nx nf) (F : Files nx nf) (hS : Startable C F) (c : Runner.Cfg ℝ)
    (hr : c.restart = 0) (h0 : 0 < c.tstart) (h1 : c.tstart < c.outputTimes) (ht : c.tstart ≤ c.tstop) (rand : ℕ → ℕ → ℝ)
    (solves : Full.State nx nf × ℕ → ℕ) (walls : List (ℝ × ℝ)) (hw : walls ≠ []) :
    program sp C F rand solves c .absent walls = .error .attributeError := by
  obtain ⟨C', σ, hi, hI, -⟩ := C146_initialise C F hS c.tstart
  unfold program
  simp only [hi]
  have hcl : σ.clock.t = c.tstart := hI.clock
  unfold Runner.run
  simp only [Runner.loadRestart]
  have ho : Runner.outputWrite c (engine sp C' rand) (Runner.St.init (σ, 0)) = .ok (Runner.St.init (σ, 0)) := by
    unfold Runner.outputWrite
    have : ¬ (σ.clock.t - 0 ≥ c.outputTimes ∨ σ.clock.t = 0) := by
      rw [hcl]
      push Not
      exact ⟨by linarith, h0.ne'⟩
    simp only [engine, Runner.St.init, hr]
    rw [if_neg (by simp)]
    congr 1
    exact if_neg this
  simp only [ho]
  obtain ⟨a, l, rfl⟩ := List.exists_cons_of_ne_nil hw
  unfold Runner.loop
  have hle : (engine sp C' rand).time (Runner.St.init (σ, 0) : Runner.St ℝ (Full.State nx nf × ℕ)).w ≤ c.tstop := by
    show σ.clock.t ≤ _
    rw [hcl]
    exact ht
  rw [if_pos hle]
  rfl

/-! ### What the wind does in a run -/

theorem readied_below {C C' : Full.Config nx nf} {F : Files nx nf} (hR : Readied C F C') {umax : ℝ} (hu : WindBelow C umax) : WindBelow C' umax := by
  obtain ⟨hp, file, hf, hle⟩ := hu
  refine ⟨by rw [hR.same]; exact hp, file.map (nautical F.convention), by rw [hR.wind, hf]; rfl, fun r hr => ?_⟩
  obtain ⟨r', hr', rfl⟩ := List.mem_map.mp hr
  exact hle r' hr'

theorem readied_rough {C C' : Full.Config nx nf} {F : Files nx nf} (hR : Readied C F C') {z0 : ℝ} (h : RoughnessIs C z0) : RoughnessIs C' z0 := by
  rw [hR.same]
  exact h

theorem readied_bound {C C' : Full.Config nx nf} {F : Files nx nf} (hR : Readied C F C') (z0 u : ℝ) : bagnoldBound C' z0 u = bagnoldBound C z0 u := by
  rw [hR.same]
  rfl

theorem initial_plants {C : Full.Config nx nf} {F : Files nx nf} {t : ℝ} {σ : Full.State nx nf} (hI : Initial C F t σ) (j : ℕ) : 0 ≤ (σ.veg j).rho := by
  rw [hI.plants]
  match F.veg with
  | none => exact le_rfl
  | some file => exact le_max_left _ _

/-- **C146** A complete run in a breeze, with the shear velocity of the strongest wind in the file below the threshold of every grain size: the bed in the
last state is that of the bed file, the layers are those of the start, the air is clear. -/
theorem C146_breeze (sp : LinSolve nx 0) (hsp : Exact sp) (C : Full.Config nx nf) (F : Files nx nf) (hS : Startable C F) (hN : NamesOk C.core)
    (hF : FilesOk C) (hacc : 0 < C.accfac) (c : Runner.Cfg ℝ) (hc : Asked c) (rand : ℕ → ℕ → ℝ) (solves : Full.State nx nf × ℕ → ℕ)
    (walls : List (ℝ × ℝ)) (hw : stepsOf C c ≤ walls.length)
    (hin : NoInflow C.core) (hcs : 0 ≤ C.core.thr.csalt) (hmix : C.core.setup.mixing = false) (hlev : NoOtherChanges C) (hflat : Sheltering C)
    (hmask : ∀ j, 1 ≤ (C.thresholdMask j).1) (umax z0 : ℝ) (hu : WindBelow C umax) (hz : RoughnessIs C z0)
    (hlow : ∀ f, max 0.01 (umax * |C.wind.kappa / Real.log (C.wind.z / z0)|) ≤ grainThreshold C.core f) :
    ∃ s r σ, program sp C F rand solves c .absent walls = .ok (some (s, r)) ∧ Initial C F c.tstart σ ∧
      (∀ c, (s.w.1.core.sand.bed c).zb = F.bed c) ∧
      (∀ c, ∀ k < C.core.setup.bed.nl, (s.w.1.core.sand.bed c).mass k = (σ.core.sand.bed c).mass k) ∧ (∀ c f, s.w.1.core.sand.Ct c f = 0) := by
  obtain ⟨C', σ, τ, s, r, hi, hI, hR, hp, hsw, hrun, -⟩ := C146_completes sp C F hS hN hF hacc c hc rand solves walls hw
  have e := hR.same
  have hk : C'.wind.kappa = C.wind.kappa ∧ C'.wind.z = C.wind.z := by rw [e]; exact ⟨rfl, rfl⟩
  have hnl : C'.core.setup.bed.nl = C.core.setup.bed.nl := by rw [e]
  obtain ⟨τ', hrun', hstill⟩ := C134_breeze sp hsp C' hR.usable (readied_names hR hN) (readied_files hR hF)
    (by rw [e]; exact ⟨hin.off, hin.on⟩) (by rw [e]; exact hcs) (by rw [e]; exact hmix) (by rw [e]; exact hlev)
    (by rw [e]; exact ⟨hflat.shear, hflat.plants⟩) (by rw [e]; exact hmask) umax z0 (readied_below hR hu) (readied_rough hR hz)
    (fun f => by rw [hk.1, hk.2]; exact (hlow f).trans (le_of_eq (by rw [e]; rfl)))
    (calls rand 0 (stepsOf C c)) σ (by rw [hnl]; exact hI.sound.sand.mass) (fun c f => (hI.sound.cap c f).2.2) hI.air
    (fun c => by rw [(hI.dry c).2]; exact zero_le_one) (initial_plants hI)
  rw [hrun] at hrun'
  obtain rfl := Except.ok.inj (Option.some.inj hrun')
  rw [hnl] at hstill
  refine ⟨s, r, σ, hp, hI, ?_⟩
  rw [hsw]
  exact ⟨fun c => (hstill.level c).trans (hI.bed c), fun c k hk => funext (hstill.mass c k hk), hstill.air⟩

/-- **C146** A complete run in a storm, with any number of fractions, fences and vegetation on a bed that does not change the shear: every layer has the mass it had at the
start, no amount of sand is negative, and nowhere is there more sand in the air than Bagnold's formula gives for the strongest wind in the file.  The layers
must hold what this concentration settles in a time step. -/
theorem C146_storm (sp : LinSolve nx 0) (hsp : Exact sp) (C : Full.Config nx nf) (F : Files nx nf) (hS : Startable C F) (hN : NamesOk C.core)
    (hF : FilesOk C) (hacc : 0 < C.accfac) (c : Runner.Cfg ℝ) (hc : Asked c) (rand : ℕ → ℕ → ℝ) (solves : Full.State nx nf × ℕ → ℕ)
    (walls : List (ℝ × ℝ)) (hw : stepsOf C c ≤ walls.length)
    (hlat : C.core.bounds.lat = "circular") (hin : SmallInflow C.core) (hflat : CalmShelter C) (hb : C.core.tr.methodTransport = "bagnold")
    (umax z0 : ℝ) (hu : WindBelow C umax) (hz : RoughnessIs C z0) (hz0 : 0 < z0 ∧ z0 < C.wind.z)
    (hthick : Copes nx 0 C.core (bagnoldBound C z0 umax) (layerMass C) C.ts.dt) :
    ∃ s r, program sp C F rand solves c .absent walls = .ok (some (s, r)) ∧
      (∀ c, ∀ k < C.core.setup.bed.nl, ∑ f, (s.w.1.core.sand.bed c).mass k f = layerMass C ∧ ∀ f, 0 ≤ (s.w.1.core.sand.bed c).mass k f) ∧
      (∀ c f, 0 ≤ s.w.1.core.sand.Ct c f ∧ s.w.1.core.sand.Ct c f ≤ bagnoldBound C z0 umax) := by
  obtain ⟨C', σ, τ, s, r, hi, hI, hR, hp, hsw, hrun, -⟩ := C146_completes sp C F hS hN hF hacc c hc rand solves walls hw
  have e := hR.same
  have hnl : C'.core.setup.bed.nl = C.core.setup.bed.nl := by rw [e]
  have hbd := readied_bound hR z0 umax
  have hM : 0 ≤ bagnoldBound C' z0 umax := bagnoldBound_nonneg C' hR.usable umax z0 ⟨hz0.1, by rw [e]; exact hz0.2⟩
  obtain ⟨τ', hrun', hsound, hair⟩ := C134_storm sp hsp C' hR.usable (readied_names hR hN) (readied_files hR hF) (by rw [e]; exact hlat)
    (by rw [e]; exact ⟨hin.off, hin.on⟩) (by rw [e]; exact ⟨⟨hflat.shear, hflat.plants⟩, hflat.grains, hflat.csalt, hflat.mask⟩)
    (by rw [e]; exact hb) umax z0 (readied_below hR hu) (readied_rough hR hz) ⟨hz0.1, by rw [e]; exact hz0.2⟩ (layerMass C)
    (layerMass_nonneg hS) (calls rand 0 (stepsOf C c)) (fun x hx => by
      obtain ⟨i, -, rfl⟩ := List.mem_map.mp hx
      rw [if_neg (by norm_num), hbd]
      exact ⟨lt_of_eq_of_lt (by rw [e]) hthick.thick, hthick.iter.imp_right fun h => le_of_eq_of_le (by rw [e]) (h.trans_eq (by rw [e]))⟩)
    σ (by rw [hnl]; exact hI.sound) (fun c f => by rw [hI.air]; exact hM) (fun c => by rw [(hI.dry c).2]; exact zero_le_one) (initial_plants hI)
  rw [hrun] at hrun'
  obtain rfl := Except.ok.inj (Option.some.inj hrun')
  rw [hnl] at hsound
  refine ⟨s, r, hp, ?_⟩
  rw [hsw]
  refine ⟨fun c k hk => ?_, fun c f => ⟨hsound.sand.air c f, (hair c f).trans hbd.le⟩⟩
  exact ⟨hsound.sand.layers c k hk, fun f => hsound.sand.mass c k hk f⟩

/-- Sand above the reference level between the first and the last cell, for cells of length `dx`: bed levels `zb` and sand `air` in the air. -/
noncomputable def sandOnTransect (C : Full.Config nx nf) (dx : ℝ) (zb air : Fin (cells nx 0) → ℝ) : ℝ :=
  ∑ j ∈ Ico 1 nx, dx * (C.core.setup.bed.rhog * (1 - C.core.setup.bed.porosity) * col zb j + col air j)

/-- **C146** Sand is not created in a complete run on cells of equal length: if none is supplied at the ends, the sand in bed and air at the end is at most
that of the bed file, up to the tolerance of the solver in every step. -/
theorem C146_not_created (sp : LinSolve nx 0) (hsp : Exact sp) (C : Full.Config nx nf) (F : Files nx nf) (hS : Startable C F) (hN : NamesOk C.core)
    (hF : FilesOk C) (hacc : 0 < C.accfac) (c : Runner.Cfg ℝ) (hc : Asked c) (rand : ℕ → ℕ → ℝ) (solves : Full.State nx nf × ℕ → ℕ)
    (walls : List (ℝ × ℝ)) (hw : stepsOf C c ≤ walls.length) (dx : ℝ) (hdx : ∀ j < nx, C.x (j + 1) - C.x j = dx)
    (hlat : C.core.bounds.lat = "circular") (hne : C.core.thr.thNelayer = false) (hup : C.core.setup.bed.processBedupdate = true)
    (hrho : 0 < C.core.setup.bed.rhog * (1 - C.core.setup.bed.porosity))
    (hin : NoInflow C.core) (hflat : CalmShelter C) (hava : OnlyAvalanches C) (hb : C.core.tr.methodTransport = "bagnold")
    (umax z0 : ℝ) (hu : WindBelow C umax) (hz : RoughnessIs C z0) (hz0 : 0 < z0 ∧ z0 < C.wind.z)
    (hthick : Copes nx 0 C.core (bagnoldBound C z0 umax) (layerMass C) C.ts.dt) :
    ∃ s r, program sp C F rand solves c .absent walls = .ok (some (s, r)) ∧
      sandOnTransect C dx (fun c => (s.w.1.core.sand.bed c).zb) (fun c => ∑ f, s.w.1.core.sand.Ct c f) ≤
        sandOnTransect C dx (fun c => F.bed c) (fun _ => 0) + stepsOf C c * (C.core.setup.bed.maxError * nf * ((nx - 1) * dx)) := by
  obtain ⟨C', σ, τ, s, r, hi, hI, hR, hp, hsw, hrun, -⟩ := C146_completes sp C F hS hN hF hacc c hc rand solves walls hw
  have e := hR.same
  have h2 := hS.columns
  have hnl : C'.core.setup.bed.nl = C.core.setup.bed.nl := by rw [e]
  have hbed : C'.core.setup.bed = C.core.setup.bed := by rw [e]
  have hbd := readied_bound hR z0 umax
  have hM : 0 ≤ bagnoldBound C' z0 umax := bagnoldBound_nonneg C' hR.usable umax z0 ⟨hz0.1, by rw [e]; exact hz0.2⟩
  have hds : ∀ j ≤ nx, C'.core.ds 0 j = dx := by
    intro j hj
    rw [(hR.sizes j).1]
    split_ifs with h0
    · exact hdx 0 (by omega)
    · have := hdx (j - 1) (by omega)
      rwa [show j - 1 + 1 = j by omega] at this
  have hdn : ∀ j, C'.core.dn 0 j = 1 := fun j => (hR.sizes j).2.1
  have hpos : 0 < dx := by
    rw [← hdx 0 (by omega)]
    linarith [hS.coordinates 0 (by omega)]
  obtain ⟨τ', hrun', hsand⟩ := C135_not_created sp hsp C' hR.usable (readied_names hR hN) (readied_files hR hF)
    ⟨by rw [e]; exact hlat, fun i hi j hj => by
        obtain rfl : i = 0 := by omega
        rw [(hR.sizes j).2.2, hdn, hds j hj]
        field_simp, fun i hi j hj => by
        obtain rfl : i = 0 := by omega
        rw [hdn, hdn], by rw [e]; exact hne, by rw [e]; exact hup, by rw [e]; exact hrho⟩
    (by rw [e]; exact ⟨hin.off, hin.on⟩) (by rw [e]; exact ⟨⟨hflat.shear, hflat.plants⟩, hflat.grains, hflat.csalt, hflat.mask⟩)
    (by rw [e]; exact hava) dx hpos.le (fun j hj => by rw [hds j hj, hdn, mul_one]) (by rw [e]; exact hb) umax z0 (readied_below hR hu)
    (readied_rough hR hz) ⟨hz0.1, by rw [e]; exact hz0.2⟩ (layerMass C) (layerMass_nonneg hS) (calls rand 0 (stepsOf C c)) (fun x hx => by
      obtain ⟨i, -, rfl⟩ := List.mem_map.mp hx
      rw [if_neg (by norm_num), hbd]
      exact ⟨lt_of_eq_of_lt (by rw [e]) hthick.thick, hthick.iter.imp_right fun h => le_of_eq_of_le (by rw [e]) (h.trans_eq (by rw [e]))⟩)
    σ (by rw [hnl]; exact hI.sound) (fun c f => by rw [hI.air]; exact hM) (fun c => by rw [(hI.dry c).2]; exact zero_le_one) (initial_plants hI)
  rw [hrun] at hrun'
  obtain rfl := Except.ok.inj (Option.some.inj hrun')
  refine ⟨s, r, hp, ?_⟩
  rw [hsw]
  have key : ∀ ρ : Whole.State nx 0 nf, sandMass C'.core ρ = sandOnTransect C dx (fun c => (ρ.sand.bed c).zb) (fun c => ∑ f, ρ.sand.Ct c f) := by
    intro ρ
    unfold sandMass sandOnTransect
    rw [zero_add, sum_range_one]
    refine sum_congr rfl fun j hj => ?_
    rw [hds j (by rw [mem_Ico] at hj; omega), hdn, mul_one, hbed, ← Sand.onGrid_sum]
    rfl
  have harea : innerArea nx 0 C'.core = (nx - 1) * dx := by
    unfold innerArea
    rw [zero_add, sum_range_one, sum_congr rfl fun j hj => by rw [hds j (by rw [mem_Ico] at hj; omega), hdn, mul_one], sum_const,
      Nat.card_Ico, nsmul_eq_mul, Nat.cast_sub (by omega), Nat.cast_one]
  rw [key, key, harea, hbed] at hsand
  have hlen : (calls rand 0 (stepsOf C c)).length = stepsOf C c := by simp [calls]
  rw [hlen] at hsand
  refine hsand.trans (le_of_eq ?_)
  simp only [hI.bed, hI.air, sum_const_zero]

/-! ### Examples -/

/-- A bed that rises from 1 m by 10 cm per metre, one grain size, plants in the second cell, a fence of a metre in the third. -/
noncomputable def coastFiles : Files 2 1 where
  bed := fun j => 1 + 0.1 * j
  bedcomp := none
  grainDist := .single fun _ => 1
  intDtype := false
  veg := some fun j => if j = 1 then 0.3 else 0
  fence := fun j => if j = 2 then 1 else 0
  convention := "nautical"

theorem startable_of {C : Full.Config 2 1} (h : Usable C) (hx : C.x = fun j : ℕ => (j : ℝ)) (hs : C.core.setup = duneConfig.setup) : Startable C coastFiles where
  core := h.core
  columns := le_rfl
  coordinates := fun j _ => by rw [hx]; push_cast; linarith
  speed := h.speed
  on := h.on
  kappa := h.kappa
  rough := h.rough
  weights := h.weights
  mask := h.mask
  step := h.step
  density := by rw [hs]; norm_num [duneConfig]
  layers := fun _ => by rw [hs]; rfl
  grains := ⟨rfl, ⟨fun _ => zero_le_one, by simp⟩⟩
  convention := Or.inr (Or.inl rfl)

/-- Two days with output every six hours. -/
noncomputable def twoDays : Runner.Cfg ℝ where
  tstart := 0
  tstop := 172800
  outputTimes := 21600
  restart := 0
  snapshot := true

theorem twoDays_asked : Asked twoDays := ⟨rfl, rfl, Or.inl rfl, by norm_num [twoDays]⟩

theorem coast_steps (umax : ℝ) (dunes : Bool) : stepsOf (coastConfig umax dunes) twoDays = 49 := by
  unfold stepsOf
  have : (twoDays.tstop - twoDays.tstart) / ((coastConfig umax dunes).ts.dt * (coastConfig umax dunes).accfac) = (48 : ℕ) := by
    norm_num [twoDays, coastConfig]
  rw [this, Nat.floor_natCast]

/-- C146: a run with all processes takes 49 steps of an hour. -/
example (rand : ℕ → ℕ → ℝ) (solves : Full.State 2 1 × ℕ → ℕ) (walls : List (ℝ × ℝ)) (hw : 49 ≤ walls.length) :
    ∃ s r, program byInverse (coastConfig 20 true) coastFiles rand solves twoDays .absent walls = .ok (some (s, r)) ∧ s.w.1.clock.t = 176400 := by
  obtain ⟨C', σ, τ, s, r, -, -, -, hp, hs, -, ht, -⟩ := C146_completes byInverse (coastConfig 20 true) coastFiles
    (startable_of (coast_usable 20 true) rfl rfl) duneConfig_names (coast_files 20 true) one_pos twoDays twoDays_asked rand solves walls
    (by rwa [coast_steps])
  refine ⟨s, r, hp, ?_⟩
  rw [hs, ht, coast_steps]
  norm_num [twoDays, coastConfig]

/-- C146: a start after an hour with output every six hours fails. -/
example (rand : ℕ → ℕ → ℝ) (solves : Full.State 2 1 × ℕ → ℕ) (walls : List (ℝ × ℝ)) (hw : walls ≠ []) :
    program byInverse (coastConfig 20 true) coastFiles rand solves { twoDays with tstart := 3600 } .absent walls = .error .attributeError :=
  C146_late_start _ _ _ (startable_of (coast_usable 20 true) rfl rfl) _ rfl (by norm_num) (by norm_num [twoDays]) (by norm_num [twoDays]) _ _ _ hw

/-- C146: a breeze of 3 m/s for two days. -/
example (rand : ℕ → ℕ → ℝ) (solves : Full.State 2 1 × ℕ → ℕ) (walls : List (ℝ × ℝ)) (hw : 49 ≤ walls.length) :
    ∃ s r, program byInverse (shelteredConfig 3) coastFiles rand solves twoDays .absent walls = .ok (some (s, r)) ∧
      ∀ c, (s.w.1.core.sand.bed c).zb = 1 + 0.1 * (c : ℕ) := by
  obtain ⟨s, r, σ, hp, -, hb, -⟩ := C146_breeze byInverse byInverse_exact (shelteredConfig 3) coastFiles
    (startable_of (sheltered_usable 3) rfl rfl) duneConfig_names (sheltered_files 3) one_pos twoDays twoDays_asked rand solves walls
    (hw.trans' (coast_steps 3 false).le)
    ⟨⟨fun _ => rfl, fun _ => rfl⟩, fun _ => rfl, fun _ => rfl⟩ (sheltered_calm 3).csalt rfl ⟨rfl, rfl, rfl⟩ (sheltered_calm 3).toSheltering
    (fun _ => le_rfl) 3 0.001 ⟨rfl, _, rfl, by norm_num⟩ (Or.inl ⟨rfl, rfl⟩) (fun f => by
      show max 0.01 ((3 : ℝ) * |0.41 / Real.log (10 / 0.001)|) ≤ grainThreshold duneConfig f
      rw [abs_of_nonneg coast_ratio.1]
      exact max_le (le_trans (by norm_num) (coast_grains f)) (le_trans (by linarith [coast_ratio.2]) (coast_grains f)))
  exact ⟨s, r, hp, hb⟩

theorem coast_layerMass : layerMass slopingConfig = 159 := by
  norm_num [layerMass, slopingConfig, shelteredConfig, coastConfig, duneConfig]

/-- C146: storms of up to 20 m/s for two days, with avalanches, a fence and plants. -/
example (rand : ℕ → ℕ → ℝ) (solves : Full.State 2 1 × ℕ → ℕ) (walls : List (ℝ × ℝ)) (hw : 49 ≤ walls.length) :
    ∃ s r, program byInverse slopingConfig coastFiles rand solves twoDays .absent walls = .ok (some (s, r)) ∧
      (∀ c, ∀ k < 3, (s.w.1.core.sand.bed c).mass k 0 = 159) ∧ (∀ c f, s.w.1.core.sand.Ct c f ≤ 0.01) ∧
      sandOnTransect slopingConfig 1 (fun c => (s.w.1.core.sand.bed c).zb) (fun c => ∑ f, s.w.1.core.sand.Ct c f) ≤
        sandOnTransect slopingConfig 1 (fun c => coastFiles.bed c) (fun _ => 0) + 49 * 1e-6 := by
  have hS : Startable slopingConfig coastFiles := startable_of sloping_usable rfl rfl
  have hn : stepsOf slopingConfig twoDays = 49 := coast_steps 20 false
  have hthick : bagnoldBound slopingConfig 0.001 20 / slopingConfig.core.T * slopingConfig.ts.dt < layerMass slopingConfig := by
    rw [coast_layerMass]
    have := coast_thick 0 (by norm_num)
    rwa [if_neg (lt_irrefl _)] at this
  obtain ⟨s, r, hp, hm, ha⟩ := C146_storm byInverse byInverse_exact slopingConfig coastFiles hS duneConfig_names sloping_files one_pos twoDays
    twoDays_asked rand solves walls (hw.trans' hn.le) rfl ⟨⟨fun _ => zero_le_one, fun _ => rfl⟩, fun _ => zero_le_one, fun _ => rfl⟩ sloping_calm
    rfl 20 0.001 ⟨rfl, _, rfl, by norm_num⟩ (Or.inl ⟨rfl, rfl⟩) (by norm_num [slopingConfig, shelteredConfig, coastConfig]) (copes_one hthick)
  obtain ⟨s', r', hp', hc⟩ := C146_not_created byInverse byInverse_exact slopingConfig coastFiles hS duneConfig_names sloping_files one_pos twoDays
    twoDays_asked rand solves walls (hw.trans' hn.le) 1 (fun j _ => by norm_num [slopingConfig, shelteredConfig, coastConfig]) rfl rfl rfl
    (by norm_num [slopingConfig, shelteredConfig, coastConfig, duneConfig])
    ⟨⟨fun _ => rfl, fun _ => rfl⟩, fun _ => rfl, fun _ => rfl⟩ sloping_calm ⟨rfl, rfl⟩
    rfl 20 0.001 ⟨rfl, _, rfl, by norm_num⟩ (Or.inl ⟨rfl, rfl⟩) (by norm_num [slopingConfig, shelteredConfig, coastConfig]) (copes_one hthick)
  rw [hp] at hp'
  obtain ⟨rfl, rfl⟩ := Prod.mk.inj (Option.some.inj (Except.ok.inj hp'))
  refine ⟨s, r, hp, fun c k hk => (Fin.sum_univ_one _).symm.trans ((hm c k hk).1.trans coast_layerMass), fun c f => (ha c f).2.trans coast_bound, ?_⟩
  rw [hn] at hc
  refine hc.trans (le_of_eq ?_)
  norm_num [slopingConfig, shelteredConfig, coastConfig, duneConfig]

end Aeolis.Props
