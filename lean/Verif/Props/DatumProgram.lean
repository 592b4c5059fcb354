import Verif.Props.DatumFull
import Verif.Props.Program

/-!
Property C160 for complete runs: with raised bed, tide and levels the run writes its output at the same times, prints the same progress, and ends at the
same time with the raised state.
-/

namespace Aeolis.Props

open Aeolis.Sand Aeolis.Whole Aeolis.Full

noncomputable section

variable {nx nf : ℕ}

/-- Two states of the runner that differ in the state of the model only. -/
structure SameRun {K W : Type*} (R : W → W → Prop) (s s' : Runner.St K W) : Prop where
  w : R s.w s'.w
  tout : s'.tout = s.tout
  trestart : s'.trestart = s.trestart
  tlog : s'.tlog = s.tlog
  plog : s'.plog = s.plog
  dtArray : s'.dtArray = s.dtArray
  hasClear : s'.hasClear = s.hasClear
  records : s'.records = s.records
  lines : s'.lines = s.lines
  called : s'.called = s.called

/-- Two models, seen by the runner, that cannot be told apart: same times, steps and errors, and related states. -/
structure SameEngine {K W : Type*} (R : W → W → Prop) (e e' : Runner.Engine K W) : Prop where
  time : ∀ w w', R w w' → e'.time w' = e.time w
  dt : ∀ w w', R w w' → e'.dt w' = e.dt w
  steps : ∀ w w', R w w' → e'.steps w' = e.steps w
  update : ∀ w w', R w w' → SameEnd R (e.update w) (e'.update w')
  quiet : e.callback = none
  quiet' : e'.callback = none

section Runner

variable {K W : Type*} [Field K] [LinearOrder K] [FloorRing K] {R : W → W → Prop} {e e' : Runner.Engine K W}

theorem outputWrite_same (c : Runner.Cfg K) (hE : SameEngine R e e') {s s' : Runner.St K W} (hs : SameRun R s s') :
    SameEnd (SameRun R) (Runner.outputWrite c e s) (Runner.outputWrite c e' s') := by
  obtain ⟨w, tout, tr, tl, pl, arr, cl, rec, li, ca⟩ := s
  obtain ⟨w', tout', tr', tl', pl', arr', cl', rec', li', ca'⟩ := s'
  obtain ⟨h0, h1, h2, h3, h4, h5, h6, h7, h8, h9⟩ := hs
  dsimp only at h0 h1 h2 h3 h4 h5 h6 h7 h8 h9
  subst h1 h2 h3 h4 h5 h6 h7 h8 h9
  unfold Runner.outputWrite
  simp only [hE.time _ _ h0]
  by_cases hp : e.time w - tout' ≥ c.outputTimes ∨ e.time w = 0
  · simp only [if_pos hp]
    by_cases hq : c.restart ≠ 0 ∧ e.time w - tr' ≥ c.restart
    · rw [if_pos hq, if_pos hq]
      exact rfl
    · rw [if_neg hq, if_neg hq]
      exact ⟨h0, rfl, rfl, rfl, rfl, rfl, rfl, rfl, rfl, rfl⟩
  · simp only [if_neg hp]
    by_cases hq : c.restart ≠ 0 ∧ e.time w - tr' ≥ c.restart
    · rw [if_pos hq, if_pos hq]
      exact rfl
    · rw [if_neg hq, if_neg hq]
      exact ⟨h0, rfl, rfl, rfl, rfl, rfl, rfl, rfl, rfl, rfl⟩

theorem printProgress_same (c : Runner.Cfg K) (now later : K) (hE : SameEngine R e e') {s s' : Runner.St K W} (hs : SameRun R s s') :
    SameEnd (SameRun R) (Runner.printProgress c e now later s) (Runner.printProgress c e' now later s') := by
  obtain ⟨w, tout, tr, tl, pl, arr, cl, rec, li, ca⟩ := s
  obtain ⟨w', tout', tr', tl', pl', arr', cl', rec', li', ca'⟩ := s'
  obtain ⟨h0, h1, h2, h3, h4, h5, h6, h7, h8, h9⟩ := hs
  dsimp only at h0 h1 h2 h3 h4 h5 h6 h7 h8 h9
  subst h1 h2 h3 h4 h5 h6 h7 h8 h9
  unfold Runner.printProgress
  simp only [hE.time _ _ h0, hE.dt _ _ h0, hE.steps _ _ h0]
  generalize (if e.steps w = 1 then some [] else arr') = arr
  by_cases g1 : c.tstop - c.tstart = 0
  · rw [if_pos g1, if_pos g1]
    exact rfl
  rw [if_neg g1, if_neg g1]
  rcases arr with _ | l
  · exact rfl
  dsimp only
  split_ifs
  · exact rfl
  · exact ⟨h0, rfl, rfl, rfl, rfl, rfl, rfl, rfl, rfl, rfl⟩
  · exact ⟨h0, rfl, rfl, rfl, rfl, rfl, rfl, rfl, rfl, rfl⟩

theorem round_same (c : Runner.Cfg K) (wall : K × K) (hE : SameEngine R e e') {s s' : Runner.St K W} (hs : SameRun R s s') :
    SameEnd (SameRun R) (Runner.round c e wall s) (Runner.round c e' wall s') := by
  have q : ∀ (e : Runner.Engine K W) s, e.callback = none → Runner.runCallback e s = s := by
    intro e s h
    unfold Runner.runCallback
    rw [h]
  have hu : SameEnd (SameRun R) (Runner.runnerUpdate e s) (Runner.runnerUpdate e' s') := by
    unfold Runner.runnerUpdate
    by_cases hc : s.hasClear = true
    · rw [if_pos hc, if_pos (hs.hasClear.trans hc)]
      have := hE.update _ _ hs.w
      revert this
      generalize e.update s.w = a
      generalize e'.update s'.w = b
      intro h
      rcases a with x | a <;> rcases b with y | b
      · exact h
      · exact h.elim
      · exact h.elim
      · exact ⟨h, hs.tout, hs.trestart, hs.tlog, hs.plog, hs.dtArray, hs.hasClear, hs.records, hs.lines, hs.called⟩
    · rw [if_neg hc, if_neg fun q => hc (hs.hasClear.symm.trans q)]
      exact rfl
  unfold Runner.round
  rw [q e s hE.quiet, q e' s' hE.quiet']
  revert hu
  generalize Runner.runnerUpdate e s = a
  generalize Runner.runnerUpdate e' s' = b
  intro h
  rcases a with x | a <;> rcases b with y | b
  · exact h
  · exact h.elim
  · exact h.elim
  dsimp only
  have ho := outputWrite_same c hE h
  revert ho
  generalize Runner.outputWrite c e a = a
  generalize Runner.outputWrite c e' b = b
  intro h
  rcases a with x | a <;> rcases b with y | b
  · exact h
  · exact h.elim
  · exact h.elim
  · exact printProgress_same c wall.1 wall.2 hE h

/-- Both still run, or both ended with related results. -/
def SameStage {α : Type*} (R : α → α → Prop) : Option α → Option α → Prop
  | none, none => True
  | some a, some b => R a b
  | _, _ => False

theorem loop_same (c : Runner.Cfg K) (hE : SameEngine R e e') (walls : List (K × K)) : ∀ {s s' : Runner.St K W}, SameRun R s s' →
    SameEnd (SameStage (SameRun R)) (Runner.loop c e walls s) (Runner.loop c e' walls s') := by
  induction walls with
  | nil =>
    intro s s' hs
    unfold Runner.loop
    rw [hE.time _ _ hs.w]
    by_cases h : e.time s.w ≤ c.tstop
    · rw [if_pos h, if_pos h]
      exact trivial
    · rw [if_neg h, if_neg h]
      exact hs
  | cons wall walls ih =>
    intro s s' hs
    unfold Runner.loop
    rw [hE.time _ _ hs.w]
    by_cases h : e.time s.w ≤ c.tstop
    · rw [if_pos h, if_pos h]
      have hr := round_same c wall hE hs
      revert hr
      generalize Runner.round c e wall s = a
      generalize Runner.round c e' wall s' = b
      intro h
      rcases a with x | a <;> rcases b with y | b
      · exact h
      · exact h.elim
      · exact h.elim
      · exact ih h
    · rw [if_neg h, if_neg h]
      exact hs

/-- **C160** Two models that cannot be told apart by times, steps and errors give the same run: the same times of output, the same progress messages and
statistics, the same error. -/
theorem C160_same_run (c : Runner.Cfg K) (hE : SameEngine R e e') (solves solves' : W → ℕ) (hsol : ∀ w w', R w w' → solves' w' = solves w)
    (restart : Runner.RestartArg) (walls : List (K × K)) (w w' : W) (hw : R w w') :
    SameEnd (SameStage fun a b => SameRun R a.1 b.1 ∧ b.2 = a.2) (Runner.run c e solves restart walls w)
      (Runner.run c e' solves' restart walls w') := by
  unfold Runner.run
  rcases Runner.loadRestart restart with x | x
  · exact rfl
  dsimp only
  have h0 : SameRun R (Runner.St.init w : Runner.St K W) (Runner.St.init w') := ⟨hw, rfl, rfl, rfl, rfl, rfl, rfl, rfl, rfl, rfl⟩
  have ho := outputWrite_same c hE h0
  revert ho
  generalize Runner.outputWrite c e (Runner.St.init w) = a
  generalize Runner.outputWrite c e' (Runner.St.init w') = b
  intro h
  rcases a with x | a <;> rcases b with y | b
  · exact h
  · exact h.elim
  · exact h.elim
  dsimp only
  have hl := loop_same c hE walls h
  revert hl
  generalize Runner.loop c e walls a = a
  generalize Runner.loop c e' walls b = b
  intro h
  rcases a with x | (_ | a) <;> rcases b with y | (_ | b)
  · exact h
  · exact h.elim
  · exact h.elim
  · exact h.elim
  · exact h
  · exact h.elim
  · exact h.elim
  · exact h.elim
  · dsimp only
    have h' : SameRun R a b := h
    rw [hE.steps _ _ h'.w, hsol _ _ h'.w]
    rcases Runner.printStats c (e.steps a.w) (solves a.w) with x | x
    · exact rfl
    · exact ⟨h', rfl⟩

end Runner

/-- States of the model with the counter of time steps, the second raised. -/
def HigherCount (h : ℝ) (w w' : Full.State nx nf × ℕ) : Prop := Higher h w.1 w'.1 ∧ w'.2 = w.2

open Classical in
theorem engine_higher (sp : LinSolve nx 0) (C : Full.Config nx nf) (hC : NoDatum C) (h : ℝ) (rand : ℕ → ℕ → ℝ) :
    SameEngine (HigherCount h) (Program.engine sp C rand) (Program.engine sp (higherConfig h C) rand) where
  time w w' hw := by
    show w'.1.clock.t = w.1.clock.t
    rw [hw.1.clock]
  dt w w' hw := by
    show w'.1.clock.dt = w.1.clock.dt
    rw [hw.1.clock]
  steps w w' hw := hw.2
  update w w' hw := by
    have hX := C160_update sp C hC h (rand w.2) (-1) w.1 w'.1 hw.1
    unfold Program.engine
    dsimp only
    rw [hw.2]
    revert hX
    generalize Full.update sp C (rand w.2) (-1) w.1 = a
    generalize Full.update sp (higherConfig h C) (rand w.2) (-1) w'.1 = b
    intro hX
    rcases a with _ | (x | a) <;> rcases b with _ | (y | b)
    · exact rfl
    · exact hX.elim
    · exact hX.elim
    · exact hX.elim
    · exact hX
    · exact hX.elim
    · exact hX.elim
    · exact hX.elim
    · refine ⟨hX.1, ?_⟩
      dsimp only
      rw [hX.2.1]
  quiet := rfl
  quiet' := rfl

open Classical in
/-- **C160** A complete run from files with raised bed, tide and levels: it fails with the same error, is still running after the same number of rounds,
or ends with output at the same times, the same progress and statistics, and the raised state. -/
theorem C160_program (sp : LinSolve nx 0) (C : Full.Config nx nf) (hC : NoDatum C) (F : Program.Files nx nf) (rand : ℕ → ℕ → ℝ)
    (solves solves' : Full.State nx nf × ℕ → ℕ) (h : ℝ) (hsol : ∀ w w', HigherCount h w w' → solves' w' = solves w)
    (c : Runner.Cfg ℝ) (restart : Runner.RestartArg) (walls : List (ℝ × ℝ)) :
    SameEnd (SameStage fun a b => SameRun (HigherCount h) a.1 b.1 ∧ b.2 = a.2) (Program.program sp C F rand solves c restart walls)
      (Program.program sp (higherConfig h C) (higherFiles h F) rand solves' c restart walls) := by
  have hX := C160_initialise C F c.tstart h
  have hN := @initialise_noDatum nx nf C hC F c.tstart
  unfold Program.program
  revert hX hN
  generalize Program.initialise C F c.tstart = a
  generalize Program.initialise (higherConfig h C) (higherFiles h F) c.tstart = b
  intro hX hN
  rcases a with e | ⟨C', σ⟩ <;> rcases b with e' | ⟨D, σ'⟩
  · exact hX
  · exact hX.elim
  · exact hX.elim
  · obtain ⟨h1, h2⟩ := hX
    dsimp only at h1 h2 ⊢
    rw [h1]
    exact C160_same_run c (engine_higher sp C' (hN rfl) h rand) solves solves' hsol restart walls _ _ ⟨h2, rfl⟩

/-- C160: two days of storm at the Dead Sea, with shear over the topography, plants, avalanches and dune erosion. -/
example (rand : ℕ → ℕ → ℝ) (walls : List (ℝ × ℝ)) (hw : 49 ≤ walls.length) :
    ∃ s s' r, Program.program byInverse openCoast coastFiles rand Prod.snd twoDays .absent walls = .ok (some (s, r)) ∧
      Program.program byInverse (higherConfig (-430) openCoast) (higherFiles (-430) coastFiles) rand Prod.snd twoDays .absent walls = .ok (some (s', r)) ∧
      s'.records = s.records ∧ ∀ c, (s'.w.1.core.sand.bed c).zb = (s.w.1.core.sand.bed c).zb + -430 := by
  obtain ⟨C', σ, τ, s, r, -, -, -, hp, -⟩ := C146_completes byInverse openCoast coastFiles
    (startable_of openCoast_usable rfl rfl) duneConfig_names openCoast_files one_pos twoDays twoDays_asked rand Prod.snd walls
    (hw.trans' (coast_steps 20 true).le)
  have hX := C160_program byInverse openCoast openCoast_noDatum coastFiles rand Prod.snd Prod.snd (-430) (fun _ _ h => h.2) twoDays .absent walls
  rw [hp] at hX
  revert hX
  generalize Program.program byInverse (higherConfig (-430) openCoast) (higherFiles (-430) coastFiles) rand Prod.snd twoDays .absent walls = b
  intro hX
  rcases b with e | (_ | ⟨s', r'⟩)
  · exact hX.elim
  · exact hX.elim
  · obtain ⟨h1, h2⟩ := hX
    dsimp only at h1 h2
    rw [h2]
    exact ⟨s, s', r, hp, rfl, h1.records, fun c => h1.w.1.level c⟩

end

end Aeolis.Props
