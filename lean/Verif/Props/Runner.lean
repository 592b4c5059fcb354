import Verif.Proofs.RunnerProgress
import Verif.Proofs.Config
import Verif.Proofs.State
import Mathlib.Tactic.Linarith
import Mathlib.Tactic.FieldSimp
import Mathlib.Tactic.NormNum
import Mathlib.Algebra.Order.BigOperators.Group.List

/-! Properties of `AeoLiSRunner.run`: what a completed run did, when a run completes, progress messages. -/

set_option linter.unusedSectionVars false

namespace Aeolis.Props

open Aeolis Aeolis.Runner Aeolis.Spec

variable {K W : Type*} [Field K] [LinearOrder K] [IsStrictOrderedRing K] [FloorRing K]

/-- C103: a completed run went through a chain of rounds, each the callback followed by an update, from the
first state to the first state beyond the stop time.  The callback was called once in every round, with the
state before the update; the output records are those of the output rule applied to the times of all states;
the reported averages are per step, the time step being the stop time over the number of steps. -/
theorem C103_completed (c : Cfg K) (e : Engine K W) (solves : W → ℕ) (restart : RestartArg)
    (walls : List (K × K)) (w : W) (s : St K W) (r : K × K)
    (h : run c e solves restart walls w = .ok (some (s, r))) :
    ∃ ws, Path e c.tstop w ws s.w ∧
      s.called = (if e.callback.isSome then ws.map e.time else []) ∧
      s.records = (Writer.run c.outputTimes ⟨0, []⟩ ((ws ++ [s.w]).map e.time)).records ∧
      r.1 * e.steps s.w = solves s.w ∧ r.2 * e.steps s.w = c.tstop ∧ e.steps s.w ≠ 0 := by
  unfold run at h
  split at h
  · cases h
  · split at h
    · cases h
    · rename_i s0 h0
      split at h
      · cases h
      · cases h
      · rename_i s1 h1
        split at h
        · cases h
        · rename_i r' hr
          cases h
          obtain ⟨o1, -, o3, -, -, -, -, o8, -, -⟩ := outputWrite_ok h0
          obtain ⟨ws, l1, -, l3, l4, -⟩ := loop_ok h1
          rw [o1] at l1
          refine ⟨ws, l1, ?_, ?_, ?_⟩
          · rw [l3, o3]; rfl
          · have := congrArg Writer.records l4
            dsimp only at this
            rw [this, o8, path_head l1]
            rfl
          · unfold printStats at hr
            split at hr
            · cases hr
            · rename_i hz
              cases hr
              have : (e.steps s.w : K) ≠ 0 := by exact_mod_cast hz
              exact ⟨div_mul_cancel₀ _ this, div_mul_cancel₀ _ this, hz⟩

/-- C103: what a completed run needs.  No restart file was given; restart output was not due at any state,
so that the restart interval is unset or beyond the stop time; there was a round; the flag read by the first
update existed (a snapshot was requested and the first state was written, or the callback asked for a
value); the first step was executed. -/
theorem C103_needs (c : Cfg K) (e : Engine K W) (solves : W → ℕ) (restart : RestartArg)
    (walls : List (K × K)) (w : W) (hw : e.steps w = 0) (s : St K W) (r : K × K)
    (h : run c e solves restart walls w = .ok (some (s, r))) :
    restart = .absent ∧ (c.restart = 0 ∨ c.tstop < c.restart) ∧ e.time w ≤ c.tstop ∧
    c.tstop ≠ c.tstart ∧
    ((c.snapshot = true ∧ (e.time w = 0 ∨ c.outputTimes ≤ e.time w)) ∨ asks e w = true) ∧
    (∀ w', e.update (afterCallback e w) = .ok w' → e.steps w' = 1) := by
  have hall := h
  unfold run at h
  split at h
  · cases h
  · rename_i b hb
    split at h
    · cases h
    · rename_i s0 h0
      split at h
      · cases h
      · cases h
      · rename_i s1 h1
        split at h
        · cases h
        · rename_i r' hr
          cases h
          obtain ⟨o1, o2, -, o4, -, -, -, -, -, o10⟩ := outputWrite_ok h0
          obtain ⟨ws, l1, -, -, -, l5, l6, l7, l8⟩ := loop_ok h1
          rw [o1] at l1 l6
          rw [o2] at l5
          rw [o4] at l8
          have hsteps : e.steps s.w ≠ 0 := by
            unfold printStats at hr
            split at hr
            · cases hr
            · assumption
          cases l1 with
          | stop _ hlt => exact absurd hw hsteps
          | step _ w1 ws' _ hle hu hp =>
            have hh := path_head hp
            refine ⟨?_, ?_, hle, ?_, ?_, ?_⟩
            · cases restart with
              | absent => rfl
              | missing => cases hb
              | file u => cases u <;> cases hb
            · rcases l5 with l5 | l5
              · exact Or.inl l5
              · right
                have := l5 s.w (by simp)
                simp only [St.init, sub_zero] at this
                exact lt_trans (path_end hp) this
            · rcases l7 with l7 | l7
              · cases l7
              · exact l7
            · rcases l6 with l6 | l6 | l6
              · cases l6
              · rw [o10] at l6
                simp only [St.init, Bool.false_or, Bool.and_eq_true, decide_eq_true_eq, sub_zero] at l6
                exact Or.inl ⟨l6.1, l6.2.symm⟩
              · exact Or.inr l6
            · intro w' hw'
              have hu' : e.update (afterCallback e w) = .ok w1 := hu
              rw [hu'] at hw'
              cases hw'
              rcases l8 with l8 | l8
              · cases l8
              · apply l8
                rw [List.cons_append, List.tail_cons, hh]
                rfl

/-- C103 (finding): a restart file never restores a state: giving one ends the run with an error, whether
the file exists or not. -/
theorem C103_restart_never_loads (c : Cfg K) (e : Engine K W) (solves : W → ℕ) (restart : RestartArg)
    (walls : List (K × K)) (w : W) (hr : restart ≠ .absent) :
    ∃ x, run c e solves restart walls w = .error x ∧ (x = .ioError ∨ x = .typeError ∨ x = .valueError) := by
  unfold run
  cases restart with
  | absent => exact absurd rfl hr
  | missing => exact ⟨_, rfl, by simp⟩
  | file u => cases u <;> exact ⟨_, rfl, by simp⟩

/-- C103: conversely a run completes, in the state at the end of the chain of rounds, when the chain ends,
no restart output is configured, a snapshot is written at the start, the first step is executed and counted
and time moves away from the start. -/
theorem C103_completes (c : Cfg K) (e : Engine K W) (solves : W → ℕ) (walls : List (K × K)) (w v : W)
    (ws : List W) (hp : Path e c.tstop w ws v) (hw : ws.length ≤ walls.length) (hr : c.restart = 0)
    (ht : c.tstop ≠ c.tstart) (hs : c.snapshot = true) (h0 : e.time w = 0 ∨ c.outputTimes ≤ e.time w)
    (hfirst : ∀ x ∈ ((ws ++ [v]).tail).head?, e.steps x = 1)
    (htime : ∀ x ∈ (ws ++ [v]).tail, e.time x ≠ c.tstart) (hv : e.steps v ≠ 0) :
    ∃ s r, run c e solves .absent walls w = .ok (some (s, r)) ∧ s.w = v := by
  obtain ⟨s0, hs0⟩ := outputWrite_total c e (St.init w) hr
  obtain ⟨o1, -, -, o4, -, -, -, -, -, o10⟩ := outputWrite_ok hs0
  have hcl : s0.hasClear = true := by
    rw [o10]
    simp only [St.init, sub_zero, Bool.false_or, hs, Bool.true_and, decide_eq_true_eq]
    exact h0.symm
  have hp0 : Path e c.tstop s0.w ws v := by rw [o1]; exact hp
  obtain ⟨s, h1, h2⟩ := loop_total walls s0 ws v hp0 hw hr ht hcl (Or.inr hfirst) htime
  refine ⟨s, ((solves v : K) / e.steps v, c.tstop / e.steps v), ?_, h2⟩
  unfold run
  simp only [loadRestart, hs0, h1, printStats, h2, if_neg hv]

/-- Time in steps of two, tstop five, with a callback doubling a counter. -/
def countingEngine : Engine ℚ (ℕ × ℕ) where
  time w := 2 * w.1
  dt _ := 2
  steps w := w.1
  update w := .ok (w.1 + 1, w.2 + 1)
  callback := some fun w => ((w.1, 2 * w.2), false)

/-- A run of three rounds: the path, the result of the callback and updates, the records at the start and
then at least three apart, and the reported averages (5/3 per step although each step took two). -/
example : Path countingEngine 5 (0, 1) [(0, 1), (1, 3), (2, 7)] (3, 15) ∧
    (run ⟨0, 5, 3, 0, true⟩ countingEngine (fun w => w.2) .absent [(1, 1), (2, 2), (3, 3)] (0, 1)).toOption.map
      (·.map fun x => (x.1.w, x.1.called, x.1.records, x.2)) =
    some (some ((3, 15), [0, 2, 4], [0, 4], (5, 5 / 3))) := by
  refine ⟨?_, by decide +kernel⟩
  refine .step _ (1, 3) _ _ (by norm_num [countingEngine]) rfl ?_
  refine .step _ (2, 7) _ _ (by norm_num [countingEngine]) rfl ?_
  refine .step _ (3, 15) _ _ (by norm_num [countingEngine]) rfl ?_
  exact .stop _ (by norm_num [countingEngine])

/-- C104: the time steps reported with the progress messages are averages over consecutive groups of steps:
every step belongs to one message, or to the rest after the last message. -/
theorem C104_averages (c : Cfg K) (e : Engine K W) (solves : W → ℕ) (restart : RestartArg)
    (walls : List (K × K)) (w : W) (s : St K W) (r : K × K)
    (h : run c e solves restart walls w = .ok (some (s, r))) (ws : List W) (hp : Path e c.tstop w ws s.w)
    (hs : ∀ x ∈ ((ws ++ [s.w]).tail).tail, e.steps x ≠ 1) :
    ∃ (groups : List (List K)) (rest : List K),
      ((ws ++ [s.w]).tail).map e.dt = groups.flatten ++ rest ∧
      List.Forall₂ (fun g (l : Line K) => g ≠ [] ∧ l.avg * g.length = g.sum) groups s.lines := by
  obtain ⟨s0, h0, h1⟩ := run_parts h
  obtain ⟨o1, -, -, o4, o5, -⟩ := outputWrite_ok h0
  have hp0 : Path e c.tstop s0.w ws s.w := by rw [o1]; exact hp
  obtain ⟨groups, new, g1, g2, g3⟩ := loop_averages h1 ws hp0 (by
    intro x hx hx1
    refine ⟨by rw [o4]; rfl, ?_⟩
    cases hl : (ws ++ [s.w]).tail with
    | nil => rw [hl] at hx; cases hx
    | cons a l =>
      rw [hl] at hx hs
      rcases List.mem_cons.1 hx with rfl | hx
      · rfl
      · exact absurd hx1 (hs x hx)) hs
  rw [o4] at g1
  rw [o5] at g2
  simp only [St.init, Option.getD_none, List.nil_append] at g1 g2
  rw [g2]
  exact ⟨groups, _, g1, g3⟩

/-- C104: while time does not go back and a run takes at most a minute, every progress message belongs to
another whole percentage, in increasing order, so that there are at most as many as percentages begun. -/
theorem C104_percentages (c : Cfg K) (e : Engine K W) (solves : W → ℕ) (restart : RestartArg)
    (walls : List (K × K)) (w : W) (s : St K W) (r : K × K)
    (h : run c e solves restart walls w = .ok (some (s, r))) (ws : List W) (hp : Path e c.tstop w ws s.w)
    (ht : c.tstart < c.tstop) (hpos : ∀ x ∈ (ws ++ [s.w]).tail, c.tstart < e.time x)
    (hmono : (((ws ++ [s.w]).tail).map e.time).Pairwise (· ≤ ·))
    (hwall : ∀ a ∈ walls, ∀ b ∈ walls, a.1 - b.2 ≤ 60) :
    (s.lines.map fun l => ⌈l.percent⌉).Pairwise (· < ·) ∧
    (s.lines.length : ℤ) ≤ ⌈(e.time s.w - c.tstart) / (c.tstop - c.tstart) * 100⌉ := by
  obtain ⟨s0, h0, h1⟩ := run_parts h
  obtain ⟨o1, -, -, -, o5, o6, -⟩ := outputWrite_ok h0
  have hp0 : Path e c.tstop s0.w ws s.w := by rw [o1]; exact hp
  have hd : 0 < c.tstop - c.tstart := sub_pos.2 ht
  obtain ⟨t1, t2⟩ := loop_lines h1 ws hp0 (fun x hx => div_pos (sub_pos.2 (hpos x hx)) hd)
    (by
      rw [List.pairwise_map] at hmono ⊢
      exact hmono.imp fun h => (div_le_div_iff_of_pos_right hd).2 (by linarith)) hwall
    (Or.inl ⟨by rw [o5]; rfl, by rw [o6]; rfl⟩) (by rw [o5]; simp [St.init])
  refine ⟨t1, ?_⟩
  have hlast : ∀ y ∈ (ws ++ [s.w]).tail, part c e y ≤ part c e s.w := by
    intro y hy
    rcases ws with - | ⟨a, l⟩
    · cases hy
    rw [List.cons_append, List.tail_cons] at hy hmono
    rw [List.map_append, List.pairwise_append] at hmono
    rw [List.mem_append, List.mem_singleton] at hy
    rcases hy with hy | rfl
    · have := hmono.2.2 (e.time y) (List.mem_map_of_mem hy) (e.time s.w) (by simp)
      exact (div_le_div_iff_of_pos_right hd).2 (by linarith)
    · exact le_rfl
  have hp1 : 0 < part c e s.w := by
    exact div_pos (sub_pos.2 (ht.trans (path_end hp))) hd
  change _ ≤ ⌈part c e s.w * 100⌉
  have hb : ∀ l ∈ s.lines, 1 ≤ l.whole ∧ l.whole ≤ ⌈part c e s.w * 100⌉ := by
    rcases t2 with t2 | ⟨y, hy, hl⟩
    · rw [t2, o5]; simp [St.init]
    · intro l hm
      refine ⟨(hl l hm).1, (hl l hm).2.trans (Int.ceil_mono ?_)⟩
      exact mul_le_mul_of_nonneg_right (hlast y hy) (by norm_num)
  have hcard := sorted_length (s.lines.map Line.whole) ⌈part c e s.w * 100⌉
    (Int.ceil_nonneg (mul_nonneg hp1.le (by norm_num))) t1 (by
      intro x hx
      obtain ⟨l, hl, rfl⟩ := List.mem_map.1 hx
      exact hb l hl)
  rwa [List.length_map] at hcard

/-- The three messages of the run above. -/
example : (run ⟨0, 5, 3, 0, true⟩ countingEngine (fun w => w.2) .absent [(1, 1), (2, 2), (3, 3)] (0, 1)).toOption.map
      (·.map fun x => x.1.lines.map fun l => (l.percent, l.avg)) =
    some (some [(40, 2), (80, 2), (120, 2)]) := by
  decide +kernel

/-- C105: a callback is named by a file and a function separated by one colon: the function is the one of
that name in the file, and nothing is called when the file has none.  A missing file is an error; so is a
second colon (such as that of a drive).  Text without a colon is silently ignored. -/
theorem C105_callback_text {A : Type*} (files : List Char → Option (List Char → Option A)) (s : List Char) :
    (∀ file func, s = file ++ ':' :: func → ':' ∉ file → ':' ∉ func →
      parseCallback files (.text s) = match files file with
        | some m => .ok (m func)
        | none => .error .ioError) ∧
    (s.count ':' ≥ 2 → parseCallback files (.text s) = .error .valueError) ∧
    (':' ∉ s → parseCallback files (.text s) = .ok none) := by
  refine ⟨?_, ?_, fun h => by simp [parseCallback, h]⟩
  · rintro file func rfl h1 h2
    simp only [parseCallback, List.mem_append, List.mem_cons, true_or, or_true, if_true]
    rw [Config.splitOn_append h1, Config.splitOn_not_mem h2]
    dsimp only
    cases files file <;> rfl
  · intro h
    have hm : ':' ∈ s := List.count_pos_iff.1 (by omega)
    simp only [parseCallback, if_pos hm]
    split
    · rename_i fname func hsp
      obtain ⟨-, hno, hj⟩ := Config.splitOn_separated ':' s
      rw [hsp] at hno hj
      have h1 := hno fname (by simp)
      have h2 := hno func (by simp)
      exfalso
      rw [hj] at h
      simp [List.intercalate, List.count_eq_zero_of_not_mem h1, List.count_eq_zero_of_not_mem h2] at h
    · rfl

/-- C105: a callable is used as it is; the argument of `run` takes precedence over the configuration, which
counts only when no argument is given. -/
theorem C105_callback_choice {A : Type*} (files : List Char → Option (List Char → Option A))
    (arg config : CallbackArg A) :
    (∀ f, arg = .callable f → chooseCallback files arg config = .ok (some f)) ∧
    (arg = .nothing → chooseCallback files arg config = parseCallback files config) ∧
    (arg ≠ .nothing → ∀ config', chooseCallback files arg config = chooseCallback files arg config') := by
  refine ⟨?_, ?_, ?_⟩
  · rintro f rfl; rfl
  · rintro rfl; rfl
  · intro h config'
    cases arg <;> first | rfl | exact absurd rfl h

/-- Callback texts: a function that exists, and a name with a drive. -/
example : (parseCallback (fun f => if f = "cb.py".toList then
        some fun n => if n = "go".toList then some 7 else none else none)
      (.text "cb.py:go".toList)).toOption = some (some 7) ∧
    "C:\\cb.py:go".toList.count ':' = 2 := by
  decide +kernel

/-- C106: loading hotstart files.  After success every state variable with a file holds the numbers of the
file in the shape it had, and can no longer be assigned by the model; everything else is unchanged. -/
theorem C106_hotstart (files : List (String × Option (List K))) (hn : (files.map Prod.fst).Nodup)
    (s s' : MState (HVal K)) (h : loadHotstart files s = .ok s') :
    (∀ var ∉ files.map Prod.fst, s'.d.get var = s.d.get var ∧ (var ∈ s'.ismutable ↔ var ∈ s.ismutable)) ∧
    (∀ var content, (var, content) ∈ files → s.d.get var = none → s'.d.get var = none) ∧
    (∀ var content shape data, (var, content) ∈ files → s.d.get var = some (.array shape data) →
      var ∉ s'.ismutable ∧ ∃ nums, content = some nums ∧ nums.length = shape.prod ∧
        (var ∈ s.ismutable → s'.d.get var = some (.array shape nums))) := by
  induction files generalizing s with
  | nil =>
    cases h
    simp
  | cons f files ih =>
    obtain ⟨v, c⟩ := f
    rw [List.map_cons, List.nodup_cons] at hn
    unfold loadHotstart at h
    have key : ∀ t : MState (HVal K), loadHotstart files t = .ok s' →
        (∀ j ≠ v, t.d.get j = s.d.get j ∧ (j ∈ t.ismutable ↔ j ∈ s.ismutable)) →
        (s.d.get v = none → t.d.get v = none) →
        (∀ shape data, s.d.get v = some (.array shape data) → v ∉ t.ismutable ∧
          ∃ nums, c = some nums ∧ nums.length = shape.prod ∧
            (v ∈ s.ismutable → t.d.get v = some (.array shape nums))) →
        (∀ var ∉ ((v, c) :: files).map Prod.fst,
          s'.d.get var = s.d.get var ∧ (var ∈ s'.ismutable ↔ var ∈ s.ismutable)) ∧
        (∀ var content, (var, content) ∈ (v, c) :: files → s.d.get var = none → s'.d.get var = none) ∧
        (∀ var content shape data, (var, content) ∈ (v, c) :: files →
          s.d.get var = some (.array shape data) → var ∉ s'.ismutable ∧ ∃ nums, content = some nums ∧
            nums.length = shape.prod ∧ (var ∈ s.ismutable → s'.d.get var = some (.array shape nums))) := by
      intro t ht hother hnone hsome
      obtain ⟨i1, i2, i3⟩ := ih hn.2 t ht
      have hv := i1 v hn.1
      refine ⟨?_, ?_, ?_⟩
      · intro var hvar
        rw [List.map_cons, List.mem_cons, not_or] at hvar
        rw [(i1 var hvar.2).1, (i1 var hvar.2).2]
        exact hother var hvar.1
      · intro var content hm hg
        rcases List.mem_cons.1 hm with hm | hm
        · cases hm
          rw [hv.1]; exact hnone hg
        · have hne : var ≠ v := fun h => hn.1 (List.mem_map.2 ⟨_, hm, h⟩)
          exact i2 var content hm (by rw [(hother var hne).1]; exact hg)
      · intro var content shape data hm hg
        rcases List.mem_cons.1 hm with hm | hm
        · cases hm
          obtain ⟨j1, nums, j2, j3, j4⟩ := hsome shape data hg
          exact ⟨fun hx => j1 (hv.2.1 hx), nums, j2, j3, fun hx => by rw [hv.1]; exact j4 hx⟩
        · have hne : var ≠ v := fun h => hn.1 (List.mem_map.2 ⟨_, hm, h⟩)
          obtain ⟨j1, nums, j2, j3, j4⟩ := i3 var content shape data hm (by rw [(hother var hne).1]; exact hg)
          exact ⟨j1, nums, j2, j3, fun hx => j4 ((hother var hne).2.2 hx)⟩
    split at h
    · rename_i shape0 data0 hg
      split at h
      · rename_i nums
        split at h
        · rename_i hlen
          refine key _ h ?_ (fun hx => by rw [hg] at hx; cases hx) ?_
          · intro j hj
            refine ⟨?_, ?_⟩
            · rw [MState.get_setImmutable, MState.get_setItem]; simp [hj.symm, hj]
            · rw [MState.mem_setImmutable, MState.mem_setItem]; simp [hj.symm, hj]
          · intro shape data hs
            rw [hg] at hs
            cases hs
            refine ⟨?_, nums, rfl, hlen, ?_⟩
            · rw [MState.mem_setImmutable]; simp
            · intro hm
              rw [MState.get_setImmutable, MState.get_setItem]; simp [hm]
        · cases h
      · cases h
    · cases h
    · rename_i hg
      exact key s h (fun j _ => ⟨rfl, Iff.rfl⟩) (fun _ => hg) (fun _ _ hs => by rw [hg] at hs; cases hs)

/-- C106: loading succeeds exactly if every file named after a state variable can be read, has as many numbers
as the variable, and the variable is an array. -/
theorem C106_hotstart_ok (files : List (String × Option (List K))) (hn : (files.map Prod.fst).Nodup)
    (s : MState (HVal K)) :
    (∃ s', loadHotstart files s = .ok s') ↔
      ∀ var content v, (var, content) ∈ files → s.d.get var = some v →
        ∃ shape data nums, v = .array shape data ∧ content = some nums ∧ nums.length = shape.prod := by
  induction files generalizing s with
  | nil => simp [loadHotstart]
  | cons f files ih =>
    obtain ⟨v, c⟩ := f
    rw [List.map_cons, List.nodup_cons] at hn
    have hcong : ∀ t : MState (HVal K), (∀ j ≠ v, t.d.get j = s.d.get j) →
        ((∃ s', loadHotstart files t = .ok s') ↔
          ∀ var content x, (var, content) ∈ files → s.d.get var = some x →
            ∃ shape data nums, x = .array shape data ∧ content = some nums ∧ nums.length = shape.prod) := by
      intro t ht
      rw [ih hn.2 t]
      constructor
      · intro h var content x hm hg
        have hne : var ≠ v := fun h => hn.1 (List.mem_map.2 ⟨_, hm, h⟩)
        exact h var content x hm (by rw [ht var hne]; exact hg)
      · intro h var content x hm hg
        have hne : var ≠ v := fun h => hn.1 (List.mem_map.2 ⟨_, hm, h⟩)
        exact h var content x hm (by rw [← ht var hne]; exact hg)
    have hsplit : (∀ var content x, (var, content) ∈ (v, c) :: files → s.d.get var = some x →
            ∃ shape data nums, x = .array shape data ∧ content = some nums ∧ nums.length = shape.prod) ↔
        ((∀ x, s.d.get v = some x → ∃ shape data nums, x = HVal.array shape data ∧ c = some nums ∧
            nums.length = shape.prod) ∧
          ∀ var content x, (var, content) ∈ files → s.d.get var = some x →
            ∃ shape data nums, x = .array shape data ∧ content = some nums ∧ nums.length = shape.prod) := by
      constructor
      · intro h
        exact ⟨fun x hx => h v c x (by simp) hx,
          fun var content x hm hg => h var content x (List.mem_cons_of_mem _ hm) hg⟩
      · rintro ⟨h1, h2⟩ var content x hm hg
        rcases List.mem_cons.1 hm with hm | hm
        · cases hm; exact h1 x hg
        · exact h2 var content x hm hg
    rw [hsplit]
    unfold loadHotstart
    split
    · rename_i shape0 data0 hg
      split
      · rename_i nums
        by_cases hlen : nums.length = shape0.prod
        · rw [if_pos hlen, hcong _ (fun j hj => by
            rw [MState.get_setImmutable, MState.get_setItem]; simp [hj.symm, hj])]
          refine ⟨fun h => ⟨?_, h⟩, fun h => h.2⟩
          intro x hx
          rw [hg] at hx
          cases hx
          exact ⟨_, _, nums, rfl, rfl, hlen⟩
        · rw [if_neg hlen]
          refine ⟨fun h => (by obtain ⟨_, h⟩ := h; cases h), fun h => ?_⟩
          obtain ⟨sh, d, n', h1, h2, h3⟩ := h.1 _ hg
          cases h1
          cases h2
          exact absurd h3 hlen
      · refine ⟨fun h => (by obtain ⟨_, h⟩ := h; cases h), fun h => ?_⟩
        obtain ⟨sh, d, n', h1, h2, h3⟩ := h.1 _ hg
        cases h2
    · rename_i x hg
      refine ⟨fun h => (by obtain ⟨_, h⟩ := h; cases h), fun h => ?_⟩
      obtain ⟨sh, d, n', h1, h2, h3⟩ := h.1 _ hg
      cases h1
    · rename_i hg
      rw [hcong s (fun _ _ => rfl)]
      exact ⟨fun h => ⟨fun x hx => (by rw [hg] at hx; cases hx), h⟩, fun h => h.2⟩

/-- A hotstart file for the bed level, and one that names no state variable. -/
example : ∃ s', loadHotstart [("zb", some [1, 2]), ("zz", none)]
      (⟨[("zb", .array [1, 2] [0, 0]), ("x", .array [1, 2] [3, 4])], {"zb", "x"}⟩ : MState (HVal ℚ)) = .ok s' ∧
    s'.d.get "zb" = some (.array [1, 2] [1, 2]) ∧ "zb" ∉ s'.ismutable := by
  refine ⟨_, rfl, rfl, ?_⟩
  decide +kernel

theorem counting_path : Path countingEngine 5 (0, 1) [(0, 1), (1, 3), (2, 7)] (3, 15) := by
  refine .step _ (1, 3) _ _ (by norm_num [countingEngine]) rfl ?_
  refine .step _ (2, 7) _ _ (by norm_num [countingEngine]) rfl ?_
  refine .step _ (3, 15) _ _ (by norm_num [countingEngine]) rfl ?_
  exact .stop _ (by norm_num [countingEngine])

/-- The run of the example completes; what it reports; and it could only be started without a restart file. -/
example : ∃ s r, run ⟨0, 5, 3, 0, true⟩ countingEngine (fun w => w.2) .absent [(1, 1), (2, 2), (3, 3)] (0, 1) = .ok (some (s, r)) ∧
    s.w = (3, 15) ∧ (∃ ws, Path countingEngine 5 (0, 1) ws s.w ∧ s.called = ws.map countingEngine.time) ∧
    ∃ (groups : List (List ℚ)) (rest : List ℚ), [2, 2, 2] = groups.flatten ++ rest ∧
      List.Forall₂ (fun g (l : Line ℚ) => g ≠ [] ∧ l.avg * g.length = g.sum) groups s.lines := by
  obtain ⟨s, r, h, hw⟩ := C103_completes ⟨0, 5, 3, 0, true⟩ countingEngine (fun w => w.2) [(1, 1), (2, 2), (3, 3)] (0, 1) (3, 15)
    [(0, 1), (1, 3), (2, 7)] counting_path (by norm_num) rfl (by norm_num) rfl (.inl (by norm_num [countingEngine]))
    (by simp [countingEngine]) (by simp [countingEngine]) (by norm_num [countingEngine])
  obtain ⟨ws, h1, h2, -⟩ := C103_completed _ _ _ _ _ _ _ _ h
  have h4 := C104_averages _ _ _ _ _ _ _ _ h [(0, 1), (1, 3), (2, 7)] (by rw [hw]; exact counting_path) (by
    rw [hw]; simp [countingEngine])
  obtain ⟨groups, rest, h5, h6⟩ := h4
  refine ⟨s, r, h, hw, ⟨ws, h1, h2.trans (if_pos rfl)⟩, groups, rest, ?_, h6⟩
  rw [← h5, hw]
  norm_num [countingEngine]

example : ∃ x, run ⟨0, 5, 3, 0, true⟩ countingEngine (fun w => w.2) (.file false) [(1, 1)] (0, 1) = .error x ∧
    (x = .ioError ∨ x = .typeError ∨ x = .valueError) :=
  C103_restart_never_loads _ _ _ _ _ _ (by simp)

end Aeolis.Props
