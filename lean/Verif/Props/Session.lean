import Verif.Model.Session
import Verif.Proofs.PyDict
import Verif.Props.Backup

/-!
C120: what becomes of parameters set before a run. C121: counters.
-/

namespace Aeolis.Props

open Aeolis.Config Aeolis.Session

variable {C P : Type}

/-- All settings given by the calls, in order. -/
def given : List (Call P) → List (String × P)
  | [] => []
  | .params kvs :: calls => kvs ++ given calls
  | .configfile _ :: calls => given calls

/-- The settings given after the last choice of a configuration file. -/
def recent (acc : List (String × P)) : List (Call P) → List (String × P)
  | [] => acc
  | .params kvs :: calls => recent (acc ++ kvs) calls
  | .configfile _ :: calls => recent [] calls

/-- The configuration file chosen last. -/
def lastFile (f : Text) : List (Call P) → Text
  | [] => f
  | .params _ :: calls => lastFile f calls
  | .configfile name :: calls => lastFile name calls

/-- Value of the last setting of a parameter. -/
def lastSetting (k : String) : List (String × P) → Option P
  | [] => none
  | kv :: kvs => (lastSetting k kvs).or (if kv.1 = k then some kv.2 else none)

theorem get_update (d : PyDict String P) (k : String) (kvs : List (String × P)) :
    (d.update kvs).get k = (lastSetting k kvs).or (d.get k) := by
  induction kvs generalizing d with
  | nil => simp [PyDict.update, lastSetting]
  | cons kv kvs ih =>
    have : d.update (kv :: kvs) = (d.set kv.1 kv.2).update kvs := rfl
    rw [this, ih, lastSetting]
    by_cases h : kv.1 = k
    · subst h; rw [PyDict.get_set_self, if_pos rfl]; cases lastSetting kv.1 kvs <;> rfl
    · rw [PyDict.get_set_of_ne d kv.2 (Ne.symm h), if_neg h]; cases lastSetting k kvs <;> rfl

theorem update_append (d : PyDict String P) (a b : List (String × P)) : d.update (a ++ b) = (d.update a).update b := by
  simp [PyDict.update, List.foldl_append]

/-- State after any calls. -/
theorem calls_spec (calls : List (Call P)) (r : Runner C P) (acc : List (String × P))
    (hacc : r.changed = true ↔ acc ≠ []) :
    (calls.foldl call r).p = r.p.update (given calls) ∧ (calls.foldl call r).disk = r.disk ∧
      (calls.foldl call r).configfile = lastFile r.configfile calls ∧
      ((calls.foldl call r).changed = true ↔ recent acc calls ≠ []) := by
  induction calls generalizing r acc with
  | nil => exact ⟨rfl, rfl, rfl, hacc⟩
  | cons c calls ih =>
    rw [List.foldl_cons]
    cases c with
    | params kvs =>
      cases kvs with
      | nil =>
        have : call r (.params []) = r := by simp [call, setParams]
        rw [this]
        simpa [given, lastFile, recent] using ih r acc hacc
      | cons kv kvs =>
        obtain ⟨h1, h2, h3, h4⟩ := ih (call r (.params (kv :: kvs))) (acc ++ kv :: kvs)
          (by simp [call, setParams])
        refine ⟨?_, h2.trans (by simp [call, setParams]), h3.trans (by simp [call, setParams, lastFile]), h4⟩
        rw [h1, given, update_append]
        simp [call, setParams]
    | configfile name =>
      obtain ⟨h1, h2, h3, h4⟩ := ih (call r (.configfile name)) [] (by simp [call, setConfigfile])
      exact ⟨h1, h2, h3, h4⟩

theorem calls_params (calls : List (Call P)) (r : Runner C P) :
    (calls.foldl call r).p = r.p.update (given calls) ∧ (calls.foldl call r).disk = r.disk := by
  induction calls generalizing r with
  | nil => exact ⟨rfl, rfl⟩
  | cons c calls ih =>
    rw [List.foldl_cons]
    cases c with
    | params kvs =>
      rw [(ih _).1, (ih _).2, given, update_append]
      cases kvs with
      | nil => simp [call, setParams, PyDict.update]
      | cons kv kvs => simp [call, setParams]
    | configfile name => exact ⟨(ih _).1, (ih _).2⟩

/-- **C120** After any calls of `set_params` and `set_configfile`, a parameter of the runner has the value given last, or else its value
before; choosing another configuration file neither reads its parameters nor undoes earlier settings. Nothing is written to disk. -/
theorem C120_parameters (calls : List (Call P)) (r : Runner C P) (k : String) :
    (calls.foldl call r).p.get k = (lastSetting k (given calls)).or (r.p.get k) ∧
      (calls.foldl call r).disk = r.disk := by
  have h := calls_params calls r
  rw [h.1]
  exact ⟨get_update r.p k _, h.2⟩

/-- **C120** A run starts from the configuration file chosen last. If parameters were set after that choice (or after creation), the file
is first backed up and replaced by all parameters of the runner, and the run uses what is read back from it; no other file changes
except for the backup. -/
theorem C120_run_with_settings (fmt : Format C P) (calls : List (Call P)) (r : Runner C P) (hr : r.changed = false)
    (hrecent : recent [] calls ≠ []) (d : Disk C) (hb : backup r.disk (lastFile r.configfile calls) = .ok d)
    (q : PyDict String P) (hq : fmt.parse (fmt.render (r.p.update (given calls))) = .ok q) :
    startRun fmt (calls.foldl call r) =
      .ok ⟨fun g => if g = lastFile r.configfile calls then some (fmt.render (r.p.update (given calls))) else d g,
        lastFile r.configfile calls, q, false⟩ := by
  obtain ⟨h1, h2, h3, h4⟩ := calls_spec calls r [] (by simp [hr])
  have hc := h4.mpr hrecent
  unfold startRun writeParams
  rw [if_pos hc, h2, h3, hb, h1]
  simp only [Except.map, bind, Except.bind, writeFile, if_pos, hq]
  rfl

/-- **C120** If no parameter was set after the configuration file was chosen, nothing is written and the run uses the parameters in that
file only: all parameters set earlier are lost. A file that does not exist is an `IOError`. -/
theorem C120_run_without_settings (fmt : Format C P) (calls : List (Call P)) (r : Runner C P) (hr : r.changed = false)
    (hrecent : recent [] calls = []) :
    (∀ c q, r.disk (lastFile r.configfile calls) = some c → fmt.parse c = .ok q →
      startRun fmt (calls.foldl call r) = .ok ⟨r.disk, lastFile r.configfile calls, q, false⟩) ∧
    (r.disk (lastFile r.configfile calls) = none → startRun fmt (calls.foldl call r) = .error .ioError) := by
  obtain ⟨h1, h2, h3, h4⟩ := calls_spec calls r [] (by simp [hr])
  have hc : (calls.foldl call r).changed = false := by
    cases h : (calls.foldl call r).changed with
    | false => rfl
    | true => exact absurd hrecent (h4.mp h)
  constructor
  · intro c q hd hp
    unfold startRun writeParams
    rw [hc]
    simp only [Bool.false_eq_true, if_false, bind, Except.bind]
    rw [h2, h3, hd]
    simp only [hp, Except.map]
    rw [hc]
  · intro hd
    unfold startRun writeParams
    rw [hc]
    simp only [Bool.false_eq_true, if_false, bind, Except.bind]
    rw [h2, h3, hd]

/-- **C120** So parameters set before a choice of configuration file — even of the same file — have no effect on the run. -/
theorem C120_settings_before_configfile_lost (fmt : Format C P) (r : Runner C P) (hr : r.changed = false)
    (kvs : List (String × P)) (f : Text) (c : C) (hc : r.disk f = some c) (q : PyDict String P) (hq : fmt.parse c = .ok q) :
    startRun fmt ([Call.params kvs, Call.configfile f].foldl call r) = .ok ⟨r.disk, f, q, false⟩ ∧
      startRun fmt ([Call.configfile f].foldl call r) = .ok ⟨r.disk, f, q, false⟩ :=
  ⟨(C120_run_without_settings fmt [Call.params kvs, Call.configfile f] r hr rfl).1 c q hc hq,
    (C120_run_without_settings fmt [Call.configfile f] r hr rfl).1 c q hc hq⟩

/-- **C120** Starting again without further calls writes nothing more: no second backup, same file, same parameters. -/
theorem C120_start_again (fmt : Format C P) (r r1 : Runner C P) (h : startRun fmt r = .ok r1) :
    startRun fmt r1 = .ok r1 := by
  unfold startRun at h
  cases hw : writeParams fmt r with
  | error e => rw [hw] at h; cases h
  | ok r0 =>
    rw [hw] at h
    simp only [bind, Except.bind] at h
    have hch : r0.changed = false := by
      unfold writeParams at hw
      split_ifs at hw with hc
      · cases hb : backup r.disk r.configfile with
        | error e => rw [hb] at hw; cases hw
        | ok d => rw [hb] at hw; simp only [Except.map] at hw; rw [← Except.ok.inj hw]
      · rw [← Except.ok.inj hw]; simpa using hc
    cases hd : r0.disk r0.configfile with
    | none => rw [hd] at h; cases h
    | some c =>
      rw [hd] at h
      simp only at h
      cases hp : fmt.parse c with
      | error e => rw [hp] at h; cases h
      | ok q =>
        rw [hp] at h
        simp only [Except.map] at h
        obtain rfl := Except.ok.inj h
        unfold startRun writeParams
        simp only [hch, Bool.false_eq_true, if_false, bind, Except.bind, hd, hp, Except.map]

/-- **C120** Creating a runner: the parameters of an existing file, unchanged; the name `DEFAULT` (in any capitals) always fails, since
the default profile cannot be made; any other missing file is an `IOError`. -/
theorem C120_create (fmt : Format C P) (disk : Disk C) (f : Text) :
    (∀ c q, disk f = some c → fmt.parse c = .ok q → create fmt disk f = .ok ⟨disk, f, q, false⟩) ∧
    (disk f = none → f.map Char.toUpper = "DEFAULT".toList → create fmt disk f = .error .typeError) ∧
    (disk f = none → f.map Char.toUpper ≠ "DEFAULT".toList → create fmt disk f = .error .ioError) := by
  refine ⟨?_, ?_, ?_⟩
  · intro c q hc hq
    simp [create, hc, hq, Except.map]
  · intro hn hd
    simp [create, hn, isDefault, hd]
  · intro hn hd
    rw [create, hn]
    simp only
    rw [if_neg (by unfold isDefault; simpa using hd)]

/-- Sum of the increments of a counter. -/
def increments (name : String) : List (String × ℤ) → ℤ
  | [] => 0
  | e :: l => (if e.1 = name then e.2 else 0) + increments name l

/-- **C121** A counter is the sum of its increments, whatever other counters are increased in between; counters never increased are
zero. -/
theorem C121_counters (events : List (String × ℤ)) (c : PyDict String ℤ) (name : String) :
    getCount (events.foldl (fun c e => count c e.1 e.2) c) name = getCount c name + increments name events ∧
      getCount ([] : PyDict String ℤ) name = 0 := by
  refine ⟨?_, rfl⟩
  have step : ∀ (c : PyDict String ℤ) (n : String) (k : ℤ),
      getCount (count c n k) name = getCount c name + if n = name then k else 0 := by
    intro c n k
    unfold count
    by_cases h : n = name
    · subst h
      rw [if_pos rfl]
      cases hc : c.get n with
      | none => simp [getCount, hc]
      | some v => simp [getCount, hc]
    · rw [if_neg h]
      cases hc : c.get n with
      | none => simp [getCount, PyDict.get_set_of_ne _ _ (Ne.symm h)]
      | some v => simp [getCount, PyDict.get_set_of_ne _ _ (Ne.symm h)]
  induction events generalizing c with
  | nil => simp [increments]
  | cons e events ih =>
    rw [List.foldl_cons, ih, step, increments]
    ring

/-- Parameters are stored as they are. -/
def plainFormat : Format (PyDict String ℚ) ℚ := ⟨id, .ok⟩

/-- A runner with one parameter on file. -/
def oneParameter : Runner (PyDict String ℚ) ℚ :=
  ⟨fun f => if f = ['a'] then some [("dt", 60)] else none, ['a'], [("dt", 60)], false⟩

example : ∃ d, backup oneParameter.disk ['a'] = .ok d := ⟨_, by
  have : oneParameter.disk ['a'] = some [("dt", 60)] := rfl
  unfold backup
  rw [this]
  rfl⟩

example : recent [] [Call.params [("dt", (30 : ℚ))]] ≠ [] ∧ recent [] [Call.params [("dt", (30 : ℚ))], Call.configfile ['a']] = [] :=
  ⟨by simp [recent], rfl⟩

example : startRun plainFormat ([Call.params [("dt", 30)], Call.configfile ['a']].foldl call oneParameter) =
    .ok ⟨oneParameter.disk, ['a'], [("dt", 60)], false⟩ :=
  (C120_settings_before_configfile_lost plainFormat oneParameter rfl [("dt", 30)] ['a'] [("dt", 60)] rfl [("dt", 60)] rfl).1

example : getCount ([("time", 1), ("supplylim", 3), ("time", 1)].foldl (fun c e => count c e.1 e.2) []) "time" = 2 :=
  (C121_counters [("time", 1), ("supplylim", 3), ("time", 1)] [] "time").1

end Aeolis.Props
