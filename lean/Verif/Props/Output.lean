import Verif.Proofs.Output

/-!
Output properties: C26 (statistics), C27 (a step needs an earlier read), C28 (output interval),
C29 (netCDF records), C30 (output table), C31 (name resolution).
-/

set_option linter.unusedSectionVars false

namespace Aeolis.Props

open Aeolis.Spec

variable {K : Type*} [Field K] [LinearOrder K] [IsStrictOrderedRing K]

/-! ### C26 -/

/-- C26: after any history of steps, reads and output records, the sum and the average reported
(if requested) are those of the values at the end of the steps since the statistics were last
cleared. -/
theorem C26_sum_and_average (e : Exts) (snapshot : Bool) (os : List (RunnerOp K)) (r : Runner K)
    (h : Runner.init.ops e snapshot os = .ok r) :
    let win := (window snapshot os).values
    ((e.sum || e.avg || e.var) = true →
      r.getStatistic "sum" = .value win.sum ∧
      r.getStatistic "avg" = .value (if win = [] then 0 else mean win)) := by
  intro win he
  have t := tracks_ops e snapshot os _ r _ (tracks_init e) h
  have hs := t.sum he
  have hn := t.n
  change r.acc.sum = win.sum at hs
  change r.n = win.length at hn
  refine ⟨by simp [Runner.getStatistic, hs], ?_⟩
  unfold Runner.getStatistic
  simp only [String.reduceEq, if_false, if_true, hs, hn]
  by_cases hw : win = []
  · simp [hw]
  · simp [hw, List.length_pos_iff.mpr hw, mean]

/-- C26: likewise the variance is the unbiased sample variance of these values (zero for fewer than
two), and it is never negative. -/
theorem C26_variance (e : Exts) (snapshot : Bool) (os : List (RunnerOp K)) (r : Runner K)
    (h : Runner.init.ops e snapshot os = .ok r) (he : e.var = true) :
    let win := (window snapshot os).values
    r.getStatistic "var" = .value (if win.length < 2 then 0 else variance win) ∧
      0 ≤ (if win.length < 2 then 0 else variance win) := by
  intro win
  have t := tracks_ops e snapshot os _ r _ (tracks_init e) h
  have hs := t.sum (by simp [he])
  have hv := t.var he
  have hn := t.n
  change r.acc.sum = win.sum at hs
  change r.acc.var = (win.map (· ^ 2)).sum at hv
  change r.n = win.length at hn
  constructor
  · unfold Runner.getStatistic
    simp only [String.reduceEq, if_false, if_true, hs, hn, hv]
    by_cases hw : win.length < 2
    · rw [if_neg (by omega), if_pos hw]
    · have hne : win ≠ [] := by rintro h0; rw [h0] at hw; simp at hw
      rw [if_pos (by omega), if_neg hw, variance_formula win hne]
      rfl
  · split
    · exact le_rfl
    · rename_i hw
      refine div_nonneg (List.sum_nonneg ?_) ?_
      · intro x hx
        obtain ⟨v, -, rfl⟩ := List.mem_map.mp hx
        exact sq_nonneg _
      · have : (2 : K) ≤ win.length := by exact_mod_cast not_lt.mp hw
        linarith

/-- C26: likewise the minimum and maximum are the smallest and largest of these values. -/
theorem C26_min_and_max (e : Exts) (snapshot : Bool) (os : List (RunnerOp K)) (r : Runner K)
    (h : Runner.init.ops e snapshot os = .ok r) :
    let win := (window snapshot os).values
    (e.min = true → ∃ x, r.getStatistic "min" = .lower x ∧ IsMinOf x win) ∧
    (e.max = true → ∃ x, r.getStatistic "max" = .upper x ∧ IsMaxOf x win) := by
  intro win
  have t := tracks_ops e snapshot os _ r _ (tracks_init e) h
  exact ⟨fun he => ⟨_, rfl, t.min he⟩, fun he => ⟨_, by simp [Runner.getStatistic], t.max he⟩⟩

/-- C26: in the time loop of a run (a record, then steps and records, nobody else reading) the
values are exactly those of the steps since the last record, unless a step was a fast-forward. -/
theorem C26_run_window (snapshot : Bool) (pre : List (RunnerOp K)) (vs : List (K × K))
    (hff : ∀ x ∈ vs, ¬ x.2 < -1) (hpre : (window snapshot pre).fastForward = false)
    (hask : (window snapshot pre).asked = false) :
    (window snapshot (pre ++ .write :: vs.map fun x => .step x.1 x.2)).values = vs.map Prod.fst := by
  unfold window at *
  rw [List.foldl_append, List.foldl_cons]
  generalize (List.foldl (Window.next snapshot) ⟨false, false, []⟩ pre) = w at *
  have key : ∀ (vs : List (K × K)) (w : Window K), (∀ x ∈ vs, ¬ x.2 < -1) → w.asked = false →
      w.fastForward = false →
      (List.foldl (Window.next snapshot) w (vs.map fun x => RunnerOp.step x.1 x.2)).values
        = w.values ++ vs.map Prod.fst := by
    intro vs
    induction vs with
    | nil => intro w _ _ _; simp
    | cons x vs ih =>
      intro w h1 h2 h3
      simp only [List.map_cons, List.foldl_cons]
      rw [ih]
      · simp [Window.next, h2, h3]
      · exact fun y hy => h1 y (List.mem_cons_of_mem _ hy)
      · rfl
      · simp only [Window.next, decide_eq_false_iff_not]; exact h1 x List.mem_cons_self
  rw [key vs _ hff (by cases snapshot <;> simp [Window.next, hask]) (by simp [Window.next, hpre])]
  simp [Window.next]

/-- C26, what else clears the statistics: reading any variable with the default arguments (for
instance the bed level in a callback) discards at the next step the values collected so far. -/
theorem C26_reading_discards (snapshot : Bool) (os : List (RunnerOp K)) (v dt : K) :
    (window snapshot (os ++ [.get true, .step v dt])).values = [v] := by
  simp [window, List.foldl_append, Window.next]

/-- A history meeting the hypotheses: record, steps 1, 2, 6 and the statistics 9, 3, 7, 1, 6. -/
def exOps : List (RunnerOp ℚ) := [.write, .step 1 60, .step 2 60, .step 6 60]

example : ∃ r : Runner ℚ, Runner.init.ops ⟨true, true, true, true, true⟩ true exOps = .ok r ∧
    (window true exOps).values = [1, 2, 6] ∧ mean [(1 : ℚ), 2, 6] = 3 ∧
    variance [(1 : ℚ), 2, 6] = 7 := by
  refine ⟨_, rfl, ?_, ?_, ?_⟩
  · simp [window, exOps, Window.next]; norm_num
  · norm_num [mean]
  · norm_num [variance, mean]

/-! ### C27 -/

/-- Operations after which the flag read by a step exists. -/
def reads (snapshot : Bool) : RunnerOp K → Bool
  | .get _ => true
  | .write => snapshot
  | .step _ _ => false

/-- C27 (the part that holds): if some variable has been read, or a record with a plain variable has
been written, before the first step, then no later operation of the runner fails.
Missing from the full claim (every step of a run succeeds): runs whose requested outputs are all
statistics, where it is false (`C27_first_step_fails`). -/
theorem C27_steps_succeed_partial (e : Exts) (snapshot : Bool) (pre os : List (RunnerOp K))
    (o : RunnerOp K) (hpre : ∀ p ∈ pre, ∀ v dt, p ≠ .step v dt) (ho : reads snapshot o = true) :
    ∃ r : Runner K, Runner.init.ops e snapshot (pre ++ o :: os) = .ok r := by
  have h1 : ∀ (os : List (RunnerOp K)) (r : Runner K), r.clear.isSome →
      ∃ r', r.ops e snapshot os = .ok r' := by
    intro os
    induction os with
    | nil => exact fun r _ => ⟨r, rfl⟩
    | cons o os ih =>
      intro r hr
      obtain ⟨c, hc⟩ := Option.isSome_iff_exists.mp hr
      cases o with
      | get c' => exact ih _ rfl
      | write =>
        refine ih _ ?_
        simp only
        cases snapshot
        · exact hr
        · rfl
      | step v dt =>
        have : ∃ r1, r.op e snapshot (.step v dt) = .ok r1 ∧ r1.clear.isSome := by
          simp only [Runner.op, hc]
          exact ⟨_, rfl, rfl⟩
        obtain ⟨r1, h1, h2⟩ := this
        obtain ⟨r', h'⟩ := ih r1 h2
        exact ⟨r', by simp only [Runner.ops, h1]; exact h'⟩
  have h2 : ∀ (r : Runner K), ∃ r', r.ops e snapshot (pre ++ o :: os) = .ok r' := by
    induction pre with
    | nil =>
      intro r
      cases o with
      | get c => exact h1 os { r with clear := some c } rfl
      | write =>
        simp only [reads] at ho
        subst ho
        exact h1 os { r.outputClear with clear := some false } rfl
      | step v dt => simp [reads] at ho
    | cons p pre ih =>
      intro r
      have ih := ih (fun q hq => hpre q (List.mem_cons_of_mem _ hq))
      cases p with
      | get c => exact ih _
      | write => exact ih _
      | step v dt => exact absurd rfl (hpre _ List.mem_cons_self v dt)
  exact h2 _

/-- C27 fails for runs that only output statistics and whose variables nobody reads: the first step
raises an `AttributeError`, whatever records were written before. -/
theorem C27_first_step_fails (e : Exts) (pre : List (RunnerOp K)) (v dt : K)
    (os : List (RunnerOp K)) (hpre : ∀ p ∈ pre, p = .write) :
    Runner.init.ops e false (pre ++ .step v dt :: os) = .error .attributeError := by
  suffices h : ∀ r : Runner K, r.clear = none →
      r.ops e false (pre ++ .step v dt :: os) = .error .attributeError from h _ rfl
  induction pre with
  | nil =>
    intro r hr
    simp [Runner.ops, Runner.op, hr]
  | cons p pre ih =>
    intro r hr
    have hp := hpre p List.mem_cons_self
    subst hp
    exact ih (fun q hq => hpre q (List.mem_cons_of_mem _ hq)) _ hr

example : Runner.init.ops ⟨false, false, false, true, false⟩ false
    [.write, .step (1 : ℚ) 60] = .error .attributeError :=
  C27_first_step_fails _ [.write] 1 60 [] (by simp)

/-! ### C28 -/

/-- C28: consecutive records are at least the output interval apart (except a record at time 0). -/
theorem C28_records_apart (outputTimes : K) (ts : List K) :
    (Writer.init.run outputTimes ts).records.IsChain
      (fun a b => b - a ≥ outputTimes ∨ b = 0) ∧
    ((Writer.init.run outputTimes ts).records.getLast?.getD 0
      = (Writer.init.run outputTimes ts).tout) := by
  suffices h : ∀ w : Writer K,
      w.records.IsChain (fun a b => b - a ≥ outputTimes ∨ b = 0) →
      w.records.getLast?.getD 0 = w.tout →
      (w.run outputTimes ts).records.IsChain (fun a b => b - a ≥ outputTimes ∨ b = 0) ∧
      (w.run outputTimes ts).records.getLast?.getD 0 = (w.run outputTimes ts).tout from
    h _ (by simp [Writer.init]) (by simp [Writer.init])
  induction ts with
  | nil => exact fun w h1 h2 => ⟨h1, h2⟩
  | cons t ts ih =>
    intro w h1 h2
    simp only [Writer.run, List.foldl_cons] at ih ⊢
    unfold Writer.write
    split
    · rename_i hc
      refine ih _ ?_ (by simp)
      rw [List.isChain_append]
      refine ⟨h1, by simp, ?_⟩
      intro a ha b hb
      simp at hb
      subst hb
      have : a = w.tout := by
        rw [← h2]; rw [Option.mem_def] at ha; rw [ha]; rfl
      rw [this]; exact hc
    · exact ih _ h1 h2

/-- C28: a call of the output routine is recorded if and only if at least the output interval has
passed since the last record (since time 0 if there is none), or the time is exactly 0. -/
theorem C28_recorded_iff (outputTimes : K) (ts : List K) (t : K) :
    (Writer.init.run outputTimes (ts ++ [t])).records =
      if t - ((Writer.init.run outputTimes ts).records.getLast?.getD 0) ≥ outputTimes ∨ t = 0 then
        (Writer.init.run outputTimes ts).records ++ [t]
      else (Writer.init.run outputTimes ts).records := by
  have h2 := (C28_records_apart outputTimes ts).2
  rw [h2]
  unfold Writer.run
  rw [List.foldl_append, List.foldl_cons, List.foldl_nil]
  generalize List.foldl (Writer.write outputTimes) Writer.init ts = w
  unfold Writer.write
  split <;> rfl

/-- C28: with a positive output interval and positive times after the start, the record times
strictly increase. -/
theorem C28_records_increase (outputTimes : K) (h0 : 0 < outputTimes) (ts : List K)
    (hts : ∀ t ∈ ts, 0 < t) :
    (Writer.init.run outputTimes (0 :: ts)).records.Pairwise (· < ·) := by
  have hw : Writer.init.run outputTimes (0 :: ts) =
      (⟨0, [0]⟩ : Writer K).run outputTimes ts := by
    simp [Writer.run, Writer.write, Writer.init]
  rw [hw]
  suffices h : ∀ w : Writer K, w.records.Pairwise (· < ·) → (∀ a ∈ w.records, a ≤ w.tout) →
      (w.run outputTimes ts).records.Pairwise (· < ·) from
    h _ (by simp) (by simp)
  clear hw
  induction ts with
  | nil => exact fun w h _ => h
  | cons t ts ih =>
    intro w h1 h2
    simp only [Writer.run, List.foldl_cons] at ih ⊢
    have ih := ih (fun x hx => hts x (List.mem_cons_of_mem _ hx))
    have ht := hts t List.mem_cons_self
    unfold Writer.write
    split
    · rename_i hc
      have hlt : w.tout < t := by
        rcases hc with hc | hc
        · linarith
        · rw [hc] at ht; exact absurd ht (lt_irrefl _)
      refine ih _ ?_ ?_
      · rw [List.pairwise_append]
        refine ⟨h1, by simp, ?_⟩
        intro a ha b hb
        rw [List.mem_singleton] at hb
        subst hb
        exact lt_of_le_of_lt (h2 a ha) hlt
      · intro a ha
        rcases List.mem_append.mp ha with ha | ha
        · exact (h2 a ha).trans hlt.le
        · rw [List.mem_singleton] at ha; exact ha.le
    · exact ih _ h1 h2

example : (Writer.init.run (60 : ℚ) [0, 25, 50, 75, 100, 130, 160]).records = [0, 75, 160] := by
  norm_num [Writer.run, Writer.write, Writer.init]

/-! ### C29 -/

section Netcdf

variable {V : Type*}

/-- A sequence of records appended to the file, without errors. -/
def appendAll (f : NcFile K V) : List (K × List (String × V)) → NcFile K V
  | [] => f
  | (t, kvs) :: rs => appendAll (f.append t kvs).1 rs

theorem writeVars_spec (kvs : List (String × V)) (f : NcFile K V) (i : ℕ)
    (hk : ∀ kv ∈ kvs, kv.1 ∈ f.vars) :
    (f.writeVars i kvs).2 = none ∧ (f.writeVars i kvs).1.vars = f.vars ∧
    (f.writeVars i kvs).1.ntime = f.ntime ∧ (f.writeVars i kvs).1.time = f.time ∧
    (f.writeVars i kvs).1.bounds = f.bounds ∧
    (∀ k j, j ≠ i → (f.writeVars i kvs).1.vals k j = f.vals k j) ∧
    (∀ k, (f.writeVars i kvs).1.vals k i =
      ((PyDict.get kvs.reverse k).or (f.vals k i))) := by
  induction kvs generalizing f with
  | nil => simp [NcFile.writeVars]
  | cons kv kvs ih =>
    obtain ⟨k, v⟩ := kv
    have hkm := hk (k, v) List.mem_cons_self
    simp only [NcFile.writeVars, hkm, if_true]
    obtain ⟨h1, h2, h3, h4, h5, h6, h7⟩ := ih
      { f with vals := Function.update f.vals k (Function.update (f.vals k) i (some v)) }
      (fun kv hkv => hk kv (List.mem_cons_of_mem _ hkv))
    refine ⟨h1, h2, h3, h4, h5, ?_, ?_⟩
    · intro k' j hj
      rw [h6 k' j hj]
      by_cases hkk : k' = k
      · subst hkk; simp [hj]
      · simp [hkk]
    · intro k'
      rw [h7 k']
      have happ : ∀ (a : List (String × V)) (x : String × V), PyDict.get (a ++ [x]) k' =
          (PyDict.get a k').or (if x.1 = k' then some x.2 else none) := by
        intro a x
        induction a with
        | nil => simp [PyDict.get]
        | cons y a iha =>
          obtain ⟨ky, vy⟩ := y
          simp only [List.cons_append, PyDict.get, iha]
          by_cases hy : ky = k' <;> simp [hy]
      rw [List.reverse_cons, happ]
      by_cases hkk : k' = k
      · subst hkk
        simp only [Function.update_self, if_true]
        cases PyDict.get kvs.reverse k' <;> simp
      · simp only [Function.update_of_ne hkk, Ne.symm hkk, if_false]
        cases PyDict.get kvs.reverse k' <;> simp

/-- The file after the time of a new record has been written. -/
abbrev grown (f : NcFile K V) (t : K) : NcFile K V :=
  { f with ntime := f.ntime + 1, time := Function.update f.time f.ntime (some t) }

/-- Well-formed files: exactly the entries below `ntime` exist on the time axis. -/
def NcWF (f : NcFile K V) : Prop := ∀ i, (f.time i).isSome ↔ i < f.ntime

theorem append_spec (f : NcFile K V) (hf : NcWF f) (t : K) (kvs : List (String × V))
    (hk : ∀ kv ∈ kvs, kv.1 ∈ f.vars) :
    NcWF (f.append t kvs).1 ∧ (f.append t kvs).2 = none ∧
    (f.append t kvs).1.vars = f.vars ∧
    (f.append t kvs).1.ntime = f.ntime + 1 ∧
    (f.append t kvs).1.time = Function.update f.time f.ntime (some t) ∧
    (f.append t kvs).1.bounds = Function.update f.bounds f.ntime
      (some ((if f.ntime = 0 then 0 else (f.time (f.ntime - 1)).getD 0), t)) ∧
    (∀ k j, j ≠ f.ntime → (f.append t kvs).1.vals k j = f.vals k j) ∧
    (∀ k v, PyDict.get kvs.reverse k = some v → (f.append t kvs).1.vals k f.ntime = some v) := by
  have hw := writeVars_spec kvs (grown f t) f.ntime hk
  unfold NcFile.append
  simp only
  revert hw
  generalize NcFile.writeVars (grown f t) f.ntime kvs = x
  obtain ⟨g, e⟩ := x
  rintro ⟨h1, h2, h3, h4, h5, h6, h7⟩
  simp only at h1 h2 h3 h4 h5 h6 h7
  subst h1
  have hprev : f.ntime ≠ 0 → ∃ a, f.time (f.ntime - 1) = some a := by
    intro h0
    exact Option.isSome_iff_exists.mp ((hf _).mpr (by omega))
  obtain ⟨b, hbd⟩ : ∃ b, b = Function.update f.bounds f.ntime
      (some ((if f.ntime = 0 then 0 else (f.time (f.ntime - 1)).getD 0), t)) := ⟨_, rfl⟩
  have hb : g.setBounds = { g with bounds := b } := by
    rw [hbd]
    unfold NcFile.setBounds
    simp only [h3, h4, h5, Nat.add_sub_cancel, Function.update_self]
    by_cases h0 : f.ntime = 0
    · simp [h0]
    · obtain ⟨a, ha⟩ := hprev h0
      have : f.ntime - 1 ≠ f.ntime := by omega
      simp [h0, this, ha]
  simp only [hb]
  refine ⟨?_, trivial, h2, h3, h4, hbd, h6, ?_⟩
  · intro i
    simp only [h3, h4]
    by_cases hi : i = f.ntime
    · subst hi; simp
    · rw [Function.update_of_ne hi, hf i]; omega
  · intro k v hv
    simp only [h7, hv, Option.some_or]

/-- C29: appending any list of records (naming only existing variables) to a new file gives a file
whose time axis has exactly the given times in order, whose time bounds of record `i` are the time
of record `i-1` (0 for the first) and of record `i`, and whose records hold the given values. -/
theorem C29_append_only (vars : List String) (rs : List (K × List (String × V)))
    (hk : ∀ r ∈ rs, ∀ kv ∈ r.2, kv.1 ∈ vars) :
    let f := appendAll (NcFile.create vars : NcFile K V) rs
    f.ntime = rs.length ∧
    (∀ i, f.time i = (rs[i]?).map Prod.fst) ∧
    (∀ i (r : K × List (String × V)), rs[i]? = some r →
      f.bounds i = some ((if i = 0 then 0 else ((rs[i - 1]?).map Prod.fst).getD 0), r.1) ∧
      ∀ k v, PyDict.get r.2.reverse k = some v → f.vals k i = some v) := by
  suffices h : ∀ (rs done : List (K × List (String × V))) (f : NcFile K V),
      (∀ r ∈ rs, ∀ kv ∈ r.2, kv.1 ∈ vars) → f.vars = vars → f.ntime = done.length →
      (∀ i, f.time i = (done[i]?).map Prod.fst) →
      (∀ i (r : K × List (String × V)), done[i]? = some r →
        f.bounds i = some ((if i = 0 then 0 else ((done[i - 1]?).map Prod.fst).getD 0), r.1) ∧
        ∀ k v, PyDict.get r.2.reverse k = some v → f.vals k i = some v) →
      let g := appendAll f rs
      g.ntime = (done ++ rs).length ∧
      (∀ i, g.time i = ((done ++ rs)[i]?).map Prod.fst) ∧
      (∀ i (r : K × List (String × V)), (done ++ rs)[i]? = some r →
        g.bounds i = some ((if i = 0 then 0 else (((done ++ rs)[i - 1]?).map Prod.fst).getD 0), r.1)
        ∧ ∀ k v, PyDict.get r.2.reverse k = some v → g.vals k i = some v) by
    exact h rs [] (NcFile.create vars) hk rfl rfl (by simp [NcFile.create]) (by simp)
  intro rs
  induction rs with
  | nil =>
    intro done f _ _ h1 h2 h3
    rw [List.append_nil]; exact ⟨h1, h2, h3⟩
  | cons r rs ih =>
    obtain ⟨t, kvs⟩ := r
    intro done f hk hv h1 h2 h3
    have hwf : NcWF f := by
      intro i
      rw [h2 i, h1]
      simp
    obtain ⟨-, -, e3, e4, e5, e6, e7, e8⟩ := append_spec f hwf t kvs (by
      rw [hv]; exact hk _ List.mem_cons_self)
    have := ih (done ++ [(t, kvs)]) (f.append t kvs).1
      (fun r hr => hk r (List.mem_cons_of_mem _ hr)) (e3.trans hv) (by rw [e4, h1]; simp) ?_ ?_
    · rw [List.append_assoc] at this; exact this
    · intro i
      rw [e5]
      by_cases hi : i = f.ntime
      · rw [hi, h1]; simp
      · rw [Function.update_of_ne hi, h2 i]
        rw [h1] at hi
        rcases lt_or_gt_of_ne hi with hlt | hgt
        · rw [List.getElem?_append_left hlt]
        · rw [List.getElem?_eq_none (by omega), List.getElem?_eq_none (by simp; omega)]
    · intro i r hr
      by_cases hi : i = f.ntime
      · have hi' : i = done.length := hi.trans h1
        subst hi'
        simp only [List.getElem?_append_right le_rfl, Nat.sub_self, List.getElem?_cons_zero,
          Option.some.injEq] at hr
        subst hr
        constructor
        · rw [e6, ← hi, Function.update_self]
          by_cases h0 : done.length = 0
          · simp [h0]
          · rw [if_neg h0, if_neg h0, h2 (done.length - 1), List.getElem?_append_left (by omega)]
        · intro k v hv
          rw [hi]
          exact e8 k v hv
      · have hlt : i < done.length := by
          have := (List.getElem?_eq_some_iff.mp hr).1
          simp at this
          rw [h1] at hi
          omega
        rw [List.getElem?_append_left hlt] at hr
        obtain ⟨a1, a2⟩ := h3 i r hr
        constructor
        · rw [e6, Function.update_of_ne hi, a1]
          by_cases h0 : i = 0
          · simp [h0]
          · rw [if_neg h0, if_neg h0, List.getElem?_append_left (by omega)]
        · intro k v hv
          rw [e7 k i hi]
          exact a2 k v hv

/-- C29: an append never changes an earlier record, even one that fails because of an unknown
variable. -/
theorem C29_earlier_records_kept (f : NcFile K V) (hf : NcWF f) (t : K) (kvs : List (String × V))
    (i : ℕ) (hi : i < f.ntime) :
    (f.append t kvs).1.time i = f.time i ∧ (f.append t kvs).1.bounds i = f.bounds i ∧
      ∀ k, (f.append t kvs).1.vals k i = f.vals k i := by
  have key : ∀ (kvs : List (String × V)) (g : NcFile K V) (n : ℕ), i ≠ n →
      (g.writeVars n kvs).1.time = g.time ∧ (g.writeVars n kvs).1.bounds = g.bounds ∧
      (g.writeVars n kvs).1.ntime = g.ntime ∧ ∀ k, (g.writeVars n kvs).1.vals k i = g.vals k i := by
    intro kvs
    induction kvs with
    | nil => intro g n _; simp [NcFile.writeVars]
    | cons kv kvs ih =>
      intro g n hn
      obtain ⟨k, v⟩ := kv
      simp only [NcFile.writeVars]
      split
      · obtain ⟨a, b, c, d⟩ := ih
          { g with vals := Function.update g.vals k (Function.update (g.vals k) n (some v)) } n hn
        refine ⟨a, b, c, fun k' => ?_⟩
        rw [d k']
        by_cases hkk : k' = k
        · subst hkk; simp [hn]
        · simp [hkk]
      · exact ⟨rfl, rfl, rfl, fun _ => rfl⟩
  have hne : i ≠ f.ntime := by omega
  obtain ⟨a, b, c, d⟩ := key kvs (grown f t) f.ntime hne
  unfold NcFile.append
  simp only
  revert a b c d
  generalize NcFile.writeVars (grown f t) f.ntime kvs = x
  obtain ⟨g, e⟩ := x
  intro a b c d
  simp only at a b c d
  have htime : g.time i = f.time i := by rw [a]; simp [hne]
  cases e with
  | some e => exact ⟨htime, by rw [b], d⟩
  | none =>
    have hsb : (g.setBounds).time = g.time ∧ (g.setBounds).vals = g.vals ∧
        (g.setBounds).bounds i = g.bounds i := by
      unfold NcFile.setBounds
      simp only [c, Nat.add_sub_cancel]
      split
      · exact ⟨rfl, rfl, by simp [hne]⟩
      · exact ⟨rfl, rfl, rfl⟩
    refine ⟨by simp only [hsb.1, htime], by simp only [hsb.2.2, b], fun k => ?_⟩
    simp only [hsb.2.1]; exact d k

/-- C29: a record with an unknown variable raises a key error; by then the time and the variables before it have been written,
the time bounds and the variables after it not. -/
theorem C29_unknown_variable (f : NcFile K V) (t : K) (pre post : List (String × V)) (k : String) (v : V)
    (hpre : ∀ kv ∈ pre, kv.1 ∈ f.vars) (hk : k ∉ f.vars) :
    (f.append t (pre ++ (k, v) :: post)).2 = some .keyError ∧
      (f.append t (pre ++ (k, v) :: post)).1.ntime = f.ntime + 1 ∧
      (f.append t (pre ++ (k, v) :: post)).1.time f.ntime = some t ∧
      (f.append t (pre ++ (k, v) :: post)).1.bounds = f.bounds ∧
      (∀ k' v', PyDict.get pre.reverse k' = some v' →
        (f.append t (pre ++ (k, v) :: post)).1.vals k' f.ntime = some v') ∧
      ∀ k', PyDict.get pre.reverse k' = none →
        (f.append t (pre ++ (k, v) :: post)).1.vals k' = f.vals k' := by
  have key : ∀ (l : List (String × V)) (g : NcFile K V) (n : ℕ), g.vars = f.vars → (∀ kv ∈ l, kv.1 ∈ f.vars) →
      g.writeVars n (l ++ (k, v) :: post) = ((g.writeVars n l).1, some .keyError) := by
    intro l
    induction l with
    | nil =>
      intro g n hg _
      have : k ∉ g.vars := by rw [hg]; exact hk
      simp [NcFile.writeVars, this]
    | cons kv l ih =>
      intro g n hg hl
      obtain ⟨k1, v1⟩ := kv
      have h1 : k1 ∈ g.vars := by rw [hg]; exact hl _ List.mem_cons_self
      simp only [List.cons_append, NcFile.writeVars, h1, if_true]
      exact ih _ n hg fun kv hkv => hl kv (List.mem_cons_of_mem _ hkv)
  have hw := writeVars_spec pre (grown f t) f.ntime hpre
  have e : f.append t (pre ++ (k, v) :: post) = (((grown f t).writeVars f.ntime pre).1, some .keyError) := by
    unfold NcFile.append
    simp only
    rw [key pre (grown f t) f.ntime rfl hpre]
  rw [e]
  obtain ⟨-, h2, h3, h4, h5, h6, h7⟩ := hw
  refine ⟨rfl, h3, by rw [h4]; simp, h5, ?_, ?_⟩
  · intro k' v' h
    rw [h7, h]
    rfl
  · intro k' h
    funext j
    by_cases hj : j = f.ntime
    · rw [hj, h7, h]; rfl
    · exact h6 k' j hj

example : ∀ r ∈ ([(0, [("zb", 5)]), (60, [("zb", 6)])] : List (ℚ × List (String × ℕ))),
    ∀ kv ∈ r.2, kv.1 ∈ ["zb"] := by simp

end Netcdf

/-! ### C30 -/

/-- The spellings of an output: `<name>`, `<name>_<statistic>` or the deprecated
`<name>.<statistic>` (which must not contain an underscore). -/
inductive Spells : List Char → List Char → Option (List Char) → Prop where
  | plain (n) : '_' ∉ n → '.' ∉ n → Spells n n none
  | underscore (v s) : '_' ∉ v → '_' ∉ s → Spells (v ++ '_' :: s) v (some s)
  | dot (v s) : '_' ∉ v → '_' ∉ s → '.' ∉ v → '.' ∉ s → Spells (v ++ '.' :: s) v (some s)

theorem splitName_iff (n v : List Char) (x : Option (List Char)) :
    splitName n = .ok (v, x) ↔ Spells n v x := by
  have hmap : ∀ (sep : Char), ((splitTwo sep n).map fun r => (r.1, some r.2)) = .ok (v, x) ↔
      ∃ s, x = some s ∧ n = v ++ sep :: s ∧ sep ∉ v ∧ sep ∉ s := by
    intro sep
    constructor
    · intro h
      cases hs : splitTwo sep n with
      | error e => rw [hs] at h; cases h
      | ok r =>
        obtain ⟨a, b⟩ := r
        rw [hs] at h
        simp only [Except.map] at h
        cases h
        exact ⟨b, rfl, (splitTwo_eq_ok sep n v b).mp hs⟩
    · rintro ⟨s, rfl, h⟩
      rw [(splitTwo_eq_ok sep n v s).mpr h]; rfl
  unfold splitName
  by_cases hu : '_' ∈ n
  · rw [if_pos hu, hmap]
    constructor
    · rintro ⟨s, rfl, rfl, h1, h2⟩
      exact Spells.underscore v s h1 h2
    · intro h
      cases h with
      | plain n h1 h2 => exact absurd hu h1
      | underscore v s h1 h2 => exact ⟨s, rfl, rfl, h1, h2⟩
      | dot v s h1 h2 h3 h4 => simp [h1, h2] at hu
  · rw [if_neg hu]
    by_cases hd : '.' ∈ n
    · rw [if_pos hd, hmap]
      constructor
      · rintro ⟨s, rfl, rfl, h1, h2⟩
        simp at hu
        exact Spells.dot v s hu.1 hu.2 h1 h2
      · intro h
        cases h with
        | plain n h1 h2 => exact absurd hd h2
        | underscore v s h1 h2 => simp at hu
        | dot v s h1 h2 h3 h4 => exact ⟨s, rfl, rfl, h3, h4⟩
    · rw [if_neg hd]
      constructor
      · intro h; cases h; exact Spells.plain n hu hd
      · intro h
        cases h with
        | plain n h1 h2 => rfl
        | underscore v s h1 h2 => simp at hu
        | dot v s h1 h2 h3 h4 => simp at hd

/-- `Spells` is a partial function: a name spells at most one output. -/
theorem Spells.unique {n v v' : List Char} {x x' : Option (List Char)} (h : Spells n v x)
    (h' : Spells n v' x') : v = v' ∧ x = x' := by
  have a := (splitName_iff n v x).mpr h
  have b := (splitName_iff n v' x').mpr h'
  rw [a] at b
  cases b
  exact ⟨rfl, rfl⟩

theorem mem_addNew {α : Type*} [DecidableEq α] (l : List α) (x y : α) :
    y ∈ addNew l x ↔ y ∈ l ∨ y = x := by
  unfold addNew; split
  · rename_i h
    constructor
    · exact Or.inl
    · rintro (h1 | rfl)
      · exact h1
      · exact h
  · simp

theorem nodup_addNew {α : Type*} [DecidableEq α] (l : List α) (x : α) (h : l.Nodup) :
    (addNew l x).Nodup := by
  unfold addNew; split
  · exact h
  · rename_i hx
    rw [List.nodup_append]
    refine ⟨h, by simp, ?_⟩
    intro a ha b hb e
    rw [List.mem_singleton] at hb
    exact hx (hb ▸ e ▸ ha)

theorem foldl_addNew (types : List (List Char)) (l : List (Option (List Char))) :
    (∀ y, y ∈ types.foldl (fun l t => addNew l (some t)) l ↔ y ∈ l ∨ ∃ t ∈ types, y = some t) ∧
    (l.Nodup → (types.foldl (fun l t => addNew l (some t)) l).Nodup) := by
  induction types generalizing l with
  | nil => simp
  | cons t ts ih =>
    obtain ⟨h1, h2⟩ := ih (addNew l (some t))
    constructor
    · intro y
      simp only [List.foldl_cons]
      rw [h1 y, mem_addNew]
      constructor
      · rintro ((h | h) | ⟨u, hu, h⟩)
        · exact Or.inl h
        · exact Or.inr ⟨t, List.mem_cons_self, h⟩
        · exact Or.inr ⟨u, List.mem_cons_of_mem _ hu, h⟩
      · rintro (h | ⟨u, hu, h⟩)
        · exact Or.inl (Or.inl h)
        · rcases List.mem_cons.mp hu with rfl | hu
          · exact Or.inl (Or.inr h)
          · exact Or.inr ⟨u, hu, h⟩
    · intro h
      exact h2 (nodup_addNew l _ h)

/-- C30: for every list of requested variables and statistics, the output table has an entry for
exactly the requested variables; the entry lists, each once, exactly the statistics (or plain
value) with which the variable is mentioned and all generally requested statistics. -/
theorem C30_output_table (types names : List (List Char))
    (tbl : PyDict (List Char) (List (Option (List Char))))
    (h : outputTable types [] names = .ok tbl) :
    (∀ v, v ∈ tbl.keys ↔ ∃ n ∈ names, ∃ x, Spells n v x) ∧ tbl.keys.Nodup ∧
    ∀ v l, tbl.get v = some l → l.Nodup ∧
      ∀ x, x ∈ l ↔ (∃ n ∈ names, Spells n v x) ∨ ∃ t ∈ types, x = some t := by
  suffices key : ∀ (rest done : List (List Char))
      (t0 tbl : PyDict (List Char) (List (Option (List Char)))),
      ((∀ v, v ∈ t0.keys ↔ ∃ n ∈ done, ∃ x, Spells n v x) ∧ t0.keys.Nodup ∧
        ∀ v l, t0.get v = some l → l.Nodup ∧
          ∀ x, x ∈ l ↔ (∃ n ∈ done, Spells n v x) ∨ ∃ t ∈ types, x = some t) →
      outputTable types t0 rest = .ok tbl →
      ((∀ v, v ∈ tbl.keys ↔ ∃ n ∈ done ++ rest, ∃ x, Spells n v x) ∧ tbl.keys.Nodup ∧
        ∀ v l, tbl.get v = some l → l.Nodup ∧
          ∀ x, x ∈ l ↔ (∃ n ∈ done ++ rest, Spells n v x) ∨ ∃ t ∈ types, x = some t) by
    have := key names [] [] tbl (by simp [PyDict.keys]) h
    simpa using this
  clear h
  intro rest
  induction rest with
  | nil =>
    intro done t0 tbl h0 h
    cases h
    simpa using h0
  | cons n rest ih =>
    intro done t0 tbl h0 h
    unfold outputTable at h
    cases ht : tableAdd types t0 n with
    | error e => rw [ht] at h; cases h
    | ok t1 =>
      rw [ht] at h
      simp only at h
      have := ih (done ++ [n]) t1 tbl ?_ h
      · simpa [List.append_assoc] using this
      unfold tableAdd at ht
      cases hs : splitName n with
      | error e => rw [hs] at ht; cases ht
      | ok r =>
        obtain ⟨v0, x0⟩ := r
        rw [hs] at ht
        simp only [Except.map] at ht
        have ht := Except.ok.inj ht
        subst ht
        have hsp := (splitName_iff n v0 x0).mp hs
        obtain ⟨a, b, c⟩ := h0
        refine ⟨?_, PyDict.nodup_set _ _ _ b, ?_⟩
        · intro v
          rw [PyDict.mem_keys_set, a v]
          constructor
          · rintro (rfl | ⟨m, hm, x, hx⟩)
            · exact ⟨n, by simp, x0, hsp⟩
            · exact ⟨m, by simp [hm], x, hx⟩
          · rintro ⟨m, hm, x, hx⟩
            rcases List.mem_append.mp hm with hm | hm
            · exact Or.inr ⟨m, hm, x, hx⟩
            · rw [List.mem_singleton] at hm; subst hm
              exact Or.inl (hx.unique hsp).1
        · intro v l hl
          rw [PyDict.get_set] at hl
          by_cases hv : v = v0
          · subst hv
            rw [if_pos rfl] at hl
            have hl := Option.some.inj hl
            subst hl
            obtain ⟨f1, f2⟩ := foldl_addNew types (addNew ((t0.get v).getD []) x0)
            have hold : ((t0.get v).getD []).Nodup ∧ ∀ x, x ∈ (t0.get v).getD [] →
                (∃ m ∈ done, Spells m v x) ∨ ∃ t ∈ types, x = some t := by
              cases hg : t0.get v with
              | none => simp
              | some l0 => exact ⟨(c v l0 hg).1, fun x hx => ((c v l0 hg).2 x).mp hx⟩
            refine ⟨f2 (nodup_addNew _ _ hold.1), ?_⟩
            intro x
            rw [f1 x, mem_addNew]
            constructor
            · rintro ((hx | rfl) | hx)
              · rcases hold.2 x hx with ⟨m, hm, hx⟩ | hx
                · exact Or.inl ⟨m, by simp [hm], hx⟩
                · exact Or.inr hx
              · exact Or.inl ⟨n, by simp, hsp⟩
              · exact Or.inr hx
            · rintro (⟨m, hm, hx⟩ | hx)
              · rcases List.mem_append.mp hm with hm | hm
                · have hk : v ∈ t0.keys := (a v).mpr ⟨m, hm, x, hx⟩
                  rw [PyDict.mem_keys_iff] at hk
                  obtain ⟨l0, hg⟩ := Option.isSome_iff_exists.mp hk
                  rw [hg]
                  exact Or.inl (Or.inl (((c v l0 hg).2 x).mpr (Or.inl ⟨m, hm, hx⟩)))
                · rw [List.mem_singleton] at hm; subst hm
                  exact Or.inl (Or.inr (hx.unique hsp).2)
              · exact Or.inr hx
          · rw [if_neg hv] at hl
            obtain ⟨c1, c2⟩ := c v l hl
            refine ⟨c1, ?_⟩
            intro x
            rw [c2 x]
            constructor
            · rintro (⟨m, hm, hx⟩ | hx)
              · exact Or.inl ⟨m, by simp [hm], hx⟩
              · exact Or.inr hx
            · rintro (⟨m, hm, hx⟩ | hx)
              · rcases List.mem_append.mp hm with hm | hm
                · exact Or.inl ⟨m, hm, hx⟩
                · rw [List.mem_singleton] at hm; subst hm
                  exact absurd (hx.unique hsp).1 hv
              · exact Or.inr hx

/-- C30: the request is rejected exactly when some name is not of one of the three spellings (for
instance with two underscores). -/
theorem C30_rejected_iff (types names : List (List Char)) :
    (∃ e, outputTable types [] names = .error e) ↔ ∃ n ∈ names, ¬ ∃ v x, Spells n v x := by
  suffices key : ∀ (rest : List (List Char)) (t0 : PyDict (List Char) (List (Option (List Char)))),
      (∃ e, outputTable types t0 rest = .error e) ↔ ∃ n ∈ rest, ¬ ∃ v x, Spells n v x from
    key names []
  intro rest
  induction rest with
  | nil => intro t0; simp [outputTable]
  | cons n rest ih =>
    intro t0
    unfold outputTable tableAdd
    cases hs : splitName n with
    | error e =>
      simp only [Except.map]
      constructor
      · intro _
        refine ⟨n, List.mem_cons_self, ?_⟩
        rintro ⟨v, x, hx⟩
        rw [(splitName_iff n v x).mpr hx] at hs
        cases hs
      · intro _; exact ⟨e, rfl⟩
    | ok r =>
      obtain ⟨v, x⟩ := r
      simp only [Except.map]
      rw [ih]
      have hsp := (splitName_iff n v x).mp hs
      constructor
      · rintro ⟨m, hm, h⟩; exact ⟨m, List.mem_cons_of_mem _ hm, h⟩
      · rintro ⟨m, hm, h⟩
        rcases List.mem_cons.mp hm with rfl | hm
        · exact absurd ⟨v, x, hsp⟩ h
        · exact ⟨m, hm, h⟩

example : ∃ tbl, outputTable ["max".toList] [] ["zb".toList, "zb_avg".toList, "Ct.sum".toList]
    = .ok tbl ∧ tbl.get "zb".toList = some [none, some "max".toList, some "avg".toList] :=
  ⟨_, rfl, by decide⟩

/-! ### C31 -/

/-- C31: a name without underscore and dot resolves as in the base model. -/
theorem C31_plain_name (outputs : List (List Char)) (n : List Char) (h1 : '_' ∉ n)
    (h2 : '.' ∉ n) : resolveName outputs n = .base n := by
  simp [resolveName, resolveDot, h1, h2]

/-- C31: `<grid>_<stat>` (and the deprecated `<grid>.<stat>`) of an output grid resolves to that
statistic. -/
theorem C31_statistic (outputs : List (List Char)) (v s : List Char) (hv : v ∈ outputs)
    (h1 : '_' ∉ v) (h2 : '_' ∉ s) :
    resolveName outputs (v ++ '_' :: s) = .statistic v s ∧
    ('.' ∉ v → '.' ∉ s → resolveName outputs (v ++ '.' :: s) = .statistic v s) := by
  constructor
  · unfold resolveName
    rw [if_pos (by simp), (splitTwo_eq_ok '_' _ v s).mpr ⟨rfl, h1, h2⟩]
    simp [hv]
  · intro h3 h4
    unfold resolveName resolveDot
    rw [if_neg (by simp [h1, h2]), if_pos (by simp),
      (splitTwo_eq_ok '.' _ v s).mpr ⟨rfl, h3, h4⟩]
    simp [hv]

/-- C31, where it fails: a grid or parameter whose own name contains one underscore is never
returned; the name resolves to the part before the underscore. -/
theorem C31_underscore_name_truncated (outputs : List (List Char)) (v s : List Char)
    (hv : v ∉ outputs) (h1 : '_' ∉ v) (h2 : '_' ∉ s) (h3 : '.' ∉ v) :
    resolveName outputs (v ++ '_' :: s) = .base v := by
  unfold resolveName
  rw [if_pos (by simp), (splitTwo_eq_ok '_' _ v s).mpr ⟨rfl, h1, h2⟩]
  simp [hv, resolveDot, h3]

/-- C31, where it fails: every name with two or more underscores is an error. -/
theorem C31_two_underscores_error (outputs : List (List Char)) (a b c : List Char) :
    ∃ e, resolveName outputs (a ++ '_' :: (b ++ '_' :: c)) = .error e := by
  unfold resolveName
  rw [if_pos (by simp)]
  cases h : splitTwo '_' (a ++ '_' :: (b ++ '_' :: c)) with
  | error e => exact ⟨e, rfl⟩
  | ok r =>
    obtain ⟨v, s⟩ := r
    obtain ⟨h1, h2, h3⟩ := (splitTwo_eq_ok _ _ _ _).mp h
    exfalso
    have hc := congrArg (List.count '_') h1
    simp only [List.count_append, List.count_cons_self, List.count_eq_zero.mpr h2,
      List.count_eq_zero.mpr h3] at hc
    omega

/-- Parameter `dt_opt` is read as `dt`, grid `w_init` as `w`; `max_iter_ava` is an error. -/
example : resolveName ["zb".toList] "dt_opt".toList = .base "dt".toList ∧
    resolveName ["zb".toList] "w_init".toList = .base "w".toList ∧
    resolveName ["zb".toList] "max_iter_ava".toList = .error .valueError ∧
    resolveName ["zb".toList] "zb_avg".toList = .statistic "zb".toList "avg".toList := by
  decide

/-! ### A run with statistics -/

/-- A record before the first step, three steps. -/
def threeSteps : List (RunnerOp ℚ) := [.write, .step 2 60, .step 5 60, .step 8 60]

theorem threeSteps_ok : ∃ r, Runner.init.ops ⟨true, true, true, true, true⟩ true threeSteps = .ok r :=
  C27_steps_succeed_partial _ _ [] _ .write (by simp) rfl

theorem threeSteps_window : (window true threeSteps).values = [2, 5, 8] :=
  C26_run_window true [] [(2, 60), (5, 60), (8, 60)] (by norm_num) rfl rfl

example : ∃ r, Runner.init.ops ⟨true, true, true, true, true⟩ true threeSteps = .ok r ∧
    r.getStatistic "sum" = .value 15 ∧ r.getStatistic "avg" = .value (mean [2, 5, 8]) ∧
    r.getStatistic "var" = .value (variance [2, 5, 8]) ∧
    (∃ x, r.getStatistic "min" = .lower x ∧ IsMinOf x [2, 5, 8]) ∧ (∃ x, r.getStatistic "max" = .upper x ∧ IsMaxOf x [2, 5, 8]) := by
  obtain ⟨r, h⟩ := threeSteps_ok
  have h1 := C26_sum_and_average _ _ _ r h rfl
  have h2 := C26_variance _ _ _ r h rfl
  have h3 := C26_min_and_max _ _ _ r h
  rw [threeSteps_window] at h1 h2 h3
  exact ⟨r, h, h1.1.trans (by norm_num), h1.2.trans (by simp), h2.1.trans (by simp), h3.1 rfl, h3.2 rfl⟩

/-- Two records of one variable. -/
example : let f := appendAll (NcFile.create ["zb"] : NcFile ℚ ℕ) [(0, [("zb", 5)]), (60, [("zb", 6)])]
    f.ntime = 2 ∧ f.time 1 = some 60 ∧ f.bounds 1 = some (0, 60) ∧ f.vals "zb" 1 = some 6 := by
  have h := C29_append_only (V := ℕ) ["zb"] [((0 : ℚ), [("zb", 5)]), (60, [("zb", 6)])] (by simp)
  refine ⟨h.1, h.2.1 1, ?_, ?_⟩
  · simpa using (h.2.2 1 _ rfl).1
  · exact (h.2.2 1 _ rfl).2 "zb" 6 rfl

/-- Writing into the empty file leaves the (no) records as they are; writing into a file of one record keeps it. -/
example : let f := appendAll (NcFile.create ["zb"] : NcFile ℚ ℕ) [(0, [("zb", 5)])]
    NcWF f ∧ (f.append 60 [("zb", 6)]).1.vals "zb" 0 = f.vals "zb" 0 := by
  have hw : NcWF (appendAll (NcFile.create ["zb"] : NcFile ℚ ℕ) [(0, [("zb", 5)])]) := by
    have h := C29_append_only (V := ℕ) ["zb"] [((0 : ℚ), [("zb", 5)])] (by simp)
    intro i
    rw [h.2.1 i, h.1]
    simp
  exact ⟨hw, (C29_earlier_records_kept _ hw 60 [("zb", 6)] 0 (by rw [(C29_append_only (V := ℕ) ["zb"] [((0 : ℚ), [("zb", 5)])] (by simp)).1]; decide)).2.2 "zb"⟩

/-- The table of the example before holds exactly the variables named. -/
example (tbl : PyDict (List Char) (List (Option (List Char))))
    (h : outputTable ["max".toList] [] ["zb".toList, "zb_avg".toList, "Ct.sum".toList] = .ok tbl) :
    tbl.keys.Nodup ∧ ("zb".toList ∈ tbl.keys ↔ ∃ n ∈ ["zb".toList, "zb_avg".toList, "Ct.sum".toList], ∃ x, Spells n "zb".toList x) :=
  ⟨(C30_output_table _ _ _ h).2.1, (C30_output_table _ _ _ h).1 _⟩

example : resolveName ["zb".toList] "Ct".toList = .base "Ct".toList ∧
    resolveName ["zb".toList] ("zb".toList ++ '_' :: "avg".toList) = .statistic "zb".toList "avg".toList ∧
    resolveName ["zb".toList] ("dt".toList ++ '_' :: "opt".toList) = .base "dt".toList :=
  ⟨C31_plain_name _ _ (by decide) (by decide), (C31_statistic _ _ _ (by decide) (by decide) (by decide)).1,
    C31_underscore_name_truncated _ _ _ (by decide) (by decide) (by decide) (by decide)⟩

end Aeolis.Props
