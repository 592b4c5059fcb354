import Mathlib.Tactic.NormNum
import Mathlib.Tactic.FinCases
import Mathlib.Tactic.Linarith
import Mathlib.Data.Rat.Defs
import Mathlib.Algebra.Order.Ring.Rat
import Verif.Proofs.State

/-!
State access properties: C16 (immutable variables), C17 (set/get), C18 (enumeration),
C19 (shapes).
-/

set_option linter.unusedSectionVars false

namespace Aeolis.Props

open Aeolis.Spec Aeolis.PyDict

/-! ### C16 -/

section C16

variable {A : Type*}

/-- C16: after any sequence of assignments, `set_mutable` and `set_immutable` calls, for any
variables in any order, each variable has the value its own history of events prescribes: the first
assignment creates it, later ones take effect exactly while it is not locked. -/
theorem C16_assignments_respect_locks (ops : List (StateOp A)) (h : ∀ op ∈ ops, plain op)
    (k : String) :
    ((Store.empty : Store A).run ops).read k = (Var.missing.after (events k ops)).value := by
  rw [← Store.value_asVar, Store.asVar_run _ Store.wf_empty ops h]
  rfl

/-- What counts as leaving variable `k` locked: no `set_mutable(k)`, no `dict.update` containing `k`
and no in-place array operation. -/
def leavesLocked (k : String) : StateOp A → Prop
  | .setMutable j => j ≠ k
  | .update kvs => k ∉ kvs.map Prod.fst
  | .inPlace _ _ => False
  | _ => True

/-- C16: an existing immutable variable keeps its value through every sequence of assignments (to
it or to others), sharing assignments `s[j] = s[k]`, solver updates of other variables and lock
changes of other variables, starting from any reachable state. -/
theorem C16_immutable_keeps_value (pre ops : List (StateOp A)) (k : String) (a : A)
    (hread : ((Store.empty : Store A).run pre).read k = some a)
    (hlock : k ∉ ((Store.empty : Store A).run pre).m.ismutable)
    (hops : ∀ op ∈ ops, leavesLocked k op) :
    (((Store.empty : Store A).run pre).run ops).read k = some a := by
  have hwf := Store.wf_run _ Store.wf_empty pre
  generalize (Store.empty : Store A).run pre = s at *
  clear pre
  induction ops generalizing s with
  | nil => exact hread
  | cons op ops ih =>
    have hop := hops op List.mem_cons_self
    have hhas : s.m.has k = true := by
      rw [← Store.read_isSome s hwf, hread]; rfl
    refine ih (fun o ho => hops o (List.mem_cons_of_mem _ ho)) (s.step op) ?_ ?_
      (Store.wf_step s hwf op)
    · rw [← hread]
      cases op with
      | assign j v =>
        rw [Store.read_assign s hwf, if_neg]
        rintro ⟨rfl, h | h⟩
        · exact h hhas
        · exact hlock h
      | share j i =>
        simp only [Store.step]
        cases hi : s.m.d.get i with
        | none => rfl
        | some r =>
          refine Store.read_congr _ _ k hwf ?_ (fun _ _ _ => rfl)
          simp only [MState.get_setItem]
          rw [if_neg]
          rintro ⟨rfl, h | h⟩
          · exact h hhas
          · exact hlock h
      | inPlace j f => exact hop.elim
      | update kvs =>
        refine Store.read_congr _ _ k hwf ?_ ?_
        · simp only [Store.step, MState.update]
          exact get_update_of_not_mem _ _ _ (by rw [Store.alloc_keys]; exact hop)
        · intro r hr _
          exact List.getElem?_append_left hr
      | setMutable j => rfl
      | setImmutable j => exact Store.read_setImmutable s j k
    · cases op with
      | assign j v =>
        simp only [Store.step, MState.mem_setItem]
        rintro (⟨rfl, h | h⟩ | h)
        · exact h hhas
        · exact hlock h
        · exact hlock h
      | share j i =>
        simp only [Store.step]
        cases hi : s.m.d.get i with
        | none => exact hlock
        | some r =>
          simp only [MState.mem_setItem]
          rintro (⟨rfl, h | h⟩ | h)
          · exact h hhas
          · exact hlock h
          · exact hlock h
      | inPlace j f => exact hop.elim
      | update kvs => exact hlock
      | setMutable j =>
        simp only [Store.step, MState.mem_setMutable]
        rintro (h | h)
        · exact hop h.symm
        · exact hlock h
      | setImmutable j =>
        simp only [Store.step, MState.mem_setImmutable]
        exact fun h => hlock h.2

/-- C16, limit of the guarantee: an in-place array operation (`s['zb'] += dz` as the bed update and
avalanching do) changes the value of an immutable variable. -/
theorem C16_in_place_ignores_lock (pre : List (StateOp A)) (k : String) (a : A) (f : A → A)
    (hread : ((Store.empty : Store A).run pre).read k = some a) :
    (((Store.empty : Store A).run pre).step (.inPlace k f)).read k = some (f a) := by
  have hwf := Store.wf_run _ Store.wf_empty pre
  generalize (Store.empty : Store A).run pre = s at *
  unfold Store.read at hread
  cases hk : s.m.d.get k with
  | none => rw [hk] at hread; cases hread
  | some r =>
    rw [hk] at hread
    simp only [Option.bind_some] at hread
    have hg : (s.m.setItem k r).d.get k = some r := by
      rw [MState.get_setItem]; split
      · rfl
      · exact hk
    unfold Store.read
    simp only [Store.step, hk, hg, Option.bind_some]
    rw [List.getElem?_modify]
    simp [hread]

/-- C16, limit of the guarantee: the dictionary `update` with which the time step stores the solver
results overwrites an immutable variable. -/
theorem C16_update_ignores_lock (s : Store A) (k : String) (a : A) :
    (s.step (.update [(k, a)])).read k = some a := by
  unfold Store.read
  simp [Store.step, MState.update, Store.alloc]

/-- C16, limit of the guarantee: a variable first created by `update` cannot be assigned
afterwards, although it was never made immutable. -/
theorem C16_update_creates_locked (s : Store A) (k : String) (a b : A) (hwf : Store.WF s)
    (hm : k ∉ s.m.ismutable) :
    ((s.step (.update [(k, a)])).step (.assign k b)).read k = some a := by
  rw [Store.read_assign _ (Store.wf_step s hwf _), if_neg, C16_update_ignores_lock]
  rintro ⟨-, h | h⟩
  · apply h
    simp [MState.has, Store.step, MState.update, Store.alloc]
  · exact hm h

/-- The hypotheses are met: a variable loaded and locked, then assigned, survives; unlocked it takes
the next value. -/
example :
    let pre : List (StateOp ℕ) := [.assign "zb" 3, .assign "Hs" 1, .setImmutable "zb"]
    let ops : List (StateOp ℕ) := [.assign "zb" 7, .share "Hs" "zb", .update [("Ct", 4)],
      .setMutable "Hs", .assign "zb" 9]
    ((Store.empty.run pre).read "zb" = some 3) ∧ "zb" ∉ (Store.empty.run pre).m.ismutable ∧
    (∀ op ∈ ops, leavesLocked "zb" op) ∧ ((Store.empty.run pre).run ops).read "zb" = some 3 := by
  intro pre ops
  refine ⟨by decide, by decide, ?_, by decide⟩
  simp [ops, leavesLocked]

example : (Store.empty.run
    [.assign "zb" 3, .setImmutable "zb", .assign "zb" 4, .setMutable "zb", .assign "zb" 5]).read
      "zb" = some 5 := by decide

end C16

/-! ### C17 -/

section C17

variable {K : Type*} [Field K] [LinearOrder K]

/-- Names that address something: a grid, or else a parameter. -/
def isGrid (b : Bmi K) (n : String) : Prop := n ∈ b.s.d.keys

/-- See `isGrid`. -/
def isParam (b : Bmi K) (n : String) : Prop := n ∈ b.p.keys

theorem has_iff_isGrid (b : Bmi K) (n : String) : b.s.has n = true ↔ isGrid b n := by
  unfold isGrid MState.has; rw [mem_keys_iff]

/-- C17: a mutable grid set through the interface reads back as set (other than the two
concentrations). -/
theorem C17_set_get_grid (b : Bmi K) (n : String) (v : Val K) (hg : isGrid b n)
    (hm : n ∈ b.s.ismutable) (hc : n ≠ "Ct" ∧ n ≠ "Cu") :
    (b.setVar n v).getVar n = .ok (some v) := by
  have h := (has_iff_isGrid b n).mpr hg
  unfold Bmi.setVar Bmi.getVar
  simp [h, MState.get_setItem, hm, hc]

/-- C17: the concentrations read back divided by the acceleration factor. -/
theorem C17_set_get_concentration (b : Bmi K) (n : String) (sh : List ℕ) (d : List K) (acc : K)
    (hg : isGrid b n) (hm : n ∈ b.s.ismutable) (hc : n = "Ct" ∨ n = "Cu")
    (hacc : b.p.get "accfac" = some (.num acc)) (h0 : acc ≠ 0) :
    (b.setVar n (.arr sh d)).getVar n = .ok (some (.arr sh (d.map (· / acc)))) := by
  have h := (has_iff_isGrid b n).mpr hg
  unfold Bmi.setVar Bmi.getVar
  simp only [h, if_true, MState.get_setItem, hm, or_true, and_self, hacc, hc, Bmi.divide, h0,
    if_false, Except.map]

/-- C17: a parameter (not shadowed by a grid) reads back as set. -/
theorem C17_set_get_param (b : Bmi K) (n : String) (v : Val K) (hg : ¬ isGrid b n)
    (hp : isParam b n) : (b.setVar n v).getVar n = .ok (some v) := by
  have h : b.s.has n = false := by
    rw [← has_iff_isGrid] at hg; simpa using hg
  have hp' : (b.p.get n).isSome = true := by
    unfold isParam at hp; rwa [mem_keys_iff] at hp
  have hn : b.s.d.get n = none := by
    unfold MState.has at h; simpa using h
  unfold Bmi.setVar Bmi.getVar
  simp [h, hp', hn]

/-- C17: setting one name never changes what another name reads, unless the name set is the
acceleration factor parameter. -/
theorem C17_set_frame (b : Bmi K) (n m : String) (v : Val K) (hne : m ≠ n)
    (hacc : n ≠ "accfac" ∨ isGrid b n) : (b.setVar n v).getVar m = b.getVar m := by
  unfold Bmi.setVar
  split
  · unfold Bmi.getVar
    simp [MState.get_setItem, hne]
  · rename_i h
    split
    · have hna : n ≠ "accfac" := by
        rcases hacc with hacc | hacc
        · exact hacc
        · exact absurd ((has_iff_isGrid b n).mpr hacc) h
      unfold Bmi.getVar
      simp only [get_set_of_ne _ _ hne, get_set_of_ne _ _ (Ne.symm hna)]
    · rfl

/-- C17: setting an unknown name changes nothing and reading it yields nothing. -/
theorem C17_unknown_name (b : Bmi K) (n : String) (v : Val K) (hg : ¬ isGrid b n)
    (hp : ¬ isParam b n) : b.setVar n v = b ∧ b.getVar n = .ok none := by
  have h : b.s.has n = false := by
    rw [← has_iff_isGrid] at hg; simpa using hg
  have hn : b.s.d.get n = none := by
    unfold MState.has at h; simpa using h
  have hp' : b.p.get n = none := by
    unfold isParam at hp; rw [mem_keys_iff] at hp; simpa using hp
  unfold Bmi.setVar Bmi.getVar
  simp [h, hn, hp']

/-- C17: a grid shadows a parameter of the same name: setting it leaves all parameters alone. -/
theorem C17_grid_shadows_param (b : Bmi K) (n : String) (v : Val K) (hg : isGrid b n) :
    (b.setVar n v).p = b.p := by
  have h := (has_iff_isGrid b n).mpr hg
  unfold Bmi.setVar
  simp [h]

/-- C17: an immutable grid is not changed by setting it. -/
theorem C17_immutable_not_set (b : Bmi K) (n : String) (v : Val K) (hg : isGrid b n)
    (hm : n ∉ b.s.ismutable) : b.setVar n v = b := by
  have h := (has_iff_isGrid b n).mpr hg
  unfold Bmi.setVar
  simp [h, MState.setItem_frozen _ _ _ h hm]

/-- C17: shape and rank of a mutable grid are those of what was set last; a number has neither rows nor columns. -/
theorem C17_set_shape (b : Bmi K) (n : String) (hg : isGrid b n) (hm : n ∈ b.s.ismutable) :
    (∀ sh d, (b.setVar n (.arr sh d)).getVarShape n = .ok (some sh) ∧ (b.setVar n (.arr sh d)).getVarRank n = .ok (some sh.length)) ∧
    (∀ x, (b.setVar n (.num x)).getVarShape n = .ok (some []) ∧ (b.setVar n (.num x)).getVarRank n = .ok (some 0)) := by
  have h := (has_iff_isGrid b n).mpr hg
  have h' : ∀ v, (b.setVar n v).s.d.get n = some v := by
    intro v
    unfold Bmi.setVar
    simp [h, MState.get_setItem, hm]
  refine ⟨fun sh d => ?_, fun x => ?_⟩ <;>
  · unfold Bmi.getVarRank Bmi.getVarShape
    rw [h']
    exact ⟨rfl, rfl⟩

/-- A concrete interface object for which the hypotheses hold. -/
def exBmi : Bmi ℚ :=
  { s := ((MState.empty.setItem "zb" (.arr [1, 2] [0, 0])).setItem "Ct" (.arr [1] [0])).setImmutable
      "none"
    p := [("accfac", .num 2), ("tstop", .num 3600), ("zb", .text "bed.txt")] }

example : isGrid exBmi "zb" ∧ "zb" ∈ exBmi.s.ismutable ∧ isParam exBmi "tstop" ∧
    ¬ isGrid exBmi "tstop" ∧ isGrid exBmi "Ct" ∧ ¬ isGrid exBmi "foo" ∧ ¬ isParam exBmi "foo" ∧
    exBmi.p.get "accfac" = some (.num 2) := by
  refine ⟨by unfold isGrid; decide, by decide, by unfold isParam; decide,
    by unfold isGrid; decide, by unfold isGrid; decide, by unfold isGrid; decide,
    by unfold isParam; decide, rfl⟩

end C17

/-! ### C18 -/

section C18

variable {K : Type*} [Field K] [LinearOrder K]

/-- Dictionaries have distinct keys: every sequence of assignments keeps this. -/
theorem C18_keys_distinct (V : Type*) (kvs : List (String × V)) :
    (kvs.foldl (fun (s : MState V) kv => s.setItem kv.1 kv.2) MState.empty).d.keys.Nodup := by
  suffices h : ∀ s : MState V, s.d.keys.Nodup →
      (kvs.foldl (fun (s : MState V) kv => s.setItem kv.1 kv.2) s).d.keys.Nodup from
    h _ (by simp [MState.empty, keys])
  induction kvs with
  | nil => exact fun s h => h
  | cons kv kvs ih =>
    intro s h
    refine ih (s.setItem kv.1 kv.2) ?_
    unfold MState.setItem
    split
    · exact nodup_set _ _ _ h
    · exact h

/-- C18: the names reported for indices `0 .. count-1` are exactly the grid names, each exactly
once, in strictly increasing alphabetical order. -/
theorem C18_enumeration (b : Bmi K) (hd : b.s.d.keys.Nodup) :
    ∃ names : List String, names.length = b.getVarCount ∧ names.Perm b.s.d.keys ∧
      names.Pairwise (· < ·) ∧
      ∀ i : ℕ, i < b.getVarCount → ∃ n, names[i]? = some n ∧ b.getVarName i = .ok (some n) := by
  refine ⟨b.sortedNames, ?_, List.perm_insertionSort _ _, ?_, ?_⟩
  · exact (List.perm_insertionSort _ _).length_eq
  · have h1 : (b.sortedNames).Pairwise (· ≤ ·) := List.pairwise_insertionSort _ _
    have h2 : (b.sortedNames).Nodup := (List.perm_insertionSort _ _).nodup_iff.mpr hd
    exact (h1.and h2).imp fun h => lt_of_le_of_ne h.1 h.2
  · intro i hi
    have hl : b.sortedNames.length = b.getVarCount := (List.perm_insertionSort _ _).length_eq
    have hi' : i < b.sortedNames.length := by omega
    refine ⟨b.sortedNames[i], List.getElem?_eq_getElem hi', ?_⟩
    unfold Bmi.getVarName Bmi.pyIndex
    have h1 : ((b.s.d.keys.length : ℤ) > (i : ℤ)) := by
      unfold Bmi.getVarCount at hi; exact_mod_cast hi
    have h2 : ¬ ((i : ℤ) < 0) := by omega
    simp [h1, h2, hi', Except.map]

/-- C18: every grid name is reported at exactly one index in range. -/
theorem C18_every_name_once (b : Bmi K) (hd : b.s.d.keys.Nodup) (n : String) (hn : n ∈ b.s.d.keys) :
    ∃! i : ℕ, i < b.getVarCount ∧ b.getVarName i = .ok (some n) := by
  obtain ⟨names, hl, hp, hs, hi⟩ := C18_enumeration b hd
  obtain ⟨i, hin, hie⟩ := List.mem_iff_getElem.mp (hp.mem_iff.mpr hn)
  refine ⟨i, ⟨by omega, ?_⟩, ?_⟩
  · obtain ⟨m, hm, hm'⟩ := hi i (by omega)
    rw [List.getElem?_eq_getElem hin, hie] at hm
    cases hm; exact hm'
  · rintro j ⟨hj, hjn⟩
    obtain ⟨m, hm, hm'⟩ := hi j hj
    rw [hjn] at hm'
    cases hm'
    have hj' : j < names.length := by omega
    rw [List.getElem?_eq_getElem hj'] at hm
    simp only [Option.some.injEq] at hm
    have hnd : names.Nodup := hs.imp fun h => ne_of_lt h
    exact (List.Nodup.getElem_inj_iff hnd).mp (hm.trans hie.symm)

/-- C18: an index of `count` or more yields `-1` (here `none`), and setting by it changes
nothing. -/
theorem C18_out_of_range (b : Bmi K) (i : ℤ) (v : Val K) (h : (b.getVarCount : ℤ) ≤ i) :
    b.getVarName i = .ok none ∧ b.setVarIndex i v = .ok b := by
  have h' : b.getVarName i = .ok none := by
    unfold Bmi.getVarName
    rw [if_neg]
    unfold Bmi.getVarCount at h; omega
  exact ⟨h', by unfold Bmi.setVarIndex; rw [h']⟩

/-- C18: setting by index is setting by the name reported for that index. -/
theorem C18_set_by_index (b : Bmi K) (i : ℕ) (n : String) (v : Val K)
    (h : b.getVarName i = .ok (some n)) : b.setVarIndex i v = .ok (b.setVar n v) := by
  unfold Bmi.setVarIndex; rw [h]

/-- C18: negative indices count from the end as in Python lists; below `-count` the lookup and setting by index fail. -/
theorem C18_negative_index (b : Bmi K) (k : ℕ) (hk : 0 < k) (v : Val K) :
    (k ≤ b.getVarCount → b.getVarName (-k) = b.getVarName ((b.getVarCount - k : ℕ) : ℤ) ∧
      b.setVarIndex (-k) v = b.setVarIndex ((b.getVarCount - k : ℕ) : ℤ) v) ∧
    (b.getVarCount < k → b.getVarName (-k) = .error .indexError ∧ b.setVarIndex (-k) v = .error .indexError) := by
  have hl : b.sortedNames.length = b.getVarCount := (List.perm_insertionSort _ _).length_eq
  have hneg : (b.s.d.keys.length : ℤ) > -(k : ℤ) := by omega
  constructor
  · intro h
    have e : b.getVarName (-k) = b.getVarName ((b.getVarCount - k : ℕ) : ℤ) := by
      unfold Bmi.getVarName
      have h2 : (b.s.d.keys.length : ℤ) > ((b.getVarCount - k : ℕ) : ℤ) := by
        have : b.getVarCount = b.s.d.keys.length := rfl
        omega
      rw [if_pos hneg, if_pos h2]
      congr 1
      unfold Bmi.pyIndex
      have e : (-(k : ℤ)) + b.sortedNames.length = ((b.getVarCount - k : ℕ) : ℤ) := by omega
      simp only [if_pos (show -(k : ℤ) < 0 by omega), if_neg (show ¬ ((b.getVarCount - k : ℕ) : ℤ) < 0 by omega), e]
    exact ⟨e, by unfold Bmi.setVarIndex; rw [e]⟩
  · intro h
    have e : b.getVarName (-k) = .error .indexError := by
      unfold Bmi.getVarName Bmi.pyIndex
      rw [if_pos hneg]
      simp only [if_pos (show -(k : ℤ) < 0 by omega)]
      rw [if_pos (by omega)]
      rfl
    exact ⟨e, by unfold Bmi.setVarIndex; rw [e]⟩

example : exBmi.s.d.keys.Nodup ∧ exBmi.getVarCount = 2 ∧ exBmi.getVarName 0 = .ok (some "Ct") ∧
    exBmi.getVarName 1 = .ok (some "zb") := by
  refine ⟨by decide, by decide, by decide, by decide⟩

example : exBmi.getVarName (-1) = .ok (some "zb") ∧ exBmi.getVarName (-3) = .error .indexError := by
  refine ⟨by decide, by decide⟩

end C18

/-! ### C19 -/

section C19

/-- C19: no state variable is listed under two different dimension tuples, and every listed name
gets the dimensions it is listed under. -/
theorem C19_unique_dimensions :
    (∀ e ∈ modelState, ∀ n ∈ e.2, dimensions.get n = some e.1) ∧
    (∀ e₁ ∈ modelState, ∀ e₂ ∈ modelState, ∀ n ∈ e₁.2, n ∈ e₂.2 → e₁.1 = e₂.1) := by
  have h : ∀ e ∈ modelState, ∀ n ∈ e.2, dimensions.get n = some e.1 := by decide +kernel
  refine ⟨h, ?_⟩
  intro e₁ h₁ e₂ h₂ n hn₁ hn₂
  have a := h e₁ h₁ n hn₁
  have b := h e₂ h₂ n hn₂
  rw [a] at b
  exact Option.some.inj b

theorem createGrids_get {K : Type*} [Zero K] (p : Sizes) (l : PyDict String (List Dim))
    (hl : l.keys.Nodup) (s : MState (Val K)) (hs : ∀ n ∈ l.keys, s.has n = false) (n : String)
    (dims : List Dim) (h : l.get n = some dims) :
    (l.foldl (fun s e => s.setItem e.1
      (.arr (dims2shape p e.2) (List.replicate (dims2shape p e.2).prod 0))) s).d.get n =
      some (.arr (dims2shape p dims) (List.replicate (dims2shape p dims).prod 0)) := by
  have key : ∀ (l : PyDict String (List Dim)) (s : MState (Val K)), n ∉ l.keys →
      (l.foldl (fun s e => s.setItem e.1
        (.arr (dims2shape p e.2) (List.replicate (dims2shape p e.2).prod 0))) s).d.get n =
        s.d.get n := by
    intro l
    induction l with
    | nil => intro s _; rfl
    | cons e l ih =>
      intro s hn
      simp only [keys, List.map_cons, List.mem_cons, not_or] at hn
      rw [List.foldl_cons, ih _ (by simpa [keys] using hn.2), MState.get_setItem,
        if_neg (fun h => hn.1 h.1)]
  induction l generalizing s with
  | nil => simp at h
  | cons e l ih =>
    obtain ⟨k, d⟩ := e
    simp only [keys, List.map_cons, List.nodup_cons] at hl
    rw [List.foldl_cons]
    by_cases hk : k = n
    · subst hk
      have hd : d = dims := by unfold PyDict.get at h; simpa using h
      subst hd
      rw [key _ _ hl.1, MState.get_setItem, if_pos]
      refine ⟨rfl, Or.inl ?_⟩
      rw [hs k (by simp [keys])]; simp
    · have h' : PyDict.get l n = some dims := by unfold PyDict.get at h; simpa [hk] using h
      refine ih hl.2 _ ?_ h'
      intro m hm
      have hne : m ≠ k := by rintro rfl; exact hl.1 hm
      have := hs m (by simp only [keys, List.map_cons, List.mem_cons]; exact Or.inr hm)
      unfold MState.has at this ⊢
      rw [MState.get_setItem, if_neg (fun h => hne h.1)]
      exact this

/-- C19: for every grid size and every number of layers and fractions, initialisation gives each
documented variable an array of the shape its dimensions say (rows `ny+1`, columns `nx+1`, then
layers, then fractions), filled with zeros. -/
theorem C19_initial_shapes {K : Type*} [Field K] [LinearOrder K] (p : Sizes)
    (b : Bmi K) (hb : b.s = createGrids p MState.empty) :
    ∀ e ∈ modelState, ∀ n ∈ e.2,
      b.getVarShape n = .ok (some (e.1.map fun
        | .nx => p.nx + 1 | .ny => p.ny + 1 | .nlayers => p.nlayers
        | .nfractions => p.nfractions)) ∧
      b.getVarRank n = .ok (some e.1.length) ∧
      ∃ sh d, b.s.d.get n = some (.arr sh d) ∧ d.length = sh.prod ∧ ∀ x ∈ d, x = 0 := by
  intro e he n hn
  have hdim := C19_unique_dimensions.1 e he n hn
  have hnd : dimensions.keys.Nodup := by
    unfold dimensions
    suffices h : ∀ (l : List (String × List Dim)) (d : PyDict String (List Dim)), d.keys.Nodup →
        (PyDict.update d l).keys.Nodup from h _ [] (by simp [keys])
    intro l
    induction l with
    | nil => exact fun d h => h
    | cons x l ih => exact fun d h => ih _ (nodup_set _ _ _ h)
  have := createGrids_get (K := K) p dimensions hnd MState.empty
    (by intro m _; simp [MState.has, MState.empty]) n e.1 hdim
  have hget : b.s.d.get n = some (.arr (dims2shape p e.1)
      (List.replicate (dims2shape p e.1).prod 0)) := by rw [hb]; exact this
  have hsh : b.getVarShape n = .ok (some (dims2shape p e.1)) := by
    unfold Bmi.getVarShape; rw [hget]
  refine ⟨hsh, ?_, _, _, hget, by simp, ?_⟩
  · unfold Bmi.getVarRank; rw [hsh]; simp [Except.map, dims2shape]
  · intro x hx; exact (List.mem_replicate.mp hx).2

/-- C19: nothing but the documented variables exists after the grids are created. -/
theorem C19_only_documented {K : Type*} [Field K] [LinearOrder K] (p : Sizes) (n : String) :
    ((createGrids p MState.empty : MState (Val K)).has n = true) ↔ ∃ e ∈ modelState, n ∈ e.2 := by
  constructor
  · intro h
    have key : ∀ (l : PyDict String (List Dim)) (s : MState (Val K)), n ∉ l.keys →
        (l.foldl (fun s e => s.setItem e.1
          (.arr (dims2shape p e.2) (List.replicate (dims2shape p e.2).prod 0))) s).d.get n =
          s.d.get n := by
      intro l
      induction l with
      | nil => intro s _; rfl
      | cons e l ih =>
        intro s hn
        simp only [keys, List.map_cons, List.mem_cons, not_or] at hn
        rw [List.foldl_cons, ih _ (by simpa [keys] using hn.2), MState.get_setItem,
          if_neg (fun h => hn.1 h.1)]
    by_contra hc
    have hn : n ∉ dimensions.keys := by
      intro hn
      apply hc
      have hall : ∀ m ∈ dimensions.keys, ∃ e ∈ modelState, m ∈ e.2 := by decide +kernel
      exact hall n hn
    have := key dimensions MState.empty hn
    unfold createGrids MState.has at h
    rw [this] at h
    simp [MState.empty] at h
  · rintro ⟨e, he, hn⟩
    obtain ⟨-, -, sh, d, h, -⟩ := C19_initial_shapes (K := K) p ⟨createGrids p MState.empty, []⟩
      (by simp only) e he n hn
    unfold MState.has
    rw [show (createGrids p MState.empty : MState (Val K)).d.get n = _ from h, Option.isSome_some]

/-- `mass` of a 4 by 3 grid with 3 layers and 2 fractions. -/
example : (⟨createGrids ⟨3, 2, 3, 2⟩ MState.empty, []⟩ : Bmi ℚ).getVarShape "mass" =
    .ok (some [3, 4, 3, 2]) :=
  (C19_initial_shapes ⟨3, 2, 3, 2⟩ ⟨createGrids ⟨3, 2, 3, 2⟩ MState.empty, []⟩ (by simp only)
    ([.ny, .nx, .nlayers, .nfractions], ["mass"]) (by simp [modelState, modelStateTable]) "mass"
    (by simp)).1

end C19

/-- C19: the documented variables: fields of the grid (bed, water and groundwater, wind and stresses, vegetation, ...), of grid and fractions, of
grid and layers, and the mass per cell, layer and fraction. -/
theorem C19_documented {K : Type*} [Field K] [LinearOrder K] (p : Sizes) (b : Bmi K) (hb : b.s = createGrids p MState.empty) :
    (∀ n ∈ ["x", "y", "ds", "dn", "dsdn", "dsdni", "zb", "zs", "zne", "zb0", "zdry", "dzdry", "dzb", "dzbyear", "dzbavg", "S", "moist",
        "moist_swr", "h_delta", "gw", "gw_prev", "wetting", "scan_w", "scan_d", "scan_w_moist", "scan_d_moist", "w_h", "d_h", "w_hdelta",
        "d_hdelta", "zsep", "hsep", "theta_stat", "theta_dyn", "rhoveg", "drhoveg", "hveg", "dhveg", "dzbveg", "germinate", "lateral",
        "vegfac", "fence_height", "R", "eta", "sigma_s", "TWL", "SWL", "DSWL", "Rti", "uw", "uws", "uwn", "tau", "taus", "taun", "tau0",
        "taus0", "taun0", "taus_u", "taun_u", "dtaus", "dtaun", "ustar", "ustars", "ustarn", "ustar0", "ustars0", "ustarn0", "udir",
        "Hs", "Hsmix", "Tp"], b.getVarShape n = .ok (some [p.ny + 1, p.nx + 1])) ∧
    (∀ n ∈ ["Cu", "Cuf", "Cu0", "Ct", "q", "qs", "qn", "pickup", "w", "w_init", "w_air", "w_bed", "uth", "uthf", "uth0", "u", "us", "un",
        "u0"], b.getVarShape n = .ok (some [p.ny + 1, p.nx + 1, p.nfractions])) ∧
    (∀ n ∈ ["thlyr", "salt"], b.getVarShape n = .ok (some [p.ny + 1, p.nx + 1, p.nlayers])) ∧
    b.getVarShape "mass" = .ok (some [p.ny + 1, p.nx + 1, p.nlayers, p.nfractions]) := by
  have key : ∀ (l : List String) (dims : List Dim), (∀ n ∈ l, dimensions.get n = some dims) →
      ∀ n ∈ l, b.getVarShape n = .ok (some (dims.map fun
        | .nx => p.nx + 1 | .ny => p.ny + 1 | .nlayers => p.nlayers | .nfractions => p.nfractions)) := by
    intro l dims hl n hn
    have hget : dimensions.get n = some dims := hl n hn
    have hk : n ∈ dimensions.keys := (PyDict.mem_keys_iff _ _).mpr (by rw [hget]; rfl)
    have hkeys : ∀ n ∈ dimensions.keys, ∃ e ∈ modelState, n ∈ e.2 := by decide +kernel
    obtain ⟨e, he, hne⟩ := hkeys n hk
    have h1 := C19_unique_dimensions.1 e he n hne
    rw [hget] at h1
    cases h1
    exact (C19_initial_shapes p b hb e he n hne).1
  refine ⟨key _ [.ny, .nx] (by decide +kernel), key _ [.ny, .nx, .nfractions] (by decide +kernel),
    key _ [.ny, .nx, .nlayers] (by decide +kernel), key ["mass"] [.ny, .nx, .nlayers, .nfractions] (by decide +kernel) _ (by simp)⟩

end Aeolis.Props
