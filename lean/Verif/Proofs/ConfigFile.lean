import Verif.Spec.ConfigFile
import Verif.Proofs.Config
import Verif.Proofs.PyDict

/-! Lemmas on the configuration file and backups. -/

namespace Aeolis.Config

open Aeolis.Spec

variable {T : Type}

theorem strip_head (s : Text) : (strip s).head? = (s.dropWhile isSpace).head? := by
  set w := s.dropWhile isSpace with hw
  have hst : strip s = (w.reverse.dropWhile isSpace).reverse := by unfold strip; rw [← hw]
  have hpre : strip s <+: w := by
    rw [hst]
    have : w.reverse.dropWhile isSpace <:+ w.reverse := List.dropWhile_suffix _
    have h2 := List.reverse_prefix.mpr this
    rwa [List.reverse_reverse] at h2
  obtain ⟨t, ht⟩ := hpre
  cases hs : strip s with
  | cons x v => rw [← ht, hs]; rfl
  | nil =>
    have h1 : w.reverse.dropWhile isSpace = [] := by
      rw [hst] at hs; simpa using hs
    rw [List.dropWhile_eq_nil_iff] at h1
    cases hw' : w with
    | nil => rfl
    | cons x v =>
      have hx : isSpace x = true := h1 x (by rw [hw']; simp)
      have hnot := List.head?_dropWhile_not isSpace s
      rw [← hw, hw'] at hnot
      simp only [List.head?_cons] at hnot
      rw [hx] at hnot
      simp at hnot

theorem comment_iff (line : Text) : ['%'].isPrefixOf (strip line) = true ↔ IsComment line := by
  have h1 : ['%'].isPrefixOf (strip line) = true ↔ (strip line).head? = some '%' := by
    cases strip line with
    | nil => simp [List.isPrefixOf]
    | cons x v =>
      simp only [List.isPrefixOf, Bool.and_true, beq_iff_eq, List.head?_cons, Option.some.injEq]
      exact eq_comm
  rw [h1, strip_head]
  constructor
  · intro h
    cases hd : line.dropWhile isSpace with
    | nil => rw [hd] at h; simp at h
    | cons x v =>
      rw [hd] at h
      simp only [List.head?_cons, Option.some.injEq] at h
      subst h
      refine ⟨line.takeWhile isSpace, v, ?_, fun c hc => List.mem_takeWhile_imp hc⟩
      rw [← hd, List.takeWhile_append_dropWhile]
  · rintro ⟨a, b, rfl, ha⟩
    rw [List.dropWhile_append_of_pos ha, List.dropWhile_cons_of_neg (by decide)]
    rfl

theorem exists_split_at {c : Char} {s : Text} (h : c ∈ s) : ∃ a b, c ∉ a ∧ s = a ++ c :: b := by
  induction s with
  | nil => simp at h
  | cons x xs ih =>
    by_cases hx : x = c
    · subst hx; exact ⟨[], xs, by simp, rfl⟩
    · rcases List.mem_cons.mp h with h | h
      · exact absurd h.symm hx
      · obtain ⟨a, b, ha, rfl⟩ := ih h
        exact ⟨x :: a, b, by rw [List.mem_cons, not_or]; exact ⟨Ne.symm hx, ha⟩, rfl⟩

theorem assigns_iff (line k v : Text) :
    (isAssignment line = true ∧ assignment line = some (k, v)) ↔ Assigns line k v := by
  unfold isAssignment
  rw [Bool.and_eq_true, List.contains_iff_mem, Bool.not_eq_true']
  constructor
  · rintro ⟨⟨h1, h2⟩, h3⟩
    refine ⟨?_, ?_⟩
    · rw [← comment_iff, h2]; simp
    · obtain ⟨key, b, hk, rfl⟩ := exists_split_at h1
      unfold assignment at h3
      rw [splitOn_append hk] at h3
      by_cases hb : '=' ∈ b
      · obtain ⟨val, r, hv, rfl⟩ := exists_split_at hb
        rw [splitOn_append hv] at h3
        simp only [Option.some.injEq, Prod.mk.injEq] at h3
        obtain ⟨rfl, rfl⟩ := h3
        exact ⟨key, '=' :: r, hk, hv, strip_spec key, rfl, Or.inr ⟨r, rfl⟩⟩
      · rw [splitOn_not_mem hb] at h3
        simp only [Option.some.injEq, Prod.mk.injEq] at h3
        obtain ⟨rfl, rfl⟩ := h3
        exact ⟨key, [], hk, hb, strip_spec key, by simp, Or.inl rfl⟩
  · rintro ⟨h1, key, rest, hk, hv, hs, rfl, hr⟩
    refine ⟨⟨by simp, ?_⟩, ?_⟩
    · rw [← comment_iff] at h1; exact Bool.eq_false_iff.mpr h1
    · unfold assignment
      rw [splitOn_append hk]
      rcases hr with rfl | ⟨r, rfl⟩
      · rw [List.append_nil, splitOn_not_mem hv]; simp only [stripped_unique hs]
      · rw [splitOn_append hv]; simp only [stripped_unique hs]

/-- A line that is read as an assignment assigns something. -/
theorem isAssignment_assigns {line : Text} (h : isAssignment line = true) : ∃ k v, Assigns line k v := by
  cases ha : assignment line with
  | some kv => exact ⟨kv.1, kv.2, (assigns_iff line kv.1 kv.2).mp ⟨h, ha⟩⟩
  | none =>
    exfalso
    have h' := h
    unfold isAssignment at h'
    rw [Bool.and_eq_true, List.contains_iff_mem] at h'
    obtain ⟨key, b, hk, rfl⟩ := exists_split_at h'.1
    unfold assignment at ha
    rw [splitOn_append hk] at ha
    cases hs : splitOn '=' b with
    | nil => exact absurd hs (splitOn_ne_nil _ _)
    | cons x l => rw [hs] at ha; simp at ha

theorem readLine_assigns (rf : ℚ → Text) (fs : Files T) (pf : Bool) (p : Conf T) {line k v : Text}
    (h : Assigns line k v) : readLine rf fs pf p line =
      match parseValue rf fs pf false v with
      | .error e => .error e
      | .ok x => .ok (PyDict.set p k x) := by
  obtain ⟨h1, h2⟩ := (assigns_iff line k v).mpr h
  unfold readLine
  rw [if_pos h1, h2]
  rfl

theorem readLine_other (rf : ℚ → Text) (fs : Files T) (pf : Bool) (p : Conf T) {line : Text}
    (h : ∀ k v, ¬ Assigns line k v) : readLine rf fs pf p line = .ok p := by
  unfold readLine
  rw [if_neg]
  intro h'
  obtain ⟨k, v, hkv⟩ := isAssignment_assigns h'
  exact h k v hkv

theorem readLines_cons (rf : ℚ → Text) (fs : Files T) (pf : Bool) (p : Conf T) (line : Text) (lines : List Text) :
    readLines rf fs pf p (line :: lines) =
      match readLine rf fs pf p line with
      | .error e => .error e
      | .ok q => readLines rf fs pf q lines := by
  unfold readLines
  rw [List.foldlM_cons]
  cases readLine rf fs pf p line <;> rfl

theorem readLines_append (rf : ℚ → Text) (fs : Files T) (pf : Bool) (p : Conf T) (l1 l2 : List Text) :
    readLines rf fs pf p (l1 ++ l2) =
      match readLines rf fs pf p l1 with
      | .error e => .error e
      | .ok q => readLines rf fs pf q l2 := by
  unfold readLines
  rw [List.foldlM_append]
  cases List.foldlM (m := Except PyErr) (readLine rf fs pf) p l1 <;> rfl

theorem readLine_get_other (rf : ℚ → Text) (fs : Files T) (pf : Bool) (p q : Conf T) {line k : Text}
    (h : ∀ v, ¬ Assigns line k v) (hr : readLine rf fs pf p line = .ok q) : PyDict.get q k = PyDict.get p k := by
  by_cases ha : ∃ k' v, Assigns line k' v
  · obtain ⟨k', v, ha⟩ := ha
    rw [readLine_assigns rf fs pf p ha] at hr
    cases hx : parseValue rf fs pf false v with
    | error e => rw [hx] at hr; simp at hr
    | ok x =>
      rw [hx] at hr
      simp only [Except.ok.injEq] at hr
      subst hr
      apply PyDict.get_set_of_ne
      rintro rfl
      exact h v ha
  · push Not at ha
    rw [readLine_other rf fs pf p ha] at hr
    simp only [Except.ok.injEq] at hr
    rw [hr]

theorem readLines_get_other (rf : ℚ → Text) (fs : Files T) (pf : Bool) (lines : List Text) (p q : Conf T) {k : Text}
    (h : ∀ l ∈ lines, ∀ v, ¬ Assigns l k v) (hr : readLines rf fs pf p lines = .ok q) :
    PyDict.get q k = PyDict.get p k := by
  induction lines generalizing p with
  | nil =>
    have : p = q := by simpa [readLines, pure, Except.pure] using hr
    rw [this]
  | cons line lines ih =>
    rw [readLines_cons] at hr
    cases hl : readLine rf fs pf p line with
    | error e => rw [hl] at hr; simp at hr
    | ok p1 =>
      rw [hl] at hr
      rw [ih p1 (fun l hl' => h l (List.mem_cons_of_mem _ hl')) hr,
        readLine_get_other rf fs pf p p1 (h line List.mem_cons_self) hl]

theorem exists_last {α : Type*} (P : α → Prop) (l : List α) (h : ∃ x ∈ l, P x) :
    ∃ pre x post, l = pre ++ x :: post ∧ P x ∧ ∀ y ∈ post, ¬ P y := by
  induction l with
  | nil => simp at h
  | cons a l ih =>
    by_cases hl : ∃ x ∈ l, P x
    · obtain ⟨pre, x, post, rfl, hx, hp⟩ := ih hl
      exact ⟨a :: pre, x, post, rfl, hx, hp⟩
    · push Not at hl
      obtain ⟨x, hx, hpx⟩ := h
      rcases List.mem_cons.mp hx with rfl | hx
      · exact ⟨[], x, l, rfl, hpx, hl⟩
      · exact absurd hpx (hl x hx)

/-- After the lines of the file, every parameter has the given value. -/
theorem readLines_given (rf : ℚ → Text) (fs : Files T) (hfs : fs [] = none) (pf : Bool) (lines : List Text)
    (p q : Conf T) (hr : readLines rf fs pf p lines = .ok q) (k : Text) (v : Option (Val T)) :
    PyDict.get q k = v ↔ Given rf fs pf p lines k v := by
  have key : ∀ pre line post w, lines = pre ++ line :: post → Assigns line k w →
      (∀ l ∈ post, ∀ u, ¬ Assigns l k u) → ∃ x, parseValue rf fs pf false w = .ok x ∧ PyDict.get q k = some x := by
    rintro pre line post w rfl ha hp
    rw [readLines_append] at hr
    cases h1 : readLines rf fs pf p pre with
    | error e => rw [h1] at hr; simp at hr
    | ok p1 =>
      rw [h1] at hr
      dsimp only at hr
      rw [readLines_cons, readLine_assigns rf fs pf p1 ha] at hr
      cases hx : parseValue rf fs pf false w with
      | error e => rw [hx] at hr; simp at hr
      | ok x =>
        rw [hx] at hr
        dsimp only at hr
        refine ⟨x, rfl, ?_⟩
        rw [readLines_get_other rf fs pf post _ q hp hr, PyDict.get_set_self]
  constructor
  · rintro rfl
    by_cases hex : ∃ l ∈ lines, ∃ u, Assigns l k u
    · obtain ⟨pre, line, post, hl, ⟨w, hw⟩, hp⟩ := exists_last _ lines hex
      have hp' : ∀ l ∈ post, ∀ u, ¬ Assigns l k u := fun l hl' u hu => hp l hl' ⟨u, hu⟩
      obtain ⟨x, hx, hg⟩ := key pre line post w hl hw hp'
      exact Or.inl ⟨pre, line, post, w, x, hl, hw, hp', (parseValue_iff rf fs hfs pf false w _).mp hx, hg⟩
    · push Not at hex
      exact Or.inr ⟨hex, readLines_get_other rf fs pf lines p q hex hr⟩
  · rintro (⟨pre, line, post, w, x, hl, hw, hp, hd, rfl⟩ | ⟨h, rfl⟩)
    · obtain ⟨x', hx', hg⟩ := key pre line post w hl hw hp
      have := (parseValue_iff rf fs hfs pf false w _).mpr hd
      rw [hx'] at this
      simp only [Except.ok.injEq] at this
      rw [hg, this]
    · exact readLines_get_other rf fs pf lines p q h hr

/-- The lines can be read exactly if every assigned text is a value. -/
theorem readLines_ok_iff (rf : ℚ → Text) (fs : Files T) (pf : Bool) (lines : List Text) (p : Conf T) :
    (∃ q, readLines rf fs pf p lines = .ok q) ↔
      ∀ l ∈ lines, ∀ k v, Assigns l k v → ∃ x, parseValue rf fs pf false v = .ok x := by
  induction lines generalizing p with
  | nil => simp [readLines, pure, Except.pure]
  | cons line lines ih =>
    simp only [List.mem_cons, forall_eq_or_imp]
    rw [readLines_cons]
    by_cases ha : ∃ k v, Assigns line k v
    · obtain ⟨k, v, ha⟩ := ha
      rw [readLine_assigns rf fs pf p ha]
      cases hx : parseValue rf fs pf false v with
      | error e =>
        constructor
        · rintro ⟨q, hq⟩; simp at hq
        · rintro ⟨h, -⟩
          obtain ⟨x, h⟩ := h k v ha
          rw [hx] at h; simp at h
      | ok x =>
        dsimp only
        rw [ih]
        constructor
        · intro h
          refine ⟨?_, h⟩
          intro k' v' ha'
          have e1 := ((assigns_iff line k v).mpr ha).2
          have e2 := ((assigns_iff line k' v').mpr ha').2
          rw [e1] at e2
          simp only [Option.some.injEq, Prod.mk.injEq] at e2
          exact ⟨x, by rw [← e2.2]; exact hx⟩
        · exact fun h => h.2
    · push Not at ha
      rw [readLine_other rf fs pf p ha]
      dsimp only
      rw [ih]
      constructor
      · exact fun h => ⟨fun k v hkv => absurd hkv (ha k v), h⟩
      · exact fun h => h.2

theorem parseValue_error (rf : ℚ → Text) (fs : Files T) (hfs : fs [] = none) (pf fl : Bool) (s : Text) (e : PyErr)
    (h : parseValue rf fs pf fl s = .error e) : e = .valueError := by
  unfold parseValue at h
  dsimp only at h
  split_ifs at h
  · split at h
    · rename_i e' he'
      simp only [Except.error.injEq] at h
      subst h
      exact mapM_error_value _ .valueError (fun a e' h => parseScalar_error h) _ _ he'
    · simp at h
  · cases hx : parseScalar fs pf (strip (cutComment s)) with
    | error e' =>
      rw [hx] at h
      simp only [Except.map, Except.error.injEq] at h
      subst h
      exact parseScalar_error hx
    | ok x => rw [hx] at h; simp [Except.map] at h

theorem readLines_error (rf : ℚ → Text) (fs : Files T) (hfs : fs [] = none) (pf : Bool) (lines : List Text)
    (p : Conf T) (e : PyErr) (h : readLines rf fs pf p lines = .error e) : e = .valueError := by
  induction lines generalizing p with
  | nil => simp [readLines, pure, Except.pure] at h
  | cons line lines ih =>
    rw [readLines_cons] at h
    by_cases ha : ∃ k v, Assigns line k v
    · obtain ⟨k, v, ha⟩ := ha
      rw [readLine_assigns rf fs pf p ha] at h
      cases hx : parseValue rf fs pf false v with
      | error e' =>
        rw [hx] at h
        simp only [Except.error.injEq] at h
        subst h
        exact parseValue_error rf fs hfs pf false v _ hx
      | ok x => rw [hx] at h; exact ih _ h
    · push Not at ha
      rw [readLine_other rf fs pf p ha] at h
      exact ih _ h

/-- A default filled in. -/
theorem fillDefault_other (truth : T → Except PyErr Bool) (k : String) (value : Conf T → Except PyErr (Val T))
    {p q : Conf T} (h : fillDefault truth k value p = .ok q) {j : Text} (hj : j ≠ k.toList) :
    PyDict.get q j = PyDict.get p j := by
  unfold fillDefault at h
  cases hg : PyDict.get p k.toList with
  | none => rw [hg] at h; simp only [Except.ok.injEq] at h; rw [h]
  | some v =>
    rw [hg] at h
    dsimp only at h
    cases ht : truthy truth v with
    | error e => rw [ht] at h; simp at h
    | ok b =>
      rw [ht] at h
      cases b with
      | true => simp only [Except.ok.injEq] at h; rw [h]
      | false =>
        dsimp only at h
        cases hv : value p with
        | error e => rw [hv] at h; simp at h
        | ok w =>
          rw [hv] at h
          simp only [Except.ok.injEq] at h
          rw [← h, PyDict.get_set_of_ne _ _ hj]

theorem fillDefault_self (truth : T → Except PyErr Bool) (k : String) (value : Conf T → Except PyErr (Val T))
    {p q : Conf T} (h : fillDefault truth k value p = .ok q) :
    (PyDict.get p k.toList = none → PyDict.get q k.toList = none) ∧
    (∀ v, PyDict.get p k.toList = some v → truthy truth v = .ok true → PyDict.get q k.toList = some v) ∧
    (∀ v, PyDict.get p k.toList = some v → truthy truth v = .ok false →
      ∃ w, value p = .ok w ∧ PyDict.get q k.toList = some w) := by
  unfold fillDefault at h
  refine ⟨?_, ?_, ?_⟩
  · intro hg
    rw [hg] at h
    simp only [Except.ok.injEq] at h
    rw [← h, hg]
  · intro v hg ht
    rw [hg] at h
    dsimp only at h
    rw [ht] at h
    simp only [Except.ok.injEq] at h
    rw [← h, hg]
  · intro v hg ht
    rw [hg] at h
    dsimp only at h
    rw [ht] at h
    dsimp only at h
    cases hv : value p with
    | error e => rw [hv] at h; simp at h
    | ok w =>
      rw [hv] at h
      simp only [Except.ok.injEq] at h
      exact ⟨w, rfl, by rw [← h, PyDict.get_set_self]⟩

theorem grainArrays_get {p q : Conf T} (h : grainArrays p = .ok q) (j : Text) :
    PyDict.get q j =
      if PyDict.get p "grain_dist".toList ≠ none ∧ (j = "grain_dist".toList ∨ j = "grain_size".toList) then
        (PyDict.get p j).map makeIterable
      else PyDict.get p j := by
  unfold grainArrays at h
  cases hd : PyDict.get p "grain_dist".toList with
  | none =>
    rw [hd] at h
    simp only [Except.ok.injEq] at h
    rw [h]; simp
  | some d =>
    rw [hd] at h
    dsimp only at h
    rw [PyDict.get_set_of_ne _ _ (by decide)] at h
    cases hs : PyDict.get p "grain_size".toList with
    | none => rw [hs] at h; simp at h
    | some g =>
      rw [hs] at h
      simp only [Except.ok.injEq] at h
      rw [← h]
      by_cases h1 : j = "grain_size".toList
      · subst h1
        rw [PyDict.get_set_self, if_pos ⟨by simp, Or.inr rfl⟩, hs]; rfl
      · rw [PyDict.get_set_of_ne _ _ h1]
        by_cases h2 : j = "grain_dist".toList
        · subst h2
          rw [PyDict.get_set_self, if_pos ⟨by simp, Or.inl rfl⟩, hd]; rfl
        · rw [PyDict.get_set_of_ne _ _ h2, if_neg]
          rintro ⟨-, h | h⟩
          · exact h2 h
          · exact h1 h

end Aeolis.Config
