import Verif.Proofs.ConfigFile

/-! The configuration file: C03, C04, C05, C06. -/

set_option linter.unusedSectionVars false

namespace Aeolis.Props

open Aeolis.Spec Aeolis.Config

variable {T : Type}

/-- The steps of a successful reading. -/
theorem readConfig_steps {reprFloat : ℚ → Text} {fs : Files T} {truth : T → Except PyErr Bool} {parseFiles : Bool}
    {defaults p : Conf T} {configfile : Text} {lines : List Text}
    (h : readConfig reprFloat fs truth parseFiles defaults configfile (some lines) = .ok p) :
    ∃ p0 p1 p2 p3 p4, readLines reprFloat fs parseFiles defaults lines = .ok p0 ∧ grainArrays p0 = .ok p1 ∧
      fillDefault truth "output_file" (fun _ => .ok (.scalar (.str (outputName configfile)))) p1 = .ok p2 ∧
      fillDefault truth "h" (fun p => lookup p "z") p2 = .ok p3 ∧
      fillDefault truth "process_fences" (fun _ => .ok (.scalar (.bool false))) p3 = .ok p4 ∧
      fillDefault truth "nsavetimes" (fun p => do quotient (← lookup p "dzb_interval") (← lookup p "dt")) p4 = .ok p := by
  unfold readConfig at h
  dsimp only at h
  cases h0 : readLines reprFloat fs parseFiles defaults lines with
  | error e => rw [h0] at h; simp [bind, Except.bind] at h
  | ok p0 =>
    rw [h0] at h
    simp only [bind, Except.bind] at h
    unfold deriveDefaults at h
    simp only [bind, Except.bind] at h
    cases h1 : grainArrays p0 with
    | error e => rw [h1] at h; simp at h
    | ok p1 =>
      rw [h1] at h
      dsimp only at h
      cases h2 : fillDefault truth "output_file" (fun _ => .ok (.scalar (.str (outputName configfile)))) p1 with
      | error e => rw [h2] at h; simp at h
      | ok p2 =>
        rw [h2] at h
        dsimp only at h
        cases h3 : fillDefault truth "h" (fun p => lookup p "z") p2 with
        | error e => rw [h3] at h; simp at h
        | ok p3 =>
          rw [h3] at h
          dsimp only at h
          cases h4 : fillDefault truth "process_fences" (fun _ => .ok (.scalar (.bool false))) p3 with
          | error e => rw [h4] at h; simp at h
          | ok p4 =>
            rw [h4] at h
            exact ⟨p0, p1, p2, p3, p4, rfl, h1, h2, h3, h4, h⟩

/-- C03. After reading a file every parameter without derived value has the value of the last line assigning it, and its
default if no line does. -/
theorem C03_last_assignment (reprFloat : ℚ → Text) (fs : Files T) (hfs : fs [] = none) (truth : T → Except PyErr Bool)
    (parseFiles : Bool) (defaults p : Conf T) (configfile : Text) (lines : List Text)
    (h : readConfig reprFloat fs truth parseFiles defaults configfile (some lines) = .ok p) (k : Text)
    (hk : k ∉ derivedKeys) (v : Option (Config.Val T)) :
    PyDict.get p k = v ↔ Given reprFloat fs parseFiles defaults lines k v := by
  obtain ⟨p0, p1, p2, p3, p4, h0, h1, h2, h3, h4, h5⟩ := readConfig_steps h
  simp only [derivedKeys, List.mem_cons, List.not_mem_nil, or_false, not_or] at hk
  rw [← readLines_given reprFloat fs hfs parseFiles lines defaults p0 h0 k v,
    fillDefault_other truth _ _ h5 hk.2.2.2.2.2, fillDefault_other truth _ _ h4 hk.2.2.2.2.1,
    fillDefault_other truth _ _ h3 hk.2.2.2.1, fillDefault_other truth _ _ h2 hk.2.2.1, grainArrays_get h1,
    if_neg]
  rintro ⟨-, h | h⟩
  · exact hk.1 h
  · exact hk.2.1 h

/-- C03. A line that assigns nothing has no influence. -/
theorem C03_other_lines (reprFloat : ℚ → Text) (fs : Files T) (truth : T → Except PyErr Bool) (parseFiles : Bool)
    (defaults : Conf T) (configfile : Text) (pre post : List Text) (line : Text) (h : ∀ k v, ¬ Assigns line k v) :
    readConfig reprFloat fs truth parseFiles defaults configfile (some (pre ++ line :: post)) =
      readConfig reprFloat fs truth parseFiles defaults configfile (some (pre ++ post)) := by
  unfold readConfig
  dsimp only
  rw [readLines_append, readLines_append]
  cases readLines reprFloat fs parseFiles defaults pre with
  | error e => rfl
  | ok q =>
    dsimp only
    rw [readLines_cons, readLine_other reprFloat fs parseFiles q h]

/-- C03. Comment lines and lines without '=' assign nothing. -/
theorem C03_comments (line : Text) (h : IsComment line ∨ '=' ∉ line) (k v : Text) : ¬ Assigns line k v := by
  rintro ⟨h1, key, rest, -, -, -, rfl, -⟩
  rcases h with h | h
  · exact h1 h
  · simp at h

example : IsComment "   % dt = 10".toList := ⟨[' ', ' ', ' '], " dt = 10".toList, rfl, by decide⟩

/-- C03. A missing file is an error. -/
theorem C03_missing_file (reprFloat : ℚ → Text) (fs : Files T) (truth : T → Except PyErr Bool) (parseFiles : Bool)
    (defaults : Conf T) (configfile : Text) :
    readConfig reprFloat fs truth parseFiles defaults configfile none = .error .ioError := rfl

/-- C03. A file with an assignment of a text that is no value cannot be read. -/
theorem C03_invalid_value (reprFloat : ℚ → Text) (fs : Files T) (hfs : fs [] = none) (truth : T → Except PyErr Bool)
    (parseFiles : Bool) (defaults : Conf T) (configfile : Text) (lines : List Text) (line k v : Text)
    (h1 : line ∈ lines) (h2 : Assigns line k v)
    (h3 : ∀ x, ¬ EntryDenotes reprFloat fs parseFiles false v (.ok x)) :
    readConfig reprFloat fs truth parseFiles defaults configfile (some lines) = .error .valueError := by
  cases h : readLines reprFloat fs parseFiles defaults lines with
  | ok q =>
    exfalso
    obtain ⟨x, hx⟩ := (readLines_ok_iff reprFloat fs parseFiles lines defaults).mp ⟨q, h⟩ line h1 k v h2
    exact h3 x ((parseValue_iff reprFloat fs hfs parseFiles false v _).mp hx)
  | error e =>
    have := readLines_error reprFloat fs hfs parseFiles lines defaults e h
    subst this
    unfold readConfig
    dsimp only
    rw [h]
    rfl

/-- A configuration file of the examples. -/
def exampleLines : List Text :=
  ["%% settings".toList, "dt = 1800 % [s]".toList, "T = 1.0".toList, "wind_file=  wind.txt".toList,
    "dt = 3600.0".toList, "output_file =".toList, "remark".toList]

def exampleDefaults : Conf ℕ :=
  [("dt".toList, .scalar (.float 60)), ("output_file".toList, .scalar .none), ("nx".toList, .scalar (.int 0))]

def exampleTruth : ℕ → Except PyErr Bool := fun _ => .error .valueError

example : readConfig (fun _ => []) (fun f => if f = "wind.txt".toList then some (some 7) else none) exampleTruth true
    exampleDefaults "aeolis.txt".toList (some exampleLines) =
    .ok [("dt".toList, .scalar (.float 3600)), ("output_file".toList, .scalar (.str "aeolis.nc".toList)),
      ("nx".toList, .scalar (.int 0)), ("T".toList, .scalar (.float 1)), ("wind_file".toList, .scalar (.table 7))] := by
  decide +kernel

example : ¬ ("dt".toList ∈ derivedKeys) := by decide

/-- Whether a line is a comment is decided before its first '='. -/
theorem comment_prefix (key x y : Text) (h : IsComment (key ++ '=' :: x)) : IsComment (key ++ '=' :: y) := by
  rw [← comment_iff] at *
  have e : ∀ z : Text, (strip (key ++ '=' :: z)).head? = (List.dropWhile isSpace key ++ ['=']).head? := by
    intro z
    rw [strip_head]
    induction key with
    | nil => rw [List.nil_append, List.dropWhile_cons_of_neg (by decide)]; rfl
    | cons c key ih =>
      by_cases hc : isSpace c = true
      · rw [List.cons_append, List.dropWhile_cons_of_pos hc, List.dropWhile_cons_of_pos hc]
        exact ih (by
          rw [comment_iff] at h ⊢
          obtain ⟨a, b, hab, ha⟩ := h
          cases a with
          | nil =>
            rw [List.cons_append, List.nil_append, List.cons.injEq] at hab
            rw [hab.1] at hc
            exact absurd hc (by decide)
          | cons a0 a =>
            rw [List.cons_append, List.cons_append, List.cons.injEq] at hab
            exact ⟨a, b, hab.2, fun d hd => ha d (List.mem_cons_of_mem _ hd)⟩)
      · rw [List.cons_append, List.dropWhile_cons_of_neg hc, List.dropWhile_cons_of_neg hc]
        rfl
  have key2 : ∀ s : Text, ['%'].isPrefixOf s = true ↔ s.head? = some '%' := by
    intro s
    cases s with
    | nil => simp [List.isPrefixOf]
    | cons x v =>
      simp only [List.isPrefixOf, Bool.and_true, beq_iff_eq, List.head?_cons, Option.some.injEq]
      exact eq_comm
  rw [key2] at *
  rw [e x] at h
  rw [e y, h]

theorem beforeSecond (t : Text) : ∃ v rest, '=' ∉ v ∧ t = v ++ rest ∧ (rest = [] ∨ ∃ r, rest = '=' :: r) := by
  by_cases h : '=' ∈ t
  · obtain ⟨a, b, ha, rfl⟩ := exists_split_at h
    exact ⟨a, '=' :: b, ha, rfl, Or.inr ⟨b, rfl⟩⟩
  · exact ⟨t, [], h, by simp, Or.inl rfl⟩

/-- Replacing a line by one with the same effect. -/
theorem readConfig_congr {reprFloat : ℚ → Text} {fs : Files T} (truth : T → Except PyErr Bool) {parseFiles : Bool}
    (defaults : Conf T) (configfile : Text) (pre post : List Text) {l1 l2 : Text}
    (h : ∀ q, readLine reprFloat fs parseFiles q l1 = readLine reprFloat fs parseFiles q l2) :
    readConfig reprFloat fs truth parseFiles defaults configfile (some (pre ++ l1 :: post)) =
      readConfig reprFloat fs truth parseFiles defaults configfile (some (pre ++ l2 :: post)) := by
  unfold readConfig
  dsimp only
  rw [readLines_append, readLines_append]
  cases readLines reprFloat fs parseFiles defaults pre with
  | error e => rfl
  | ok q =>
    dsimp only
    rw [readLines_cons, readLines_cons, h]

/-- C04. The text behind the first '%' after the equal sign has no influence. -/
theorem C04_comment (reprFloat : ℚ → Text) (fs : Files T) (truth : T → Except PyErr Bool) (parseFiles : Bool)
    (defaults : Conf T) (configfile : Text) (pre post : List Text) (key v comment : Text) (hk : '=' ∉ key)
    (hv : '=' ∉ v) (hp : '%' ∉ v) :
    readConfig reprFloat fs truth parseFiles defaults configfile
        (some (pre ++ (key ++ '=' :: (v ++ '%' :: comment)) :: post)) =
      readConfig reprFloat fs truth parseFiles defaults configfile (some (pre ++ (key ++ '=' :: v) :: post)) := by
  apply readConfig_congr
  intro q
  by_cases hc : IsComment (key ++ '=' :: v)
  · rw [readLine_other, readLine_other]
    · exact C03_comments _ (Or.inl hc)
    · exact C03_comments _ (Or.inl (comment_prefix key v _ hc))
  · obtain ⟨c, rest, h1, rfl, h3⟩ := beforeSecond comment
    have a1 : Assigns (key ++ '=' :: (v ++ '%' :: (c ++ rest))) (strip key) (v ++ '%' :: c) := by
      refine ⟨fun h => hc (comment_prefix key _ v h), key, rest, hk, ?_, strip_spec key, by simp, h3⟩
      rw [List.mem_append, List.mem_cons]
      rintro (h | h | h)
      · exact hv h
      · exact absurd h (by decide)
      · exact h1 h
    have a2 : Assigns (key ++ '=' :: v) (strip key) v :=
      ⟨hc, key, [], hk, hv, strip_spec key, by simp, Or.inl rfl⟩
    rw [readLine_assigns reprFloat fs parseFiles q a1, readLine_assigns reprFloat fs parseFiles q a2]
    have : parseValue reprFloat fs parseFiles false (v ++ '%' :: c) = parseValue reprFloat fs parseFiles false v := by
      unfold parseValue
      rw [beforeComment_unique (s := v ++ '%' :: c) ⟨hp, Or.inr ⟨c, rfl⟩⟩, cutComment_of_not_mem hp]
    rw [this]

/-- C04. The text behind a second '=' has no influence. -/
theorem C04_second_equal_sign (reprFloat : ℚ → Text) (fs : Files T) (truth : T → Except PyErr Bool) (parseFiles : Bool)
    (defaults : Conf T) (configfile : Text) (pre post : List Text) (key v tail : Text) (hk : '=' ∉ key)
    (hv : '=' ∉ v) :
    readConfig reprFloat fs truth parseFiles defaults configfile
        (some (pre ++ (key ++ '=' :: (v ++ '=' :: tail)) :: post)) =
      readConfig reprFloat fs truth parseFiles defaults configfile (some (pre ++ (key ++ '=' :: v) :: post)) := by
  apply readConfig_congr
  intro q
  by_cases hc : IsComment (key ++ '=' :: v)
  · rw [readLine_other, readLine_other]
    · exact C03_comments _ (Or.inl hc)
    · exact C03_comments _ (Or.inl (comment_prefix key v _ hc))
  · have a1 : Assigns (key ++ '=' :: (v ++ '=' :: tail)) (strip key) v :=
      ⟨fun h => hc (comment_prefix key _ v h), key, '=' :: tail, hk, hv, strip_spec key, rfl, Or.inr ⟨tail, rfl⟩⟩
    have a2 : Assigns (key ++ '=' :: v) (strip key) v :=
      ⟨hc, key, [], hk, hv, strip_spec key, by simp, Or.inl rfl⟩
    rw [readLine_assigns reprFloat fs parseFiles q a1, readLine_assigns reprFloat fs parseFiles q a2]

example : '=' ∉ "dt ".toList ∧ '=' ∉ " 60.0 ".toList ∧ '%' ∉ " 60.0 ".toList := by decide

/-- What counts as a missing value: None, false, zero, the empty text, and the empty list. -/
inductive Missing : Config.Val T → Prop
  | none : Missing (.scalar .none)
  | off : Missing (.scalar (.bool false))
  | zero : Missing (.scalar (.int 0))
  | zeroFloat : Missing (.scalar (.float 0))
  | text : Missing (.scalar (.str []))
  | list : Missing (.arr [])

/-- C05. Which values are replaced by the derived ones: the missing ones, and lists of a single missing one.  Tables count as their content, and lists of
several values are rejected; every other value is kept. -/
theorem C05_missing (truth : T → Except PyErr Bool) (v : Config.Val T) (ht : ∀ t, v ≠ .scalar (.table t) ∧ v ≠ .arr [.table t]) :
    (truthy truth v = .ok false ↔ Missing v ∨ ∃ x, v = .arr [x] ∧ Missing (.scalar x)) ∧
    (truthy truth v = .error .valueError ↔ ∃ x y l, v = .arr (x :: y :: l)) ∧
    (truthy truth v = .ok true ↔ ¬ (Missing v ∨ ∃ x, v = .arr [x] ∧ Missing (.scalar x)) ∧ ¬ ∃ x y l, v = .arr (x :: y :: l)) := by
  have scalar : ∀ x : Scalar T, (∀ t, x ≠ .table t) → ∃ b, truthy truth (.scalar x) = .ok b ∧ truthy truth (.arr [x]) = .ok b ∧
      (b = false ↔ Missing (.scalar x : Config.Val T)) := by
    intro x hx
    cases x with
    | none => exact ⟨false, rfl, rfl, by simpa using Missing.none⟩
    | bool b => exact ⟨b, rfl, rfl, ⟨fun h => by rw [h]; exact .off, fun h => by cases h; rfl⟩⟩
    | int i => exact ⟨_, rfl, rfl, ⟨fun h => by
        have : i = 0 := by simpa using h
        rw [this]; exact .zero, fun h => by cases h; rfl⟩⟩
    | float q => exact ⟨_, rfl, rfl, ⟨fun h => by
        have : q = 0 := by simpa using h
        rw [this]; exact .zeroFloat, fun h => by cases h; simp⟩⟩
    | str s => exact ⟨_, rfl, rfl, ⟨fun h => by
        have : s = [] := by simpa using h
        rw [this]; exact .text, fun h => by cases h; simp⟩⟩
    | table t => exact absurd rfl (hx t)
  match v with
  | .scalar x =>
    obtain ⟨b, h1, -, h2⟩ := scalar x fun t h => (ht t).1 (by rw [h])
    rw [h1]
    cases b <;> simp [← h2]
  | .arr [] => exact ⟨⟨fun _ => Or.inl .list, fun _ => rfl⟩, by simp [truthy], by simp [truthy, Missing.list]⟩
  | .arr [x] =>
    obtain ⟨b, -, h1, h2⟩ := scalar x fun t h => (ht t).2 (by rw [h])
    rw [h1]
    have : ¬ Missing (.arr [x] : Config.Val T) := by intro h; cases h
    cases b <;> simp [← h2, this]
  | .arr (x :: y :: l) =>
    have : ¬ Missing (.arr (x :: y :: l) : Config.Val T) := by intro h; cases h
    simp [truthy, this]

example : truthy (T := ℕ) (fun _ => .ok true) (.scalar (.str "out.nc".toList)) = .ok true ∧
    truthy (T := ℕ) (fun _ => .ok true) (.scalar (.float (-1))) = .ok true :=
  ⟨(C05_missing _ _ fun _ => by simp).2.2.mpr ⟨(by rintro (h | ⟨x, h, -⟩) <;> cases h), by simp⟩,
    (C05_missing _ _ fun _ => by simp).2.2.mpr ⟨(by rintro (h | ⟨x, h, -⟩) <;> cases h), by simp⟩⟩

/-- The number that a scalar stands for in arithmetic: truth values count as one and zero. -/
def StandsFor (v : Config.Val T) (q : ℚ) : Prop :=
  (∃ i : ℤ, v = .scalar (.int i) ∧ q = i) ∨ v = .scalar (.float q) ∨ (v = .scalar (.bool true) ∧ q = 1) ∨ (v = .scalar (.bool false) ∧ q = 0)

theorem number_of {v : Config.Val T} {q : ℚ} (h : StandsFor v q) : number v = some q := by
  rcases h with ⟨i, rfl, rfl⟩ | rfl | ⟨rfl, rfl⟩ | ⟨rfl, rfl⟩ <;> rfl

section Derived

variable (reprFloat : ℚ → Text) (fs : Files T) (hfs : fs [] = none) (truth : T → Except PyErr Bool)
  (parseFiles : Bool) (defaults p : Conf T) (configfile : Text) (lines : List Text)
  (h : readConfig reprFloat fs truth parseFiles defaults configfile (some lines) = .ok p)

include hfs h

/-- C05. The name of the output file: a given one is kept, otherwise it is that of the configuration file with
extension 'nc'. -/
theorem C05_output_file (v : Option (Config.Val T))
    (hv : Given reprFloat fs parseFiles defaults lines "output_file".toList v) :
    (v = none → PyDict.get p "output_file".toList = none) ∧
    (∀ x, v = some x → truthy truth x = .ok true → PyDict.get p "output_file".toList = some x) ∧
    (∀ x, v = some x → truthy truth x = .ok false →
      PyDict.get p "output_file".toList = some (.scalar (.str (outputName configfile)))) := by
  obtain ⟨p0, p1, p2, p3, p4, h0, h1, h2, h3, h4, h5⟩ := readConfig_steps h
  have e : PyDict.get p "output_file".toList = PyDict.get p2 "output_file".toList := by
    rw [fillDefault_other truth _ _ h5 (by decide), fillDefault_other truth _ _ h4 (by decide),
      fillDefault_other truth _ _ h3 (by decide)]
  have e1 : PyDict.get p1 "output_file".toList = v := by
    rw [grainArrays_get h1, if_neg (by rintro ⟨-, h | h⟩ <;> exact absurd h (by decide))]
    exact (readLines_given reprFloat fs hfs parseFiles lines defaults p0 h0 _ v).mpr hv
  obtain ⟨a, b, c⟩ := fillDefault_self truth _ _ h2
  rw [e1] at a b c
  rw [e]
  refine ⟨a, b, ?_⟩
  intro x hx ht
  obtain ⟨w, hw, hg⟩ := c x hx ht
  simp only [Except.ok.injEq] at hw
  rw [hg, hw]

/-- C05. The height `h`: a given one is kept, otherwise it is the value of `z`. -/
theorem C05_height (v z : Option (Config.Val T))
    (hv : Given reprFloat fs parseFiles defaults lines "h".toList v)
    (hz : Given reprFloat fs parseFiles defaults lines "z".toList z) :
    (v = none → PyDict.get p "h".toList = none) ∧
    (∀ x, v = some x → truthy truth x = .ok true → PyDict.get p "h".toList = some x) ∧
    (∀ x, v = some x → truthy truth x = .ok false → PyDict.get p "h".toList = z ∧ z ≠ none) := by
  obtain ⟨p0, p1, p2, p3, p4, h0, h1, h2, h3, h4, h5⟩ := readConfig_steps h
  have e : PyDict.get p "h".toList = PyDict.get p3 "h".toList := by
    rw [fillDefault_other truth _ _ h5 (by decide), fillDefault_other truth _ _ h4 (by decide)]
  have e1 : ∀ k v, k ≠ "grain_dist".toList → k ≠ "grain_size".toList → k ≠ "output_file".toList →
      Given reprFloat fs parseFiles defaults lines k v → PyDict.get p2 k = v := by
    intro k v k1 k2 k3 hg
    rw [fillDefault_other truth _ _ h2 k3, grainArrays_get h1,
      if_neg (by rintro ⟨-, h | h⟩; exacts [k1 h, k2 h])]
    exact (readLines_given reprFloat fs hfs parseFiles lines defaults p0 h0 _ v).mpr hg
  have ev := e1 _ v (by decide) (by decide) (by decide) hv
  have ez := e1 _ z (by decide) (by decide) (by decide) hz
  obtain ⟨a, b, c⟩ := fillDefault_self truth _ _ h3
  rw [ev] at a b c
  rw [e]
  refine ⟨a, b, ?_⟩
  intro x hx ht
  obtain ⟨w, hw, hg⟩ := c x hx ht
  unfold lookup at hw
  rw [ez] at hw
  cases z with
  | none => simp at hw
  | some z =>
    simp only [Except.ok.injEq] at hw
    rw [hg, hw]; simp

/-- C05. The number of save times: a given one is kept, otherwise it is the interval between bed changes divided by the
time step, rounded towards zero. -/
theorem C05_save_times (v : Option (Config.Val T)) (a b : Config.Val T) (x y : ℚ)
    (hv : Given reprFloat fs parseFiles defaults lines "nsavetimes".toList v)
    (ha : Given reprFloat fs parseFiles defaults lines "dzb_interval".toList (some a))
    (hb : Given reprFloat fs parseFiles defaults lines "dt".toList (some b))
    (hx : StandsFor a x) (hy : StandsFor b y) :
    (v = none → PyDict.get p "nsavetimes".toList = none) ∧
    (∀ w, v = some w → truthy truth w = .ok true → PyDict.get p "nsavetimes".toList = some w) ∧
    (∀ w, v = some w → truthy truth w = .ok false → y ≠ 0 ∧
      ∃ n : ℤ, PyDict.get p "nsavetimes".toList = some (.scalar (.int n)) ∧ (0 ≤ x / y → (n : ℚ) ≤ x / y ∧ x / y < n + 1) ∧
        (x / y < 0 → x / y ≤ n ∧ n - 1 < x / y)) := by
  obtain ⟨p0, p1, p2, p3, p4, h0, h1, h2, h3, h4, h5⟩ := readConfig_steps h
  have e1 : ∀ k v, k ≠ "grain_dist".toList → k ≠ "grain_size".toList → k ≠ "output_file".toList → k ≠ "h".toList →
      k ≠ "process_fences".toList → Given reprFloat fs parseFiles defaults lines k v → PyDict.get p4 k = v := by
    intro k v k1 k2 k3 k4 k5 hg
    rw [fillDefault_other truth _ _ h4 k5, fillDefault_other truth _ _ h3 k4, fillDefault_other truth _ _ h2 k3,
      grainArrays_get h1, if_neg (by rintro ⟨-, h | h⟩; exacts [k1 h, k2 h])]
    exact (readLines_given reprFloat fs hfs parseFiles lines defaults p0 h0 _ v).mpr hg
  have ev := e1 _ v (by decide) (by decide) (by decide) (by decide) (by decide) hv
  have ea := e1 _ _ (by decide) (by decide) (by decide) (by decide) (by decide) ha
  have eb := e1 _ _ (by decide) (by decide) (by decide) (by decide) (by decide) hb
  obtain ⟨A, B, C⟩ := fillDefault_self truth _ _ h5
  rw [ev] at A B C
  refine ⟨A, B, ?_⟩
  intro w hw ht
  obtain ⟨n, hn, hg⟩ := C w hw ht
  unfold lookup at hn
  rw [ea, eb] at hn
  simp only [bind, Except.bind] at hn
  unfold quotient at hn
  rw [number_of hx, number_of hy] at hn
  dsimp only at hn
  by_cases hy0 : y = 0
  · rw [if_pos hy0] at hn; simp at hn
  · rw [if_neg hy0] at hn
    simp only [Except.ok.injEq] at hn
    refine ⟨hy0, _, by rw [hg, ← hn], ?_, ?_⟩
    · intro hq
      rw [if_pos hq]
      exact ⟨Int.floor_le _, Int.lt_floor_add_one _⟩
    · intro hq
      rw [if_neg (not_le.mpr hq)]
      refine ⟨Int.le_ceil _, ?_⟩
      have := Int.ceil_lt_add_one (x / y)
      linarith

/-- C05. The switch for fences: anything without a true value is made false. -/
theorem C05_fences (v : Option (Config.Val T))
    (hv : Given reprFloat fs parseFiles defaults lines "process_fences".toList v) :
    (v = none → PyDict.get p "process_fences".toList = none) ∧
    (∀ x, v = some x → truthy truth x = .ok true → PyDict.get p "process_fences".toList = some x) ∧
    (∀ x, v = some x → truthy truth x = .ok false →
      PyDict.get p "process_fences".toList = some (.scalar (.bool false))) := by
  obtain ⟨p0, p1, p2, p3, p4, h0, h1, h2, h3, h4, h5⟩ := readConfig_steps h
  have e : PyDict.get p "process_fences".toList = PyDict.get p4 "process_fences".toList :=
    fillDefault_other truth _ _ h5 (by decide)
  have e1 : PyDict.get p3 "process_fences".toList = v := by
    rw [fillDefault_other truth _ _ h3 (by decide), fillDefault_other truth _ _ h2 (by decide),
      grainArrays_get h1, if_neg (by rintro ⟨-, h | h⟩ <;> exact absurd h (by decide))]
    exact (readLines_given reprFloat fs hfs parseFiles lines defaults p0 h0 _ v).mpr hv
  obtain ⟨a, b, c⟩ := fillDefault_self truth _ _ h4
  rw [e1] at a b c
  rw [e]
  refine ⟨a, b, ?_⟩
  intro x hx ht
  obtain ⟨w, hw, hg⟩ := c x hx ht
  simp only [Except.ok.injEq] at hw
  rw [hg, hw]

/-- C05. Grain sizes and distributions that are single values are made arrays of one item, arrays and tables are kept. -/
theorem C05_grains (k : Text) (hk : k = "grain_dist".toList ∨ k = "grain_size".toList) (d v : Config.Val T)
    (hd : Given reprFloat fs parseFiles defaults lines "grain_dist".toList (some d))
    (hv : Given reprFloat fs parseFiles defaults lines k (some v)) :
    (∀ x, v = .scalar x → x ≠ .none → (∀ t, x ≠ .table t) → PyDict.get p k = some (.arr [x])) ∧
    (v = .scalar .none → PyDict.get p k = some (.arr [])) ∧
    (∀ l, v = .arr l → PyDict.get p k = some (.arr l)) ∧
    (∀ t, v = .scalar (.table t) → PyDict.get p k = some (.scalar (.table t))) := by
  obtain ⟨p0, p1, p2, p3, p4, h0, h1, h2, h3, h4, h5⟩ := readConfig_steps h
  have gd := (readLines_given reprFloat fs hfs parseFiles lines defaults p0 h0 _ _).mpr hd
  have gv := (readLines_given reprFloat fs hfs parseFiles lines defaults p0 h0 _ _).mpr hv
  have e : PyDict.get p k = some (makeIterable v) := by
    rw [fillDefault_other truth _ _ h5 (by rcases hk with rfl | rfl <;> decide),
      fillDefault_other truth _ _ h4 (by rcases hk with rfl | rfl <;> decide),
      fillDefault_other truth _ _ h3 (by rcases hk with rfl | rfl <;> decide),
      fillDefault_other truth _ _ h2 (by rcases hk with rfl | rfl <;> decide), grainArrays_get h1,
      if_pos ⟨by rw [gd]; simp, hk⟩, gv]
    rfl
  rw [e]
  refine ⟨?_, ?_, ?_, ?_⟩
  · rintro x rfl h1 h2
    cases x with
    | none => exact absurd rfl h1
    | table t => exact absurd rfl (h2 t)
    | _ => rfl
  · rintro rfl; rfl
  · rintro l rfl; rfl
  · rintro t rfl; rfl

end Derived

/-- C05. The default output file: the extension of the configuration file is replaced. -/
theorem C05_output_name (dir stem ext : Text) (hd : dir = [] ∨ ∃ d, dir = d ++ ['/']) (hs : '/' ∉ stem)
    (hn : ∃ c ∈ stem, c ≠ '.') (h1 : '.' ∉ ext) (h2 : '/' ∉ ext) :
    outputName (dir ++ stem ++ '.' :: ext) = dir ++ stem ++ ".nc".toList := by
  unfold outputName
  congr 1
  unfold splitextRoot
  have hrev : (dir ++ stem ++ '.' :: ext).reverse = (ext.reverse ++ '.' :: stem.reverse) ++ dir.reverse := by simp
  have hbase : List.takeWhile (· ≠ '/') (dir ++ stem ++ '.' :: ext).reverse = ext.reverse ++ '.' :: stem.reverse := by
    rw [hrev, List.takeWhile_append_of_pos]
    · rcases hd with rfl | ⟨d, rfl⟩
      · simp
      · simp
    · intro c hc
      rw [List.mem_append, List.mem_cons, List.mem_reverse, List.mem_reverse] at hc
      simp only [ne_eq, decide_not, Bool.not_eq_eq_eq_not, Bool.not_true, decide_eq_false_iff_not]
      rintro rfl
      rcases hc with hc | hc | hc
      · exact h2 hc
      · exact absurd hc (by decide)
      · exact hs hc
  have hext : List.takeWhile (· ≠ '.') (ext.reverse ++ '.' :: stem.reverse) = ext.reverse := by
    rw [List.takeWhile_append_of_pos]
    · simp
    · intro c hc
      simp only [ne_eq, decide_not, Bool.not_eq_eq_eq_not, Bool.not_true, decide_eq_false_iff_not]
      rintro rfl
      exact h1 (List.mem_reverse.mp hc)
  dsimp only
  rw [hbase, hext]
  have hdrop : ∀ l : Text, List.drop (ext.reverse.length + 1) (ext.reverse ++ '.' :: l) = l := by
    intro l
    rw [List.drop_append]
    simp
  rw [hrev, List.append_assoc, List.cons_append, hdrop, hdrop, if_pos]
  · simp
  · rw [Bool.and_eq_true, List.contains_iff_mem, List.any_eq_true]
    obtain ⟨c, hc, hne⟩ := hn
    exact ⟨by simp, c, List.mem_reverse.mpr hc, by simpa using hne⟩

/-- C05. Without an extension the default output file is the configuration file with '.nc' behind it. -/
theorem C05_output_name_without_extension (dir stem : Text) (hd : dir = [] ∨ ∃ d, dir = d ++ ['/']) (hs : '/' ∉ stem)
    (hn : '.' ∉ stem) : outputName (dir ++ stem) = dir ++ stem ++ ".nc".toList := by
  unfold outputName
  congr 1
  unfold splitextRoot
  have hbase : List.takeWhile (· ≠ '/') (dir ++ stem).reverse = stem.reverse := by
    rw [List.reverse_append, List.takeWhile_append_of_pos]
    · rcases hd with rfl | ⟨d, rfl⟩
      · simp
      · simp
    · intro c hc
      simp only [ne_eq, decide_not, Bool.not_eq_eq_eq_not, Bool.not_true, decide_eq_false_iff_not]
      rintro rfl
      exact hs (List.mem_reverse.mp hc)
  dsimp only
  rw [hbase, if_neg]
  rw [Bool.and_eq_true, List.contains_iff_mem]
  rintro ⟨h, -⟩
  exact hn (List.mem_reverse.mp h)

example : outputName "runs/case.v2/aeolis.txt".toList = "runs/case.v2/aeolis.nc".toList := by decide

/-- C06. Arrays are the tables and the lists of values; a list has one dimension, so that no list is accepted as a table. -/
theorem C06_arrays (shape : T → List ℕ) (v : Config.Val T) :
    (isArray v = true ↔ (∃ t, v = .scalar (.table t)) ∨ ∃ l, v = .arr l) ∧ (∀ t, shapeOf shape (.scalar (.table t)) = shape t) ∧
      (∀ l : List (Scalar T), shapeOf shape (.arr l) = [l.length]) ∧
      (∀ columns (l : List (Scalar T)), checkTable shape columns (.arr l) = .error .valueError) := by
  refine ⟨?_, fun _ => rfl, fun _ => rfl, fun columns l => ?_⟩
  · match v with
    | .arr l => simp [isArray]
    | .scalar x => cases x <;> simp [isArray]
  · simp [checkTable, isArray, shapeOf]

example : isArray (.arr [.int 1, .int 2] : Config.Val ℕ) = true ∧ isArray (.scalar (.str "grid.txt".toList) : Config.Val ℕ) = false := by decide

/-- C06. The configuration check, with all parameters it looks at present and a number of rows that is a number: it
raises an error exactly if the x-grid or the bed is no array, or the y-grid is no array while there are rows, or one of
the tables that are arrays is not two-dimensional with enough columns. -/
theorem C06_check (shape : T → List ℕ) (p : Conf T) (x b y n w t m : Config.Val T) (rows : ℚ)
    (hx : PyDict.get p "xgrid_file".toList = some x) (hb : PyDict.get p "bed_file".toList = some b)
    (hy : PyDict.get p "ygrid_file".toList = some y) (hn : PyDict.get p "ny".toList = some n)
    (hw : PyDict.get p "wind_file".toList = some w) (ht : PyDict.get p "tide_file".toList = some t)
    (hm : PyDict.get p "meteo_file".toList = some m) (hr : StandsFor n rows) :
    let table := fun (v : Config.Val T) (columns : ℕ) =>
      isArray v = true → ∃ r c, shapeOf shape v = [r, c] ∧ columns ≤ c
    (checkConfig shape p = .ok () ↔
      isArray x = true ∧ isArray b = true ∧ (isArray y = true ∨ rows ≤ 0) ∧ table w 3 ∧ table t 2 ∧ table m 6) ∧
    (checkConfig shape p = .ok () ∨ checkConfig shape p = .error .valueError) := by
  intro table
  have hp : positive n = .ok (decide (0 < rows)) := by unfold positive; rw [number_of hr]
  have htab : ∀ v c, (checkTable shape c v = .ok () ∧ table v c) ∨ (checkTable shape c v = .error .valueError ∧ ¬ table v c) := by
    intro v c
    unfold checkTable
    by_cases hv : isArray v = true
    · rw [if_pos hv]
      split_ifs with h
      · right
        refine ⟨rfl, fun h' => ?_⟩
        obtain ⟨r, k, e, hk⟩ := h' hv
        rw [e] at h
        rcases h with h | h
        · exact h rfl
        · simp only [List.getD_cons_succ, List.getD_cons_zero] at h; omega
      · left
        refine ⟨rfl, fun _ => ?_⟩
        push Not at h
        obtain ⟨h1, h2⟩ := h
        match hs : shapeOf shape v, h1 with
        | [r, k], _ => rw [hs] at h2; exact ⟨r, k, rfl, h2⟩
    · rw [if_neg hv]
      exact Or.inl ⟨rfl, fun h => absurd h hv⟩
  unfold checkConfig lookup
  rw [hx, hb, hy, hn, hw, ht, hm]
  simp only [bind, Except.bind, hp]
  cases h1 : isArray x with
  | false => simp [throw, throwThe, MonadExceptOf.throw]
  | true =>
    cases h2 : isArray b with
    | false => simp [throw, throwThe, MonadExceptOf.throw]
    | true =>
      cases h3 : isArray y with
      | true =>
        simp only [Bool.not_true, Bool.false_eq_true, if_false, pure, Except.pure, true_or, true_and]
        rcases htab w 3 with ⟨e1, g1⟩ | ⟨e1, g1⟩
        · rcases htab t 2 with ⟨e2, g2⟩ | ⟨e2, g2⟩
          · rcases htab m 6 with ⟨e3, g3⟩ | ⟨e3, g3⟩
            · simp only [e1, e2, e3]; exact ⟨⟨fun _ => ⟨g1, g2, g3⟩, fun _ => trivial⟩, Or.inl trivial⟩
            · simp only [e1, e2, e3]; exact ⟨⟨fun h => by simp at h, fun h => absurd h.2.2 g3⟩, Or.inr trivial⟩
          · simp only [e1, e2]; exact ⟨⟨fun h => by simp at h, fun h => absurd h.2.1 g2⟩, Or.inr trivial⟩
        · simp only [e1]; exact ⟨⟨fun h => by simp at h, fun h => absurd h.1 g1⟩, Or.inr trivial⟩
      | false =>
        by_cases hrows : 0 < rows
        · simp [throw, throwThe, MonadExceptOf.throw, hrows, not_le.mpr hrows]
        · have : decide (0 < rows) = false := by simpa using hrows
          simp only [Bool.not_true, Bool.not_false, Bool.false_eq_true, if_false, if_true, pure, Except.pure, this,
            not_lt.mp hrows, or_true, true_and]
          rcases htab w 3 with ⟨e1, g1⟩ | ⟨e1, g1⟩
          · rcases htab t 2 with ⟨e2, g2⟩ | ⟨e2, g2⟩
            · rcases htab m 6 with ⟨e3, g3⟩ | ⟨e3, g3⟩
              · simp only [e1, e2, e3]; exact ⟨⟨fun _ => ⟨g1, g2, g3⟩, fun _ => trivial⟩, Or.inl trivial⟩
              · simp only [e1, e2, e3]; exact ⟨⟨fun h => by simp at h, fun h => absurd h.2.2 g3⟩, Or.inr trivial⟩
            · simp only [e1, e2]; exact ⟨⟨fun h => by simp at h, fun h => absurd h.2.1 g2⟩, Or.inr trivial⟩
          · simp only [e1]; exact ⟨⟨fun h => by simp at h, fun h => absurd h.1 g1⟩, Or.inr trivial⟩

/-- C06. A parameter that the check reaches and that is missing raises `KeyError`. -/
theorem C06_missing (shape : T → List ℕ) (p : Conf T) :
    (PyDict.get p "xgrid_file".toList = none → checkConfig shape p = .error .keyError) ∧
    (∀ x, PyDict.get p "xgrid_file".toList = some x → isArray x = true → PyDict.get p "bed_file".toList = none →
      checkConfig shape p = .error .keyError) ∧
    ∀ x b, PyDict.get p "xgrid_file".toList = some x → isArray x = true → PyDict.get p "bed_file".toList = some b → isArray b = true →
      (PyDict.get p "ygrid_file".toList = none → checkConfig shape p = .error .keyError) ∧
      (∀ y, PyDict.get p "ygrid_file".toList = some y → isArray y = false → PyDict.get p "ny".toList = none →
        checkConfig shape p = .error .keyError) ∧
      ∀ y, PyDict.get p "ygrid_file".toList = some y → isArray y = true → PyDict.get p "wind_file".toList = none →
        checkConfig shape p = .error .keyError := by
  unfold checkConfig lookup
  refine ⟨fun h => ?_, fun x h h1 h2 => ?_, fun x b h h1 h2 h3 => ⟨fun h4 => ?_, fun y h4 h5 h6 => ?_, fun y h4 h5 h6 => ?_⟩⟩
  · rw [h]; rfl
  · rw [h, h2]; simp only [bind, Except.bind, h1]; rfl
  · rw [h, h2, h4]; simp only [bind, Except.bind, h1, h3]; rfl
  · rw [h, h2, h4, h6]; simp only [bind, Except.bind, h1, h3, h5]; rfl
  · rw [h, h2, h4, h6]; simp only [bind, Except.bind, h1, h3, h5]; rfl

example : checkConfig id ([("bed_file".toList, .scalar (.table [3, 4]))] : Conf (List ℕ)) = .error .keyError := (C06_missing _ _).1 (by decide)

/-- A configuration that passes the check. -/
def checkedConfig : Conf (List ℕ) :=
  [("xgrid_file".toList, .scalar (.table [3, 4])), ("bed_file".toList, .scalar (.table [3, 4])),
    ("ygrid_file".toList, .scalar (.table [3, 4])), ("ny".toList, .scalar (.int 2)),
    ("wind_file".toList, .scalar (.table [10, 3])), ("tide_file".toList, .scalar (.str "tide.txt".toList)),
    ("meteo_file".toList, .scalar .none)]

example : checkConfig id checkedConfig = .ok () := by decide +kernel

/-- C06. The number of rows is the configured one, not that of the grid: with a two-dimensional x-grid and bed, no
y-grid, and the default number of rows, the check passes. -/
theorem C06_rows_of_the_grid_are_not_used :
    ∃ p : Conf (List ℕ), PyDict.get p "xgrid_file".toList = some (.scalar (.table [3, 4])) ∧
      PyDict.get p "bed_file".toList = some (.scalar (.table [3, 4])) ∧
      PyDict.get p "ygrid_file".toList = some (.scalar .none) ∧ checkConfig id p = .ok () :=
  ⟨[("xgrid_file".toList, .scalar (.table [3, 4])), ("bed_file".toList, .scalar (.table [3, 4])),
    ("ygrid_file".toList, .scalar .none), ("ny".toList, .scalar (.int 0)),
    ("wind_file".toList, .scalar (.table [10, 3])), ("tide_file".toList, .scalar .none),
    ("meteo_file".toList, .scalar .none)], by decide +kernel⟩

/-! ### A file with derived values -/

/-- One file with a table. -/
def windTable : Files ℕ := fun f => if f = "wind.txt".toList then some (some 7) else none

/-- What reading the file of the examples gives. -/
def exampleRead : Conf ℕ :=
  [("dt".toList, .scalar (.float 3600)), ("output_file".toList, .scalar (.str "aeolis.nc".toList)),
    ("nx".toList, .scalar (.int 0)), ("T".toList, .scalar (.float 1)), ("wind_file".toList, .scalar (.table 7))]

theorem exampleRead_eq : readConfig (fun _ => []) windTable exampleTruth true exampleDefaults "aeolis.txt".toList
    (some exampleLines) = .ok exampleRead := by
  decide +kernel

/-- The second assignment of the time step counts, and the number of columns keeps its default. -/
example : Given (fun _ => []) windTable true exampleDefaults exampleLines "dt".toList (some (.scalar (.float 3600))) ∧
    Given (fun _ => []) windTable true exampleDefaults exampleLines "nx".toList (some (.scalar (.int 0))) :=
  ⟨(C03_last_assignment _ _ rfl _ _ _ _ _ _ exampleRead_eq _ (by decide) _).1 (by decide +kernel),
    (C03_last_assignment _ _ rfl _ _ _ _ _ _ exampleRead_eq _ (by decide) _).1 (by decide +kernel)⟩

/-- A line without '=' makes no difference. -/
example : readConfig (fun _ => []) windTable exampleTruth true exampleDefaults "a".toList
      (some (["dt = 1".toList] ++ "remark".toList :: ["T = 2".toList])) =
    readConfig (fun _ => []) windTable exampleTruth true exampleDefaults "a".toList
      (some (["dt = 1".toList] ++ ["T = 2".toList])) :=
  C03_other_lines _ _ _ _ _ _ _ _ _ (C03_comments _ (.inr (by decide)))

/-- '1.2.3' is no value: no file with it can be read. -/
example (pre post : List Text) : readConfig (fun _ => []) windTable exampleTruth true exampleDefaults "a".toList
    (some (pre ++ "dt=1.2.3".toList :: post)) = .error .valueError :=
  C03_invalid_value _ windTable rfl _ _ _ _ _ "dt=1.2.3".toList "dt".toList "1.2.3".toList (by simp)
    ((assigns_iff _ _ _).1 (by decide))
    (fun x hx => by
      have := (parseValue_iff (fun _ => []) windTable rfl true false "1.2.3".toList (.ok x)).2 hx
      rw [show parseValue (fun _ => []) windTable true false "1.2.3".toList = .error .valueError by decide] at this
      cases this)

/-- A comment behind a value. -/
example : readConfig (fun _ => []) windTable exampleTruth true exampleDefaults "a".toList
      (some ([] ++ ("dt ".toList ++ '=' :: (" 60.0 ".toList ++ '%' :: " x = 5".toList)) :: [])) =
    readConfig (fun _ => []) windTable exampleTruth true exampleDefaults "a".toList
      (some ([] ++ ("dt ".toList ++ '=' :: " 60.0 ".toList) :: [])) :=
  C04_comment _ _ _ _ _ _ _ _ _ _ _ (by decide) (by decide) (by decide)

/-- A file that leaves the derived values open, with defaults. -/
def openLines : List Text :=
  ["dt = 3600".toList, "dzb_interval = 9000.0".toList, "z = 10.0".toList, "grain_size = 0.0003".toList]

def openDefaults : Conf ℕ :=
  [("output_file".toList, .scalar .none), ("h".toList, .scalar .none), ("z".toList, .scalar (.float 1)),
    ("process_fences".toList, .scalar .none), ("nsavetimes".toList, .scalar (.int 0)),
    ("grain_size".toList, .arr [.float 1]), ("grain_dist".toList, .scalar (.int 1)), ("dt".toList, .scalar (.int 1)),
    ("dzb_interval".toList, .scalar (.int 1))]

def openRead : Conf ℕ :=
  match readConfig (fun _ => []) windTable exampleTruth true openDefaults "runs/a.txt".toList (some openLines) with
  | .ok p => p
  | .error _ => []

theorem openRead_eq : readConfig (fun _ => []) windTable exampleTruth true openDefaults "runs/a.txt".toList
    (some openLines) = .ok openRead := by
  decide +kernel

def openGiven : Conf ℕ :=
  match readLines (fun _ => []) windTable true openDefaults openLines with
  | .ok p => p
  | .error _ => []

theorem openGiven_eq : readLines (fun _ => []) windTable true openDefaults openLines = .ok openGiven := by
  decide +kernel

theorem open_given (k : Text) (v : Option (Config.Val ℕ)) (h : PyDict.get openGiven k = v) :
    Given (fun _ => []) windTable true openDefaults openLines k v :=
  (readLines_given _ _ rfl _ _ _ _ openGiven_eq k v).1 h

/-- The output goes beside the configuration file. -/
example : PyDict.get openRead "output_file".toList = some (.scalar (.str "runs/a.nc".toList)) := by
  rw [(C05_output_file _ _ rfl _ _ _ _ _ _ openRead_eq (some (.scalar .none)) (open_given _ _ (by decide +kernel))).2.2 _ rfl
    (by decide)]
  decide

/-- The height is that of the wind measurements. -/
example : PyDict.get openRead "h".toList = some (.scalar (.float 10)) :=
  ((C05_height _ _ rfl _ _ _ _ _ _ openRead_eq (some (.scalar .none)) (some (.scalar (.float 10)))
    (open_given _ _ (by decide +kernel)) (open_given _ _ (by decide +kernel))).2.2 _ rfl (by decide)).1

/-- Bed changes over 9000 s in steps of an hour: two whole steps. -/
example : ∃ n : ℤ, PyDict.get openRead "nsavetimes".toList = some (.scalar (.int n)) ∧ (n : ℚ) ≤ 9000 / 3600 ∧ (9000 / 3600 : ℚ) < n + 1 := by
  obtain ⟨-, n, h1, h2, -⟩ := (C05_save_times _ _ rfl _ _ _ _ _ _ openRead_eq (some (.scalar (.int 0)))
    (.scalar (.float 9000)) (.scalar (.int 3600)) 9000 3600 (open_given _ _ (by decide +kernel)) (open_given _ _ (by decide +kernel))
    (open_given _ _ (by decide +kernel)) (.inr (.inl rfl)) (.inl ⟨3600, rfl, by norm_num⟩)).2.2 _ rfl (by decide)
  exact ⟨n, h1, h2 (by norm_num)⟩

example : PyDict.get openRead "process_fences".toList = some (.scalar (.bool false)) :=
  (C05_fences _ _ rfl _ _ _ _ _ _ openRead_eq (some (.scalar .none)) (open_given _ _ (by decide +kernel))).2.2 _ rfl (by decide)

/-- A single size becomes a list of one. -/
example : PyDict.get openRead "grain_size".toList = some (.arr [.float (3 / 10000)]) :=
  (C05_grains _ _ rfl _ _ _ _ _ _ openRead_eq _ (.inr rfl) (.scalar (.int 1)) (.scalar (.float (3 / 10000)))
    (open_given _ _ (by decide +kernel)) (open_given _ _ (by decide +kernel))).1 _ rfl (by simp) (by simp)

example : outputName ("runs/".toList ++ "case.v2".toList ++ '.' :: "txt".toList) = "runs/case.v2.nc".toList :=
  C05_output_name "runs/".toList "case.v2".toList "txt".toList (.inr ⟨"runs".toList, rfl⟩) (by decide)
    ⟨'c', by decide, by decide⟩ (by decide) (by decide)

/-- A wind table of two columns is refused. -/
example : checkConfig id (PyDict.set checkedConfig "wind_file".toList (.scalar (.table [10, 2]))) = .error .valueError := by
  have h := C06_check id (PyDict.set checkedConfig "wind_file".toList (.scalar (.table [10, 2])))
    (.scalar (.table [3, 4])) (.scalar (.table [3, 4])) (.scalar (.table [3, 4])) (.scalar (.int 2))
    (.scalar (.table [10, 2])) (.scalar (.str "tide.txt".toList)) (.scalar .none) 2 (by decide) (by decide) (by decide)
    (by decide) (by decide) (by decide) (by decide) (.inl ⟨2, rfl, by norm_num⟩)
  rcases h.2 with h2 | h2
  · obtain ⟨r, c, h3, h4⟩ := (h.1.1 h2).2.2.2.1 (by decide)
    simp only [shapeOf, id, List.cons.injEq, and_true] at h3
    omega
  · exact h2

end Aeolis.Props
