import Verif.Proofs.ConfigPrint

/-! Values of configuration entries: C01, C02, C94. -/

namespace Aeolis.Props

open Aeolis.Spec Aeolis.Config

variable {T : Type}

/-- C01. The value of an entry is the one given by the grammar (`EntryDenotes`), for every text, every set of files and
either setting of the flags.  (The empty name is never the name of a file.) -/
theorem C01_grammar (reprFloat : ℚ → Text) (fs : Files T) (hfs : fs [] = none) (parseFiles forceList : Bool)
    (s : Text) (r : Except PyErr (Config.Val T)) :
    parseValue reprFloat fs parseFiles forceList s = r ↔ EntryDenotes reprFloat fs parseFiles forceList s r :=
  parseValue_iff reprFloat fs hfs parseFiles forceList s r

/-- Files of the examples: one with a loadable table, one without. -/
def exampleFiles : Files ℕ := fun f =>
  if f = "wind.txt".toList then some (some 7) else if f = "notes.md".toList then some none else none

example : exampleFiles [] = none := rfl
example : parseValue (fun _ => []) exampleFiles true false "  -12 % comment".toList = .ok (.scalar (.int (-12))) := by
  decide
example : parseValue (fun _ => []) exampleFiles true false "wind.txt\n".toList = .ok (.scalar (.table 7)) := by decide
example : parseValue (fun _ => []) exampleFiles true false "1.2.3".toList = .error .valueError := by decide
example : parseValue (fun _ => []) exampleFiles true false "1 T 3".toList = .ok (.arr [.int 1, .int 1, .int 3]) := by
  decide

/-- C01. Numbers in scientific notation are kept as text: digits, perhaps a point and digits, 'e', an optional sign and
digits, is never a number. -/
theorem C01_scientific_notation (reprFloat : ℚ → Text) (fs : Files T) (parseFiles : Bool) (as bs es : List ℕ)
    (mantissa exponent e : Text) (hfs : ∀ f, fs f = none) (ha : as ≠ []) (h1 : Digits as mantissa ∨
      ∃ a b, Digits as a ∧ Digits bs b ∧ mantissa = a ++ '.' :: b) (h2 : Digits es e)
    (h3 : exponent = e ∨ exponent = '-' :: e ∨ exponent = '+' :: e) :
    parseValue reprFloat fs parseFiles false (mantissa ++ 'e' :: exponent) =
      .ok (.scalar (.str (mantissa ++ 'e' :: exponent))) := by
  have hsm : Solid mantissa := by
    rcases h1 with h | ⟨a, b, hA, hB, rfl⟩
    · exact digits_solid h
    · intro c hc
      rw [List.mem_append, List.mem_cons] at hc
      rcases hc with hc | rfl | hc
      · exact digits_solid hA c hc
      · exact ⟨rfl, by decide⟩
      · exact digits_solid hB c hc
  have hse : Solid exponent := by
    rcases h3 with rfl | rfl | rfl
    · exact digits_solid h2
    · intro c hc
      rcases List.mem_cons.mp hc with rfl | hc
      · exact ⟨rfl, by decide⟩
      · exact digits_solid h2 c hc
    · intro c hc
      rcases List.mem_cons.mp hc with rfl | hc
      · exact ⟨rfl, by decide⟩
      · exact digits_solid h2 c hc
  have hs : Solid (mantissa ++ 'e' :: exponent) := by
    intro c hc
    rw [List.mem_append, List.mem_cons] at hc
    rcases hc with hc | rfl | hc
    · exact hsm c hc
    · exact ⟨rfl, by decide⟩
    · exact hse c hc
  obtain ⟨d, m, hm, hd⟩ : ∃ d m, mantissa = digitChar d :: m ∧ d < 10 := by
    cases as with
    | nil => exact absurd rfl ha
    | cons d ds =>
      rcases h1 with h | ⟨a, b, hA, hB, rfl⟩
      · exact ⟨d, ds.map digitChar, by rw [h.2]; rfl, h.1 d List.mem_cons_self⟩
      · exact ⟨d, ds.map digitChar ++ '.' :: b, by rw [hA.2]; rfl, hA.1 d List.mem_cons_self⟩
  rw [parseValue_solid reprFloat fs parseFiles hs]
  have hp : Plain (mantissa ++ 'e' :: exponent) := by
    refine ⟨by simp, ?_, ?_, ?_, ?_⟩
    · intro h; have := congrArg List.length h; rw [hm] at this; simp at this
    · intro h; have := congrArg List.length h; rw [hm] at this; simp at this
    · rintro ⟨body, -, hall, h⟩
      have he : 'e' ∈ body := by
        have : 'e' ∈ mantissa ++ 'e' :: exponent := by simp
        rcases h with h | h
        · rwa [h] at this
        · rw [h] at this
          rcases List.mem_cons.mp this with h' | h'
          · exact absurd h' (by decide)
          · exact h'
      rcases hall _ he with h | ⟨k, hk, h⟩
      · exact absurd h (by decide)
      · interval_cases k <;> exact absurd h (by decide)
    · intro r h
      rw [hm] at h
      have hc : digitChar d = 'N' := by simpa using congrArg List.head? h
      interval_cases d <;> exact absurd hc (by decide)
  rw [(parseScalar_iff fs (hfs []) parseFiles _ (.ok (.str (mantissa ++ 'e' :: exponent)))).mpr
    (.text _ hp (by intro _ t; rw [hfs]; simp))]
  rfl

example : parseValue (T := ℕ) (fun _ => []) (fun _ => none) true false "1e-6".toList =
    .ok (.scalar (.str "1e-6".toList)) := by
  have := C01_scientific_notation (T := ℕ) (fun _ => []) (fun _ => none) true [1] [] [6] ['1'] ['-', '6'] ['6']
    (fun _ => rfl) (by simp) (Or.inl ⟨by simp, rfl⟩) ⟨by simp, rfl⟩ (Or.inr (Or.inl rfl))
  exact this

/-- C01. White space: tabulators, line and page breaks, the information separators, blanks of any width, the no-break spaces and the ideographic
space; these are the characters of Python's `str.isspace`. -/
theorem C01_blanks (c : Char) : isSpace c = true ↔ c.toNat ∈ [0x09, 0x0a, 0x0b, 0x0c, 0x0d, 0x1c, 0x1d, 0x1e, 0x1f, 0x20, 0x85, 0xa0, 0x1680,
    0x2000, 0x2001, 0x2002, 0x2003, 0x2004, 0x2005, 0x2006, 0x2007, 0x2008, 0x2009, 0x200a, 0x2028, 0x2029, 0x202f, 0x205f, 0x3000] := by
  unfold isSpace
  simp only [Bool.or_eq_true, Bool.and_eq_true, decide_eq_true_eq, beq_iff_eq, List.mem_cons, List.not_mem_nil, or_false]
  omega

example : isSpace '\t' = true ∧ isSpace 'a' = false := by decide

/-- C01. The value does not depend on white space around the text and on a comment behind it. -/
theorem C01_blanks_and_comments (reprFloat : ℚ → Text) (fs : Files T) (parseFiles forceList : Bool)
    (before s after comment : Text) (h1 : ∀ c ∈ before, isSpace c = true) (h2 : ∀ c ∈ after, isSpace c = true)
    (hs : '%' ∉ s) :
    parseValue reprFloat fs parseFiles forceList (before ++ s ++ after ++ '%' :: comment) =
      parseValue reprFloat fs parseFiles forceList s := by
  have hb : '%' ∉ before ++ s ++ after := by
    intro h
    rw [List.mem_append, List.mem_append] at h
    rcases h with (h | h) | h
    · exact absurd (h1 _ h) (by decide)
    · exact hs h
    · exact absurd (h2 _ h) (by decide)
  have e : strip (before ++ s ++ after) = strip s := by
    obtain ⟨a, b, he, ha, hb', hh, hl⟩ := strip_spec s
    apply stripped_unique
    refine ⟨before ++ a, b ++ after, ?_, ?_, ?_, hh, hl⟩
    · conv_lhs => rw [he]
      simp
    · intro c hc
      rcases List.mem_append.mp hc with h | h
      · exact h1 c h
      · exact ha c h
    · intro c hc
      rcases List.mem_append.mp hc with h | h
      · exact hb' c h
      · exact h2 c h
  unfold parseValue
  rw [beforeComment_unique (s := before ++ s ++ after ++ '%' :: comment) ⟨hb, Or.inr ⟨comment, rfl⟩⟩,
    cutComment_of_not_mem hs, e]

example : (∀ c ∈ ['\t', ' '], isSpace c = true) ∧ '%' ∉ "0.25 0.5".toList := by decide

/-- C01, contrary to the flag's description: the items of a list that name files are loaded even if files are not to be
parsed. -/
theorem C01_lists_always_load_files (reprFloat : ℚ → Text) :
    ∃ fs : Files ℕ, parseValue reprFloat fs false false "wind.txt".toList = .ok (.scalar (.str "wind.txt".toList)) ∧
      parseValue reprFloat fs false false "wind.txt wind.txt".toList = .ok (.arr [.table 7, .table 7]) := by
  refine ⟨exampleFiles, ?_, ?_⟩
  · rfl
  · rfl

/-- C02. Integers read back. -/
theorem C02_integer (reprFloat : ℚ → Text) (fs : Files T) (parseFiles : Bool) (fill : Text) (i : ℤ) :
    parseValue reprFloat fs parseFiles false (printItem fill (.int i)) = .ok (.scalar (.int i)) := by
  show parseValue reprFloat fs parseFiles false (printInt i) = _
  rw [parseValue_solid reprFloat fs parseFiles (isInt_solid (printInt_isInt i)),
    parseScalar_int fs parseFiles (printInt_isInt i)]
  rfl

/-- C02. Booleans read back. -/
theorem C02_boolean (reprFloat : ℚ → Text) (fs : Files T) (parseFiles : Bool) (fill : Text) (b : Bool) :
    parseValue reprFloat fs parseFiles false (printItem fill (.bool b)) = .ok (.scalar (.bool b)) := by
  cases b <;> rfl

/-- C02. 'No value' is written as an empty text and reads back. -/
theorem C02_no_value (reprFloat : ℚ → Text) (fs : Files T) (hfs : fs [] = none) (parseFiles : Bool) :
    parseValue reprFloat fs parseFiles false (printItem [] .none) = .ok (.scalar .none) := by
  show parseValue reprFloat fs parseFiles false [] = _
  rw [parseValue_solid reprFloat fs parseFiles (by intro c hc; simp at hc),
    (parseScalar_iff fs hfs parseFiles [] (.ok .none)).mpr .empty]
  rfl

/-- C02. Lists of at least two integers (of Python or numpy) read back. -/
theorem C02_integer_list (reprFloat : ℚ → Text) (fs : Files T) (parseFiles forceList : Bool) (l : List (Bool × ℤ))
    (hl : 2 ≤ l.length) :
    parseValue reprFloat fs parseFiles forceList
      (printList (l.map fun x => if x.1 then .npInt x.2 else .int x.2)) =
      .ok (.arr (l.map fun x => .int x.2)) := by
  unfold printList
  have e : (l.map fun x => if x.1 then Item.npInt x.2 else .int x.2).map (printItem "<novalue>".toList) =
      l.map fun x => printInt x.2 := by
    rw [List.map_map]
    apply List.map_congr_left
    rintro ⟨b, i⟩ _
    cases b <;> rfl
  rw [e, parseValue_joined reprFloat fs parseFiles forceList _ (l.map fun x => .int x.2) (by simpa using hl)]
  · congr 1
    apply commonType_asarray
    have h : (l.map fun x => Scalar.int (T := T) x.2) = (l.map fun x => Scalar.int (T := T) x.2).map asInt := by
      rw [List.map_map]; rfl
    conv => arg 3; rw [h]
    refine CommonType.int ?_ ?_ ?_ ?_ ?_
    · simp
    · simp
    · simp
    · simp
    · match l, hl with
      | x :: y :: r, _ => exact ⟨x.2, by simp⟩
  · intro x hx
    obtain ⟨y, hy, rfl⟩ := List.mem_map.mp hx
    obtain ⟨ds, body, hne, hd, ⟨h, -⟩ | ⟨h, -⟩⟩ := printInt_isInt y.2
    · rw [h, hd.2]; simpa using hne
    · rw [h]; simp
  · intro x hx
    obtain ⟨y, hy, rfl⟩ := List.mem_map.mp hx
    exact isInt_solid (printInt_isInt y.2)
  · clear hl e
    induction l with
    | nil => exact .nil
    | cons x l ih => exact .cons (parseScalar_int fs true (printInt_isInt x.2)) ih

example : printList [.int 12, .npInt (-3), .int 0] = "12 -3 0".toList := by
  rfl

/-- C02. Lists of at least two Python booleans read back. -/
theorem C02_boolean_list (reprFloat : ℚ → Text) (fs : Files T) (parseFiles forceList : Bool) (l : List Bool)
    (hl : 2 ≤ l.length) :
    parseValue reprFloat fs parseFiles forceList (printList (l.map .bool)) = .ok (.arr (l.map .bool)) := by
  unfold printList
  rw [List.map_map, parseValue_joined reprFloat fs parseFiles forceList _ (l.map .bool) (by simpa using hl)]
  · congr 1
    apply commonType_asarray
    apply CommonType.bool
    intro x hx
    obtain ⟨b, -, rfl⟩ := List.mem_map.mp hx
    exact ⟨b, rfl⟩
  · intro x hx
    obtain ⟨y, hy, rfl⟩ := List.mem_map.mp hx
    cases y <;> simp [printItem]
  · intro x hx
    obtain ⟨y, hy, rfl⟩ := List.mem_map.mp hx
    cases y <;> (intro c hc; simp [printItem] at hc; subst hc; exact ⟨rfl, by decide⟩)
  · clear hl
    induction l with
    | nil => exact .nil
    | cons x l ih => exact .cons (by cases x <;> rfl) ih

/-- C02. Texts read back if they are not of a special form, contain no white space and no '%', and do not name a
file. -/
theorem C02_text (reprFloat : ℚ → Text) (fs : Files T) (hfs : fs [] = none) (parseFiles : Bool) (fill s : Text)
    (h1 : Plain s) (h2 : ∀ c ∈ s, isSpace c = false ∧ c ≠ '%') (h3 : fs s = none) :
    parseValue reprFloat fs parseFiles false (printItem fill (.str s)) = .ok (.scalar (.str s)) := by
  show parseValue reprFloat fs parseFiles false s = _
  rw [parseValue_solid reprFloat fs parseFiles h2,
    (parseScalar_iff fs hfs parseFiles s (.ok (.str s))).mpr (.text _ h1 (by intro _ t; rw [h3]; simp))]
  rfl

example : (∀ c ∈ "euler_forward".toList, isSpace c = false ∧ c ≠ '%') ∧ exampleFiles "euler_forward".toList = none := by
  decide

/-- C02 does not hold for arrays of booleans: they consist of numpy booleans, are written as 'True' and 'False' and read
back as texts. -/
theorem C02_boolean_array_becomes_text (reprFloat : ℚ → Text) (fs : Files T) (hfs : fs [] = none)
    (parseFiles forceList : Bool) (l : List Bool) (hl : 2 ≤ l.length) (h1 : fs "True".toList = none)
    (h2 : fs "False".toList = none) :
    parseValue reprFloat fs parseFiles forceList (printList (l.map .npBool)) =
      .ok (.arr (l.map fun b => .str (if b then "True".toList else "False".toList))) := by
  unfold printList
  have hplain : ∀ b : Bool, parseScalar fs true (printItem "<novalue>".toList (.npBool b)) =
      .ok (.str (if b then "True".toList else "False".toList)) := by
    intro b
    unfold parseScalar
    cases b
    · show (match fs "False".toList, true with
        | some (some t), true => _
        | some none, true => _
        | _, _ => _ : Except PyErr (Scalar T)) = _
      rw [h2]; rfl
    · show (match fs "True".toList, true with
        | some (some t), true => _
        | some none, true => _
        | _, _ => _ : Except PyErr (Scalar T)) = _
      rw [h1]; rfl
  rw [List.map_map, parseValue_joined reprFloat fs parseFiles forceList _
    (l.map fun b => .str (if b then "True".toList else "False".toList)) (by simpa using hl)]
  · congr 1
    apply commonType_asarray
    have h : (l.map fun b => Scalar.str (T := T) (if b then "True".toList else "False".toList)) =
        (l.map fun b => Scalar.str (T := T) (if b then "True".toList else "False".toList)).map (asText reprFloat) := by
      rw [List.map_map]; rfl
    conv => arg 3; rw [h]
    refine CommonType.text ?_ ?_ ?_
    · simp
    · simp
    · match l, hl with
      | x :: y :: r, _ => exact ⟨_, List.mem_cons_self⟩
  · intro x hx
    obtain ⟨y, hy, rfl⟩ := List.mem_map.mp hx
    cases y <;> simp [printItem]
  · intro x hx
    obtain ⟨y, hy, rfl⟩ := List.mem_map.mp hx
    have : ∀ b : Bool, (printItem "<novalue>".toList (.npBool b)).all (fun c => !isSpace c && c != '%') = true := by
      decide
    have h := this y
    rw [List.all_eq_true] at h
    intro c hc
    have := h c hc
    simp only [Bool.and_eq_true, Bool.not_eq_eq_eq_not, Bool.not_true, bne_iff_ne] at this
    exact this
  · clear hl
    induction l with
    | nil => exact .nil
    | cons x l ih => exact .cons (hplain x) ih

/-- C02 does not hold for lists of one item: they read back as a single value. -/
theorem C02_single_item_becomes_scalar (reprFloat : ℚ → Text) (fs : Files T) (parseFiles : Bool) (i : ℤ) :
    parseValue reprFloat fs parseFiles false (printList [.int i]) = .ok (.scalar (.int i)) :=
  C02_integer reprFloat fs parseFiles "<novalue>".toList i

/-- C02 does not hold for lists with items without value: the filler is not passed on to the items and is read back as a
text. -/
theorem C02_no_value_in_list_becomes_text (reprFloat : ℚ → Text) :
    ∃ fs : Files ℕ, parseValue reprFloat fs true false (printList [.none, .none]) =
      .ok (.arr [.str "<novalue>".toList, .str "<novalue>".toList]) :=
  ⟨fun _ => none, rfl⟩

/-- C94. Numbers with a point read back as numbers with a point, within half a unit of the last printed decimal: the
sixth below one, the second from one on. -/
theorem C94_float (reprFloat : ℚ → Text) (fs : Files T) (parseFiles : Bool) (fill : Text) (q : ℚ) :
    ∃ q', parseValue reprFloat fs parseFiles false (printItem fill (.float q)) = .ok (.scalar (.float q')) ∧
      (q < 1 → |q' - q| ≤ 5 / 10 ^ 7) ∧ (1 ≤ q → |q' - q| ≤ 5 / 10 ^ 3) := by
  by_cases hq : q < 1
  · obtain ⟨q', h1, h2, -⟩ := printFixed_decimal 6 q
    refine ⟨q', ?_, fun _ => ?_, fun h => absurd hq (not_lt.mpr h)⟩
    · have : printItem fill (.float q) = printFixed 6 q := by simp only [printItem, hq, if_true]
      rw [this, parseValue_solid reprFloat fs parseFiles (isDecimal_solid h1), parseScalar_decimal fs parseFiles h1]
      rfl
    · norm_num at h2 ⊢; exact h2
  · obtain ⟨q', h1, h2, -⟩ := printFixed_decimal 2 q
    refine ⟨q', ?_, fun h => absurd h hq, fun _ => ?_⟩
    · have : printItem fill (.float q) = printFixed 2 q := by simp only [printItem, hq, if_false]
      rw [this, parseValue_solid reprFloat fs parseFiles (isDecimal_solid h1), parseScalar_decimal fs parseFiles h1]
      rfl
    · norm_num at h2 ⊢; exact h2

/-- C94. Numbers with no more decimals than are printed read back unchanged. -/
theorem C94_float_exact (reprFloat : ℚ → Text) (fs : Files T) (parseFiles : Bool) (fill : Text) (q : ℚ)
    (h : (q < 1 ∧ ∃ i : ℤ, q * 10 ^ 6 = i) ∨ (1 ≤ q ∧ ∃ i : ℤ, q * 10 ^ 2 = i)) :
    parseValue reprFloat fs parseFiles false (printItem fill (.float q)) = .ok (.scalar (.float q)) := by
  rcases h with ⟨hq, hi⟩ | ⟨hq, hi⟩
  · obtain ⟨q', h1, -, h3⟩ := printFixed_decimal 6 q
    obtain rfl := h3 hi
    have : printItem fill (.float q') = printFixed 6 q' := by simp only [printItem, hq, if_true]
    rw [this, parseValue_solid reprFloat fs parseFiles (isDecimal_solid h1), parseScalar_decimal fs parseFiles h1]
    rfl
  · obtain ⟨q', h1, -, h3⟩ := printFixed_decimal 2 q
    obtain rfl := h3 hi
    have : printItem fill (.float q') = printFixed 2 q' := by
      simp only [printItem, not_lt.mpr hq, if_false]
    rw [this, parseValue_solid reprFloat fs parseFiles (isDecimal_solid h1), parseScalar_decimal fs parseFiles h1]
    rfl

example : ((1 / 4 : ℚ) < 1 ∧ ∃ i : ℤ, (1 / 4 : ℚ) * 10 ^ 6 = i) := ⟨by norm_num, 250000, by norm_num⟩

/-- C94. The value is not preserved in general: a grain size of 0.0002254 m is written as 0.000225. -/
theorem C94_float_loses_digits (reprFloat : ℚ → Text) (fs : Files T) :
    ∃ q : ℚ, parseValue reprFloat fs true false (printItem [] (.float q)) = .ok (.scalar (.float (225 / 10 ^ 6))) ∧
      q ≠ 225 / 10 ^ 6 := by
  refine ⟨2254 / 10 ^ 7, ?_, by norm_num⟩
  have hr : roundEven (|(2254 / 10 ^ 7 : ℚ)| * 10 ^ 6) = 225 := by
    rw [abs_of_pos (by norm_num)]
    have hf : ⌊(2254 / 10 ^ 7 * 10 ^ 6 : ℚ)⌋ = 225 := by
      rw [Int.floor_eq_iff]; norm_num
    unfold roundEven
    rw [hf]
    norm_num
  have e : printItem [] (.float (2254 / 10 ^ 7)) = "0.000225".toList := by
    have h1 : printItem [] (.float (2254 / 10 ^ 7)) = printFixed 6 (2254 / 10 ^ 7) := by
      have h : (2254 / 10 ^ 7 : ℚ) < 1 := by norm_num
      simp only [printItem, h, if_true]
    rw [h1]
    unfold printFixed
    rw [hr, if_neg (by norm_num)]
    rfl
  rw [e]
  have hd : IsDecimal "0.000225".toList (225 / 10 ^ 6) := by
    refine ⟨[0], [0, 0, 0, 2, 2, 5], ['0'], "000225".toList, Or.inl (by simp), ⟨by simp, rfl⟩, ⟨by simp, rfl⟩,
      Or.inl ⟨rfl, ?_⟩⟩
    norm_num [value, Nat.ofDigits]
  rw [parseValue_solid reprFloat fs true (isDecimal_solid hd), parseScalar_decimal fs true hd]
  rfl

/-- Three numbers joined by points are no value; a name of a readable file is its table. -/
example : EntryDenotes (fun _ => []) exampleFiles true false "1.2.3".toList (.error .valueError) ∧
    EntryDenotes (fun _ => []) exampleFiles true false "wind.txt\n".toList (.ok (.scalar (.table 7))) :=
  ⟨(C01_grammar _ _ rfl _ _ _ _).1 (by decide), (C01_grammar _ _ rfl _ _ _ _).1 (by decide)⟩

example : parseValue (fun _ => []) exampleFiles true false (printItem [] .none) = .ok (.scalar .none) :=
  C02_no_value _ _ rfl _

example : parseValue (fun _ => []) exampleFiles true false (printList [.bool true, .bool false, .bool true])
    = .ok (.arr [.bool true, .bool false, .bool true]) :=
  C02_boolean_list _ _ _ _ [true, false, true] (by decide)

example : parseValue (fun _ => []) exampleFiles true false (printList [.npBool true, .npBool false])
    = .ok (.arr [.str "True".toList, .str "False".toList]) :=
  C02_boolean_array_becomes_text _ exampleFiles rfl _ _ [true, false] (by decide) (by decide) (by decide)

end Aeolis.Props
