import Mathlib.Tactic.Common
import Verif.Model.Metadata

/-!
C119: the units of the variables in the output file come from the comments in aeolis/constants.py.
-/

namespace Aeolis.Props

open Aeolis.Meta

theorem beforeBracket_none : ∀ (r : Text), ']' ∉ r → beforeBracket r = none
  | [], _ => rfl
  | c :: cs, h => by
    have h1 : c ≠ ']' := fun e => h (by simp [e])
    simp [beforeBracket, beforeBracket_none cs (fun hc => h (by simp [hc])), h1]

theorem beforeBracket_last : ∀ (u r : Text), ']' ∉ r → beforeBracket (u ++ ']' :: r) = some u
  | [], r, h => by simp [beforeBracket, beforeBracket_none r h]
  | c :: u, r, h => by simp [beforeBracket, beforeBracket_last u r h]

theorem beforeBracket_sound : ∀ (l u : Text), beforeBracket l = some u → ∃ r, l = u ++ ']' :: r
  | [], u, h => by simp [beforeBracket] at h
  | c :: cs, u, h => by
    unfold beforeBracket at h
    cases hb : beforeBracket cs with
    | some v =>
      rw [hb] at h
      obtain ⟨r, hr⟩ := beforeBracket_sound cs v hb
      obtain rfl := Option.some.inj h
      exact ⟨r, by rw [hr]; rfl⟩
    | none =>
      rw [hb] at h
      simp only at h
      split_ifs at h with hc
      obtain rfl := Option.some.inj h
      exact ⟨cs, by rw [hc]; rfl⟩

theorem unitsPart_quote (c : Char) (r : Text) (h : c ≠ '\'') : unitsPart (c :: r) = none := by
  unfold unitsPart
  split
  · rename_i heq; simp only [List.cons.injEq] at heq; exact absurd heq.1 h
  · rfl

theorem namePart_none : ∀ (r : Text), '\'' ∉ r → namePart r = none
  | [], _ => rfl
  | c :: cs, h => by
    have h1 : c ≠ '\'' := fun e => h (by simp [e])
    simp [namePart, namePart_none cs (fun hc => h (by simp [hc])), unitsPart_quote c cs h1]

theorem namePart_append : ∀ (pre l n u : Text), namePart l = some (n, u) → namePart (pre ++ l) = some (pre ++ n, u)
  | [], _, _, _, h => h
  | c :: pre, l, n, u, h => by
    simp [namePart, namePart_append pre l n u h]

theorem namePart_append_none : ∀ (pre l : Text), '\'' ∉ pre → namePart l = none → namePart (pre ++ l) = none
  | [], _, _, h => h
  | c :: pre, l, hp, h => by
    have h1 : c ≠ '\'' := fun e => hp (by simp [e])
    rw [List.cons_append]
    simp [namePart, namePart_append_none pre l (fun hc => hp (by simp [hc])) h, unitsPart_quote c _ h1]

theorem dropBlanks (sp r : Text) (c : Char) (hs : ∀ x ∈ sp, x.isWhitespace = true) (hc : c.isWhitespace = false) :
    (sp ++ c :: r).dropWhile Char.isWhitespace = c :: r := by
  induction sp with
  | nil => simp [hc]
  | cons x sp ih =>
    rw [List.cons_append, List.dropWhile_cons_of_pos (hs x (by simp))]
    exact ih fun y hy => hs y (by simp [hy])

theorem blanks_of_dropWhile (l : Text) : ∃ sp, l = sp ++ l.dropWhile Char.isWhitespace ∧
    ∀ x ∈ sp, x.isWhitespace = true :=
  ⟨l.takeWhile Char.isWhitespace, (List.takeWhile_append_dropWhile).symm, fun x hx => by
    have h := List.all_takeWhile (l := l) (p := Char.isWhitespace)
    exact List.all_eq_true.mp h x hx⟩

/-- **C119** A line with a quoted name, a comma and a comment that starts with text in brackets gives that name and that text, however
many blanks there are, if what follows has no further quotes or closing brackets. -/
theorem C119_line (sp1 sp2 sp3 name units rest : Text) (h1 : ∀ x ∈ sp1, x.isWhitespace = true)
    (h2 : ∀ x ∈ sp2, x.isWhitespace = true) (h3 : ∀ x ∈ sp3, x.isWhitespace = true)
    (hu : '\'' ∉ units) (hr : '\'' ∉ rest) (hb : ']' ∉ rest) :
    matchLine (sp1 ++ '\'' :: (name ++ '\'' :: ',' :: (sp2 ++ '#' :: (sp3 ++ '[' :: (units ++ ']' :: rest))))) =
      some (name, units) := by
  unfold matchLine
  rw [dropBlanks sp1 _ '\'' h1 (by decide)]
  have hq : ∀ sp : Text, (∀ x ∈ sp, x.isWhitespace = true) → '\'' ∉ sp := by
    intro sp hs hq
    have := hs _ hq
    revert this
    decide
  have hnone : namePart (',' :: (sp2 ++ '#' :: (sp3 ++ '[' :: (units ++ ']' :: rest)))) = none := by
    apply namePart_none
    simp [hq sp2 h2, hq sp3 h3, hu, hr]
  have hsome : namePart ('\'' :: ',' :: (sp2 ++ '#' :: (sp3 ++ '[' :: (units ++ ']' :: rest)))) = some ([], units) := by
    rw [namePart, hnone]
    simp only [unitsPart]
    rw [dropBlanks sp2 _ '#' h2 (by decide)]
    simp only
    rw [dropBlanks sp3 _ '[' h3 (by decide)]
    simp only
    rw [beforeBracket_last units rest hb]
    rfl
  simpa using namePart_append name _ [] units hsome

/-- **C119** A line whose comment starts with anything other than text in brackets — for instance a tag before the brackets — gives
nothing, so its brackets are not used. -/
theorem C119_tag_hides_units (sp1 sp2 sp3 name rest : Text) (c : Char) (h1 : ∀ x ∈ sp1, x.isWhitespace = true)
    (h2 : ∀ x ∈ sp2, x.isWhitespace = true) (h3 : ∀ x ∈ sp3, x.isWhitespace = true)
    (hn : '\'' ∉ name) (hc : c.isWhitespace = false) (hcb : c ≠ '[') (hcq : c ≠ '\'') (hr : '\'' ∉ rest) :
    matchLine (sp1 ++ '\'' :: (name ++ '\'' :: ',' :: (sp2 ++ '#' :: (sp3 ++ c :: rest)))) = none := by
  unfold matchLine
  rw [dropBlanks sp1 _ '\'' h1 (by decide)]
  have hq : ∀ sp : Text, (∀ x ∈ sp, x.isWhitespace = true) → '\'' ∉ sp := by
    intro sp hs hq
    have := hs _ hq
    revert this
    decide
  have hnone : namePart (',' :: (sp2 ++ '#' :: (sp3 ++ c :: rest))) = none := by
    apply namePart_none
    simp [hq sp2 h2, hq sp3 h3, hr, Ne.symm hcq]
  apply namePart_append_none name _ hn
  have hu : unitsPart ('\'' :: ',' :: (sp2 ++ '#' :: (sp3 ++ c :: rest))) = none := by
    simp only [unitsPart]
    rw [dropBlanks sp2 _ '#' h2 (by decide)]
    simp only
    rw [dropBlanks sp3 _ c h3 hc]
    split
    · rename_i heq; simp only [List.cons.injEq] at heq; exact absurd heq.1 hcb
    · rfl
  rw [namePart, hnone]
  simp only [hu]
  rfl

/-- **C119** Conversely a line that gives a name and units has the form of quoted name, comma, `#` and units in brackets with only
blanks in between. -/
theorem C119_line_form (line name units : Text) (h : matchLine line = some (name, units)) :
    ∃ sp1 sp2 sp3 rest : Text, (∀ x ∈ sp1 ++ sp2 ++ sp3, x.isWhitespace = true) ∧
      line = sp1 ++ '\'' :: (name ++ '\'' :: ',' :: (sp2 ++ '#' :: (sp3 ++ '[' :: (units ++ ']' :: rest)))) := by
  have hunits : ∀ l u, unitsPart l = some u → ∃ sp2 sp3 rest : Text, (∀ x ∈ sp2 ++ sp3, x.isWhitespace = true) ∧
      l = '\'' :: ',' :: (sp2 ++ '#' :: (sp3 ++ '[' :: (u ++ ']' :: rest))) := by
    intro l u hl
    unfold unitsPart at hl
    split at hl
    · rename_i r
      split at hl
      · rename_i r2 hr2
        split at hl
        · rename_i r3 hr3
          obtain ⟨rest, hrest⟩ := beforeBracket_sound _ _ hl
          obtain ⟨sp2, e2, hs2⟩ := blanks_of_dropWhile r
          obtain ⟨sp3, e3, hs3⟩ := blanks_of_dropWhile r2
          refine ⟨sp2, sp3, rest, ?_, ?_⟩
          · intro x hx
            rcases List.mem_append.mp hx with hx | hx
            · exact hs2 x hx
            · exact hs3 x hx
          · rw [hr2] at e2
            rw [hr3] at e3
            rw [e2, e3, hrest]
        · cases hl
      · cases hl
    · cases hl
  have hname : ∀ l n u, namePart l = some (n, u) → ∃ sp2 sp3 rest : Text, (∀ x ∈ sp2 ++ sp3, x.isWhitespace = true) ∧
      l = n ++ '\'' :: ',' :: (sp2 ++ '#' :: (sp3 ++ '[' :: (u ++ ']' :: rest))) := by
    intro l
    induction l with
    | nil => intro n u h; simp [namePart] at h
    | cons c cs ih =>
      intro n u h
      unfold namePart at h
      cases hc : namePart cs with
      | some v =>
        rw [hc] at h
        obtain ⟨n', u'⟩ := v
        simp only [Option.some.injEq, Prod.mk.injEq] at h
        obtain ⟨rfl, rfl⟩ := h
        obtain ⟨sp2, sp3, rest, hb, he⟩ := ih n' u' hc
        exact ⟨sp2, sp3, rest, hb, by rw [he]; rfl⟩
      | none =>
        rw [hc] at h
        simp only [Option.map_eq_some_iff, Prod.mk.injEq] at h
        obtain ⟨v, hv, rfl, rfl⟩ := h
        obtain ⟨sp2, sp3, rest, hb, he⟩ := hunits _ _ hv
        exact ⟨sp2, sp3, rest, hb, he⟩
  unfold matchLine at h
  split at h
  · rename_i r hr
    obtain ⟨sp1, e1, hs1⟩ := blanks_of_dropWhile line
    obtain ⟨sp2, sp3, rest, hb, he⟩ := hname _ _ _ h
    refine ⟨sp1, sp2, sp3, rest, ?_, ?_⟩
    · intro x hx
      rw [List.append_assoc] at hx
      rcases List.mem_append.mp hx with hx | hx
      · exact hs1 x hx
      · exact hb x hx
    · rw [hr] at e1
      rw [e1, he]
  · cases h

/-- **C119** The units of a variable are those of the last line that gives its name, with `1` for `-`; a variable that no line gives
has none, and neither has any variable if the file is missing. -/
theorem C119_last_line_counts (var : Text) :
    (∀ (before after : List Text) (line u : Text), matchLine line = some (var, u) →
      (∀ l ∈ after, ∀ v, matchLine l ≠ some (var, v)) →
      parseUnits (some (before ++ line :: after)) var = some (if u = ['-'] then ['1'] else u)) ∧
    (∀ lines : List Text, (∀ l ∈ lines, ∀ v, matchLine l ≠ some (var, v)) → parseUnits (some lines) var = none) ∧
    parseUnits none var = none := by
  have hkeep : ∀ (lines : List Text) (u : Option Text), (∀ l ∈ lines, ∀ v, matchLine l ≠ some (var, v)) →
      lines.foldl (lineStep var) u = u := by
    intro lines
    induction lines with
    | nil => intro u _; rfl
    | cons l lines ih =>
      intro u h
      rw [List.foldl_cons]
      have : lineStep var u l = u := by
        unfold lineStep
        cases hm : matchLine l with
        | none => rfl
        | some v =>
          obtain ⟨n, w⟩ := v
          simp only
          rw [if_neg]
          rintro rfl
          exact h l (by simp) w hm
      rw [this]
      exact ih u fun l hl => h l (by simp [hl])
  refine ⟨?_, fun lines h => hkeep lines none h, rfl⟩
  intro before after line u hm ha
  show (before ++ line :: after).foldl (lineStep var) none = _
  rw [List.foldl_append, List.foldl_cons, hkeep after _ ha]
  unfold lineStep
  rw [hm]
  simp [unitsOf]

/-- Units and the variables that have them, read off aeolis/constants.py:30-149. -/
def unitsTable : List (String × List String) :=
  [("m/s", ["uw", "uws", "uwn", "ustar", "ustars", "ustarn", "ustar0", "ustars0", "ustarn0", "uth", "uthf", "uth0", "u", "us", "un"]),
   ("N/m^2", ["tau", "taus", "taun", "tau0", "taus0", "taun0", "taus_u", "taun_u"]),
   ("1", ["dtaus", "dtaun", "S", "rhoveg", "Rti", "w", "w_init", "w_air", "w_bed", "salt"]),
   ("rad", ["udir"]),
   ("m", ["zs", "SWL", "Hs", "Hsmix", "zne", "x", "y", "ds", "dn", "zb", "zb0", "zdry", "dzdry", "zsep", "hsep", "hveg", "dhveg",
     "dzbveg", "R", "eta", "sigma_s", "TWL", "DSWL", "thlyr"]),
   ("s", ["Tp"]),
   ("m^2", ["dsdn"]),
   ("m^-2", ["dsdni"]),
   ("m/dt", ["dzb"]),
   ("m/yr", ["dzbyear"]),
   ("m/year", ["dzbavg"]),
   ("degrees", ["theta_stat", "theta_dyn"]),
   ("kg/m^2", ["Cu", "Cuf", "Cu0", "Ct", "pickup", "mass"]),
   ("kg/m/s", ["q", "qs", "qn"])]

/-- Variables without units in the output file. -/
def withoutUnits : List String :=
  ["moist", "moist_swr", "h_delta", "gw", "gw_prev", "wetting", "scan_w", "scan_d", "scan_w_moist", "scan_d_moist", "w_h", "d_h",
     "w_hdelta", "d_hdelta", "drhoveg", "germinate", "lateral", "vegfac", "fence_height", "u0"]

/-- Name and units given by each line. -/
def lineUnits : List (Option (Text × Text)) := constantsLines.map matchLine

theorem parseUnits_lineUnits (var : Text) :
    parseUnits (some constantsLines) var =
      lineUnits.foldl (fun u m => match m with
        | some (n, v) => if n = var then some (unitsOf v) else u
        | none => u) none := by
  simp only [parseUnits, lineUnits, List.foldl_map]
  rfl

theorem lineUnits_eq : lineUnits =
  [some (chars! "uw", chars! "m/s"),
   some (chars! "uws", chars! "m/s"),
   some (chars! "uwn", chars! "m/s"),
   some (chars! "tau", chars! "N/m^2"),
   some (chars! "taus", chars! "N/m^2"),
   some (chars! "taun", chars! "N/m^2"),
   some (chars! "tau0", chars! "N/m^2"),
   some (chars! "taus0", chars! "N/m^2"),
   some (chars! "taun0", chars! "N/m^2"),
   some (chars! "taus_u", chars! "N/m^2"),
   some (chars! "taun_u", chars! "N/m^2"),
   some (chars! "dtaus", chars! "-"),
   some (chars! "dtaun", chars! "-"),
   some (chars! "ustar", chars! "m/s"),
   some (chars! "ustars", chars! "m/s"),
   some (chars! "ustarn", chars! "m/s"),
   some (chars! "ustar0", chars! "m/s"),
   some (chars! "ustars0", chars! "m/s"),
   some (chars! "ustarn0", chars! "m/s"),
   some (chars! "udir", chars! "rad"),
   some (chars! "zs", chars! "m"),
   some (chars! "SWL", chars! "m"),
   some (chars! "Hs", chars! "m"),
   some (chars! "Hsmix", chars! "m"),
   some (chars! "Tp", chars! "s"),
   some (chars! "zne", chars! "m"),
   some (chars! "x", chars! "m"),
   some (chars! "y", chars! "m"),
   some (chars! "ds", chars! "m"),
   some (chars! "dn", chars! "m"),
   some (chars! "dsdn", chars! "m^2"),
   some (chars! "dsdni", chars! "m^-2"),
   some (chars! "zb", chars! "m"),
   some (chars! "zs", chars! "m"),
   some (chars! "zne", chars! "m"),
   some (chars! "zb0", chars! "m"),
   some (chars! "zdry", chars! "m"),
   some (chars! "dzdry", chars! "m"),
   some (chars! "dzb", chars! "m/dt"),
   some (chars! "dzbyear", chars! "m/yr"),
   some (chars! "dzbavg", chars! "m/year"),
   some (chars! "S", chars! "-"),
   none,
   none,
   none,
   none,
   none,
   none,
   none,
   none,
   none,
   none,
   none,
   none,
   none,
   none,
   some (chars! "ustar", chars! "m/s"),
   some (chars! "ustars", chars! "m/s"),
   some (chars! "ustarn", chars! "m/s"),
   some (chars! "ustar0", chars! "m/s"),
   some (chars! "zsep", chars! "m"),
   some (chars! "hsep", chars! "m"),
   some (chars! "theta_stat", chars! "degrees"),
   some (chars! "theta_dyn", chars! "degrees"),
   some (chars! "rhoveg", chars! "-"),
   none,
   some (chars! "hveg", chars! "m"),
   some (chars! "dhveg", chars! "m"),
   some (chars! "dzbveg", chars! "m"),
   none,
   none,
   none,
   none,
   some (chars! "R", chars! "m"),
   some (chars! "eta", chars! "m"),
   some (chars! "sigma_s", chars! "m"),
   some (chars! "TWL", chars! "m"),
   some (chars! "SWL", chars! "m"),
   some (chars! "DSWL", chars! "m"),
   some (chars! "Rti", chars! "-"),
   some (chars! "Cu", chars! "kg/m^2"),
   some (chars! "Cuf", chars! "kg/m^2"),
   some (chars! "Cu0", chars! "kg/m^2"),
   some (chars! "Ct", chars! "kg/m^2"),
   some (chars! "q", chars! "kg/m/s"),
   some (chars! "qs", chars! "kg/m/s"),
   some (chars! "qn", chars! "kg/m/s"),
   some (chars! "pickup", chars! "kg/m^2"),
   some (chars! "w", chars! "-"),
   some (chars! "w_init", chars! "-"),
   some (chars! "w_air", chars! "-"),
   some (chars! "w_bed", chars! "-"),
   some (chars! "uth", chars! "m/s"),
   some (chars! "uthf", chars! "m/s"),
   some (chars! "uth0", chars! "m/s"),
   some (chars! "u", chars! "m/s"),
   some (chars! "us", chars! "m/s"),
   some (chars! "un", chars! "m/s"),
   none,
   some (chars! "thlyr", chars! "m"),
   some (chars! "salt", chars! "-"),
   some (chars! "mass", chars! "kg/m^2")] := by
  decide +kernel

/-- **C119** The units in the output file of each variable of the model: those in the comment of the variable. -/
theorem C119_units_of_variables :
    ∀ e ∈ unitsTable, ∀ n ∈ e.2, unitsAttribute (some constantsLines) n.toList = some e.1.toList := by
  simp only [unitsAttribute, parseUnits_lineUnits, lineUnits_eq]
  decide +kernel

/-- **C119** The variables of the model without units in the output file are exactly: all variables for soil moisture and groundwater
(their comments have a tag before the brackets), and those without brackets. -/
theorem C119_variables_without_units :
    ∀ e ∈ dimensions, (unitsAttribute (some constantsLines) e.1.toList = none ↔ e.1 ∈ withoutUnits) := by
  simp only [unitsAttribute, parseUnits_lineUnits, lineUnits_eq]
  decide +kernel

/-- **C119** Whatever the file says, no variable gets an empty text as units: the attribute is missing then; any other text is written as
it was found. -/
theorem C119_never_empty (lines : Option (List Text)) (var u : Text) :
    unitsAttribute lines var = some u ↔ parseUnits lines var = some u ∧ u ≠ [] := by
  unfold unitsAttribute
  cases h : parseUnits lines var with
  | none => simp
  | some t =>
    cases t with
    | nil =>
      simp only [Option.some.injEq, reduceCtorEq, false_iff, not_and, not_not]
      exact fun h => h.symm
    | cons a t =>
      simp only [Option.some.injEq]
      constructor
      · rintro rfl; simp
      · exact fun h => h.1

example : unitsAttribute (some ["'a', # [] empty".toList]) "a".toList = none := by decide +kernel

example : matchLine "   'zb',   # [m] Bed level above reference".toList = some ("zb".toList, "m".toList) :=
  C119_line "   ".toList "   ".toList " ".toList "zb".toList "m".toList " Bed level above reference".toList
    (by decide +kernel) (by decide +kernel) (by decide +kernel) (by decide +kernel) (by decide +kernel) (by decide +kernel)

example : matchLine "   'moist',   #NEWCH      # [-] Moisture content".toList = none :=
  C119_tag_hides_units "   ".toList "   ".toList [] "moist".toList "EWCH      # [-] Moisture content".toList 'N'
    (by decide +kernel) (by decide +kernel) (by simp) (by decide +kernel) (by decide) (by decide) (by decide) (by decide +kernel)

example : parseUnits (some ["'a', # [m]".toList, "'b', # [-]".toList, "'a', # [s]".toList]) "a".toList = some "s".toList := by
  decide +kernel

example : ∃ sp1 sp2 sp3 rest : Text, (∀ x ∈ sp1 ++ sp2 ++ sp3, x.isWhitespace = true) ∧
    " 'zb', # [m] Bed level".toList
      = sp1 ++ '\'' :: ("zb".toList ++ '\'' :: ',' :: (sp2 ++ '#' :: (sp3 ++ '[' :: ("m".toList ++ ']' :: rest)))) :=
  C119_line_form _ _ _ (by decide +kernel)

example : parseUnits (some (["'a', # [m]".toList] ++ "'a', # [-]".toList :: ["'b', # [s]".toList])) "a".toList = some ['1'] :=
  ((C119_last_line_counts "a".toList).1 _ _ "'a', # [-]".toList "-".toList (by decide +kernel) (by
    intro l hl v h
    obtain rfl : l = "'b', # [s]".toList := by simpa using hl
    rw [show matchLine "'b', # [s]".toList = some ("b".toList, "s".toList) by decide +kernel] at h
    simp at h)).trans (by decide)

end Aeolis.Props
