import Verif.Spec.Config
import Mathlib.Tactic.Linarith
import Mathlib.Tactic.Ring
import Mathlib.Tactic.NormNum
import Mathlib.Tactic.IntervalCases
import Mathlib.Tactic.SplitIfs
import Mathlib.Data.List.Basic
import Mathlib.Data.List.TakeWhile
import Mathlib.Data.List.DropRight

/-! Lemmas on the configuration text format. -/

namespace Aeolis.Config

open Aeolis.Spec

theorem digitChar_toNat {d : ℕ} (h : d < 10) : (digitChar d).toNat = 48 + d := by
  interval_cases d <;> rfl

theorem isDigit_digitChar {d : ℕ} (h : d < 10) : isDigit (digitChar d) = true := by
  interval_cases d <;> rfl

theorem isDigit_iff (c : Char) : isDigit c = true ↔ ∃ d < 10, c = digitChar d := by
  constructor
  · intro h
    unfold isDigit at h
    simp only [Bool.and_eq_true, decide_eq_true_eq] at h
    obtain ⟨h1, h2⟩ := h
    have a1 : 48 ≤ c.toNat := h1
    have a2 : c.toNat ≤ 57 := h2
    refine ⟨c.toNat - 48, by omega, ?_⟩
    unfold digitChar
    rw [show 48 + (c.toNat - 48) = c.toNat by omega, Char.ofNat_toNat]
  · rintro ⟨d, hd, rfl⟩
    exact isDigit_digitChar hd

theorem digitChar_ne_minus {d : ℕ} (h : d < 10) : digitChar d ≠ '-' := by
  interval_cases d <;> decide

theorem digitChar_ne_dot {d : ℕ} (h : d < 10) : digitChar d ≠ '.' := by
  interval_cases d <;> decide

/-- Texts of digits. -/
theorem all_digits_iff (s : Text) : s.all isDigit = true ↔ ∃ ds, Digits ds s := by
  constructor
  · intro h
    rw [List.all_eq_true] at h
    induction s with
    | nil => exact ⟨[], by simp [Digits]⟩
    | cons c s ih =>
      obtain ⟨ds, hd, hs⟩ := ih fun x hx => h x (List.mem_cons_of_mem _ hx)
      obtain ⟨d, hd', hc⟩ := (isDigit_iff c).mp (h c List.mem_cons_self)
      exact ⟨d :: ds, by simp only [List.mem_cons, forall_eq_or_imp]; exact ⟨hd', hd⟩, by rw [List.map_cons, hc, hs]⟩
  · rintro ⟨ds, hd, rfl⟩
    rw [List.all_eq_true]
    intro c hc
    obtain ⟨d, hd', rfl⟩ := List.mem_map.mp hc
    exact isDigit_digitChar (hd d hd')

theorem foldl_natOf (ds : List ℕ) (h : ∀ d ∈ ds, d < 10) (n : ℕ) :
    (ds.map digitChar).foldl (fun n c => 10 * n + (c.toNat - 48)) n = n * 10 ^ ds.length + value ds := by
  induction ds generalizing n with
  | nil => simp [value]
  | cons d ds ih =>
    rw [List.map_cons, List.foldl_cons, digitChar_toNat (h d List.mem_cons_self),
      ih (fun x hx => h x (List.mem_cons_of_mem _ hx))]
    unfold value
    rw [List.reverse_cons, Nat.ofDigits_append, Nat.ofDigits_singleton, List.length_reverse, List.length_cons]
    rw [show 48 + d - 48 = d by omega]
    ring

theorem natOf_digits {ds : List ℕ} {s : Text} (h : Digits ds s) : natOf s = value ds := by
  rw [h.2]
  unfold natOf
  rw [foldl_natOf ds h.1, zero_mul, zero_add]

theorem _root_.Aeolis.Spec.Digits.length {ds : List ℕ} {s : Text} (h : Digits ds s) : s.length = ds.length := by
  rw [h.2, List.length_map]

theorem _root_.Aeolis.Spec.Digits.head_ne_minus {ds : List ℕ} {s : Text} (h : Digits ds s) (r : Text) : s ≠ '-' :: r := by
  rw [h.2]
  cases ds with
  | nil => simp
  | cons d ds =>
    intro h'
    rw [List.map_cons, List.cons.injEq] at h'
    exact digitChar_ne_minus (h.1 d List.mem_cons_self) h'.1

theorem _root_.Aeolis.Spec.Digits.no_dot {ds : List ℕ} {s : Text} (h : Digits ds s) : '.' ∉ s := by
  rw [h.2]
  intro h'
  obtain ⟨d, hd, he⟩ := List.mem_map.mp h'
  exact digitChar_ne_dot (h.1 d hd) he

/-- The sign of a text that does not itself start with a minus sign. -/
theorem unsigned_of_ne {s : Text} (h : ∀ r, s ≠ '-' :: r) : unsigned s = s ∧ negative s = false := by
  match s, h with
  | [], _ => exact ⟨rfl, rfl⟩
  | c :: r, h =>
    by_cases hc : c = '-'
    · subst hc; exact absurd rfl (h r)
    · constructor
      · unfold unsigned; split
        · rename_i heq; simp only [List.cons.injEq] at heq; exact absurd heq.1 hc
        · rfl
      · unfold negative; split
        · rename_i heq; simp only [List.cons.injEq] at heq; exact absurd heq.1 hc
        · rfl

theorem unsigned_cases (s : Text) :
    (unsigned s = s ∧ negative s = false ∧ ∀ r, s ≠ '-' :: r) ∨ (s = '-' :: unsigned s ∧ negative s = true) := by
  match s with
  | [] => left; exact ⟨rfl, rfl, by simp⟩
  | c :: r =>
    by_cases hc : c = '-'
    · subst hc; right; exact ⟨rfl, rfl⟩
    · left
      have : ∀ r', c :: r ≠ '-' :: r' := by intro r' h'; simp only [List.cons.injEq] at h'; exact hc h'.1
      exact ⟨(unsigned_of_ne this).1, (unsigned_of_ne this).2, this⟩

theorem looksInt_iff (s : Text) : looksInt s = true ↔ IsInt s (pyInt s) := by
  unfold looksInt
  rw [Bool.and_eq_true]
  constructor
  · rintro ⟨h1, h2⟩
    obtain ⟨ds, hd⟩ := (all_digits_iff _).mp h2
    refine ⟨ds, unsigned s, ?_, hd, ?_⟩
    · rintro rfl
      have := hd.2
      rw [List.map_nil] at this
      rw [this] at h1
      simp at h1
    · unfold pyInt
      rw [natOf_digits hd]
      rcases unsigned_cases s with ⟨a, b, -⟩ | ⟨a, b⟩
      · left; rw [b]; exact ⟨a.symm, by simp⟩
      · right; rw [b]; exact ⟨a, by simp⟩
  · rintro ⟨ds, body, hne, hd, h | h⟩
    · obtain ⟨rfl, -⟩ := h
      rw [(unsigned_of_ne hd.head_ne_minus).1]
      refine ⟨?_, (all_digits_iff _).mpr ⟨ds, hd⟩⟩
      rw [hd.2]; simpa using hne
    · obtain ⟨rfl, -⟩ := h
      show _ ∧ List.all body isDigit = true
      refine ⟨?_, (all_digits_iff _).mpr ⟨ds, hd⟩⟩
      show (!List.isEmpty body) = true
      rw [hd.2]; simpa using hne

theorem isInt_value {s : Text} {i : ℤ} (h : IsInt s i) : looksInt s = true ∧ pyInt s = i := by
  have hl : looksInt s = true := by
    obtain ⟨ds, body, hne, hd, h⟩ := h
    unfold looksInt
    rw [Bool.and_eq_true]
    rcases h with ⟨rfl, -⟩ | ⟨rfl, -⟩
    · rw [(unsigned_of_ne hd.head_ne_minus).1]
      refine ⟨?_, (all_digits_iff _).mpr ⟨ds, hd⟩⟩
      rw [hd.2]; simpa using hne
    · show (!List.isEmpty body) = true ∧ List.all body isDigit = true
      refine ⟨?_, (all_digits_iff _).mpr ⟨ds, hd⟩⟩
      rw [hd.2]; simpa using hne
  refine ⟨hl, ?_⟩
  obtain ⟨ds, body, hne, hd, h⟩ := h
  unfold pyInt
  rcases h with ⟨rfl, rfl⟩ | ⟨rfl, rfl⟩
  · rw [(unsigned_of_ne hd.head_ne_minus).1, (unsigned_of_ne hd.head_ne_minus).2, natOf_digits hd]
    simp
  · show (if true then -(natOf body : ℤ) else _) = _
    rw [natOf_digits hd]; simp

theorem looksNum_iff (s : Text) : looksNum s = true ↔ NumberLike s := by
  unfold looksNum
  rw [Bool.and_eq_true, List.all_eq_true]
  constructor
  · rintro ⟨h1, h2⟩
    refine ⟨unsigned s, by simpa using h1, ?_, ?_⟩
    · intro c hc
      have := h2 c hc
      simp only [Bool.or_eq_true, beq_iff_eq] at this
      rcases this with h | h
      · exact Or.inr ((isDigit_iff c).mp h)
      · exact Or.inl h
    · rcases unsigned_cases s with ⟨a, -, -⟩ | ⟨a, -⟩
      · exact Or.inl a.symm
      · exact Or.inr a
  · rintro ⟨body, hne, hall, h⟩
    have hu : unsigned s = body := by
      rcases h with rfl | rfl
      · refine (unsigned_of_ne ?_).1
        rintro r rfl
        rcases hall '-' List.mem_cons_self with h | ⟨d, hd, h⟩
        · exact absurd h (by decide)
        · exact absurd h.symm (digitChar_ne_minus hd)
      · rfl
    rw [hu]
    refine ⟨by simpa using hne, ?_⟩
    intro c hc
    rcases hall c hc with rfl | ⟨d, hd, rfl⟩
    · rfl
    · rw [isDigit_digitChar hd]; rfl

theorem splitOn_ne_nil (c : Char) (s : Text) : splitOn c s ≠ [] := by
  cases s with
  | nil => simp [splitOn]
  | cons x xs =>
    unfold splitOn
    split_ifs
    · simp
    · split <;> simp

theorem splitOn_not_mem {c : Char} {s : Text} (h : c ∉ s) : splitOn c s = [s] := by
  induction s with
  | nil => rfl
  | cons x xs ih =>
    rw [List.mem_cons, not_or] at h
    unfold splitOn
    rw [if_neg (Ne.symm h.1), ih h.2]

theorem splitOn_append {c : Char} {a : Text} (h : c ∉ a) (s : Text) : splitOn c (a ++ c :: s) = a :: splitOn c s := by
  induction a with
  | nil => simp [splitOn]
  | cons x xs ih =>
    rw [List.mem_cons, not_or] at h
    rw [List.cons_append]
    conv_lhs => unfold splitOn
    rw [if_neg (Ne.symm h.1), ih h.2]

/-- `split` gives the separated items. -/
theorem splitOn_separated (c : Char) (s : Text) : Separated c s (splitOn c s) := by
  refine ⟨splitOn_ne_nil c s, ?_, ?_⟩
  · induction s with
    | nil => simp [splitOn]
    | cons x xs ih =>
      unfold splitOn
      split_ifs with h
      · intro y hy
        rcases List.mem_cons.mp hy with rfl | hy
        · simp
        · exact ih y hy
      · split
        · rename_i heq
          exact absurd heq (splitOn_ne_nil c xs)
        · rename_i p ps heq
          rw [heq] at ih
          intro y hy
          rcases List.mem_cons.mp hy with rfl | hy
          · rw [List.mem_cons, not_or]
            exact ⟨Ne.symm h, ih p List.mem_cons_self⟩
          · exact ih y (List.mem_cons_of_mem _ hy)
  · induction s with
    | nil => simp [splitOn, List.intercalate]
    | cons x xs ih =>
      unfold splitOn
      split_ifs with h
      · subst h
        have hne := splitOn_ne_nil x xs
        cases hs : splitOn x xs with
        | nil => exact absurd hs hne
        | cons p ps =>
          rw [hs] at ih
          rw [ih]
          simp [List.intercalate, List.intersperse]
      · split
        · rename_i heq
          exact absurd heq (splitOn_ne_nil c xs)
        · rename_i p ps heq
          rw [heq] at ih
          rw [ih]
          cases ps <;> simp [List.intercalate, List.intersperse]

theorem separated_unique {c : Char} {s : Text} {l : List Text} (h : Separated c s l) : splitOn c s = l := by
  obtain ⟨hne, hall, rfl⟩ := h
  induction l with
  | nil => exact absurd rfl hne
  | cons a l ih =>
    cases l with
    | nil =>
      have : List.intercalate [c] [a] = a := by simp [List.intercalate]
      rw [this]
      exact splitOn_not_mem (hall a List.mem_cons_self)
    | cons b l =>
      have : List.intercalate [c] (a :: b :: l) = a ++ c :: List.intercalate [c] (b :: l) := by
        simp [List.intercalate, List.intersperse]
      rw [this, splitOn_append (hall a List.mem_cons_self), ih (by simp) (fun x hx => hall x (List.mem_cons_of_mem _ hx))]

theorem cutComment_spec (s : Text) : BeforeComment s (cutComment s) := by
  unfold cutComment BeforeComment
  constructor
  · intro h
    have := List.mem_takeWhile_imp h
    simp at this
  · induction s with
    | nil => left; rfl
    | cons x xs ih =>
      by_cases hx : x = '%'
      · subst hx; right; exact ⟨xs, by simp⟩
      · rw [List.takeWhile_cons_of_pos (by simpa using hx)]
        rcases ih with h | ⟨r, h⟩
        · left; rw [← h]
        · right; exact ⟨r, by rw [List.cons_append, ← h]⟩

theorem beforeComment_unique {s u : Text} (h : BeforeComment s u) : cutComment s = u := by
  obtain ⟨h1, rfl | ⟨r, rfl⟩⟩ := h
  · unfold cutComment
    rw [List.takeWhile_eq_self_iff]
    intro c hc
    simp only [ne_eq, decide_not, Bool.not_eq_eq_eq_not, Bool.not_true, decide_eq_false_iff_not]
    rintro rfl
    exact h1 hc
  · unfold cutComment
    rw [List.takeWhile_append_of_pos]
    · simp
    · intro c hc
      simp only [ne_eq, decide_not, Bool.not_eq_eq_eq_not, Bool.not_true, decide_eq_false_iff_not]
      rintro rfl
      exact h1 hc

theorem strip_eq {a v b : Text} (ha : ∀ c ∈ a, isSpace c = true) (hb : ∀ c ∈ b, isSpace c = true)
    (hv1 : ∀ c, v.head? = some c → isSpace c = false) (hv2 : ∀ c, v.getLast? = some c → isSpace c = false) :
    strip (a ++ v ++ b) = v := by
  unfold strip
  cases v with
  | nil =>
    rw [List.append_nil, List.dropWhile_append_of_pos ha]
    have : List.dropWhile isSpace b = [] := by rw [List.dropWhile_eq_nil_iff]; exact hb
    rw [this]; rfl
  | cons x v =>
    rw [List.append_assoc, List.dropWhile_append_of_pos ha, List.cons_append]
    rw [List.dropWhile_cons_of_neg (by rw [hv1 x rfl]; simp)]
    rw [← List.cons_append, List.reverse_append,
      List.dropWhile_append_of_pos (by intro c hc; exact hb c (List.mem_reverse.mp hc))]
    have hl : ∀ c, (x :: v).reverse.head? = some c → isSpace c = false := by
      intro c hc
      rw [List.head?_reverse] at hc
      exact hv2 c hc
    cases hr : (x :: v).reverse with
    | nil => simp at hr
    | cons y w =>
      rw [hr] at hl
      rw [List.dropWhile_cons_of_neg (by rw [hl y rfl]; simp), ← hr, List.reverse_reverse]

theorem strip_spec (u : Text) : Stripped u (strip u) := by
  set w := u.dropWhile isSpace with hw
  refine ⟨u.takeWhile isSpace, (w.reverse.takeWhile isSpace).reverse, ?_, ?_, ?_, ?_, ?_⟩
  · unfold strip
    rw [← hw, List.append_assoc, ← List.reverse_append, List.takeWhile_append_dropWhile, List.reverse_reverse, hw,
      List.takeWhile_append_dropWhile]
  · intro c hc; exact List.mem_takeWhile_imp hc
  · intro c hc; exact List.mem_takeWhile_imp (List.mem_reverse.mp hc)
  · intro c hc
    have hst : strip u = (w.reverse.dropWhile isSpace).reverse := by unfold strip; rw [← hw]
    -- the head of `strip u` is the head of `w`
    have hpre : strip u <+: w := by
      rw [hst]
      have : w.reverse.dropWhile isSpace <:+ w.reverse := List.dropWhile_suffix _
      have h2 := List.reverse_prefix.mpr this
      rwa [List.reverse_reverse] at h2
    obtain ⟨t, ht⟩ := hpre
    have : w.head? = some c := by
      rw [← ht]
      cases hs : strip u with
      | nil => rw [hs] at hc; simp at hc
      | cons x v => rw [hs] at hc; simpa using hc
    have hnot := List.head?_dropWhile_not isSpace u
    rw [← hw, this] at hnot
    simpa using hnot
  · intro c hc
    have hst : strip u = (w.reverse.dropWhile isSpace).reverse := by unfold strip; rw [← hw]
    rw [hst, List.getLast?_reverse] at hc
    have hnot := List.head?_dropWhile_not isSpace w.reverse
    rw [hc] at hnot
    simpa using hnot

theorem stripped_unique {u v : Text} (h : Stripped u v) : strip u = v := by
  obtain ⟨a, b, rfl, ha, hb, h1, h2⟩ := h
  exact strip_eq ha hb h1 h2

/-- What `float` makes of a text of digits and points. -/
theorem pyFloat_decimal {s : Text} {q : ℚ} (h : IsDecimal s q) : pyFloat s = .ok q := by
  obtain ⟨as, bs, a, b, hne, ha, hb, h⟩ := h
  have hsplit : splitOn '.' (a ++ '.' :: b) = [a, b] := by
    rw [splitOn_append ha.no_dot, splitOn_not_mem hb.no_dot]
  have hm : ∀ r, a ++ '.' :: b ≠ '-' :: r := by
    intro r
    cases hA : a with
    | nil => simp
    | cons x a' =>
      intro h'
      rw [List.cons_append, List.cons.injEq] at h'
      exact ha.head_ne_minus a' (by rw [hA, h'.1])
  have hempty : (a.isEmpty && b.isEmpty) = false := by
    rw [ha.2, hb.2]
    rcases hne with h | h
    · cases as with
      | nil => exact absurd rfl h
      | cons _ _ => rfl
    · cases bs with
      | nil => exact absurd rfl h
      | cons _ _ => simp
  unfold pyFloat
  rcases h with ⟨rfl, rfl⟩ | ⟨rfl, rfl⟩
  · rw [(unsigned_of_ne hm).1, (unsigned_of_ne hm).2, hsplit]
    simp [hempty, natOf_digits ha, natOf_digits hb, hb.length]
  · have e1 : unsigned ('-' :: (a ++ '.' :: b)) = a ++ '.' :: b := rfl
    have e2 : negative ('-' :: (a ++ '.' :: b)) = true := rfl
    rw [e1, e2, hsplit]
    simp [hempty, natOf_digits ha, natOf_digits hb, hb.length]

/-- A number-like text is an integer, a decimal number, or rejected by `float`. -/
theorem pyFloat_cases {s : Text} (h : NumberLike s) (hi : looksInt s = false) :
    (∃ q, IsDecimal s q) ∨ pyFloat s = .error .valueError := by
  have hnum := (looksNum_iff s).mpr h
  unfold looksNum at hnum
  rw [Bool.and_eq_true, List.all_eq_true] at hnum
  have hsep := splitOn_separated '.' (unsigned s)
  have hdig : ∀ x ∈ splitOn '.' (unsigned s), ∃ ds, Digits ds x := by
    intro x hx
    rw [← all_digits_iff, List.all_eq_true]
    intro c hc
    have hcu : c ∈ unsigned s := by
      rw [hsep.2.2]
      generalize splitOn '.' (unsigned s) = l at hx
      induction l with
      | nil => simp at hx
      | cons a l ih =>
        rcases List.mem_cons.mp hx with rfl | hx
        · cases l <;> simp [List.intercalate, List.intersperse, hc]
        · cases l with
          | nil => simp at hx
          | cons b l =>
            have := ih hx
            simp only [List.intercalate, List.intersperse, List.flatten_cons, List.mem_append] at this ⊢
            right; right; exact this
    have := hnum.2 c hcu
    simp only [Bool.or_eq_true, beq_iff_eq] at this
    rcases this with h | rfl
    · exact h
    · exact absurd hc (hsep.2.1 x hx)
  unfold pyFloat
  match hl : splitOn '.' (unsigned s) with
  | [] => exact absurd hl (splitOn_ne_nil _ _)
  | [a] =>
    -- no point: an integer
    exfalso
    have : unsigned s = a := by
      have := hsep.2.2
      rw [hl] at this
      rw [this]; simp [List.intercalate]
    obtain ⟨ds, hd⟩ := hdig a (by rw [hl]; simp)
    have : looksInt s = true := by
      unfold looksInt
      rw [Bool.and_eq_true]
      exact ⟨hnum.1, by rw [this]; exact (all_digits_iff a).mpr ⟨ds, hd⟩⟩
    rw [this] at hi
    exact absurd hi (by simp)
  | [a, b] =>
    obtain ⟨as, ha⟩ := hdig a (by rw [hl]; simp)
    obtain ⟨bs, hb⟩ := hdig b (by rw [hl]; simp)
    have hu : unsigned s = a ++ '.' :: b := by
      have := hsep.2.2
      rw [hl] at this
      rw [this]; simp [List.intercalate, List.intersperse]
    by_cases hne : as ≠ [] ∨ bs ≠ []
    · left
      rcases unsigned_cases s with ⟨e1, -, -⟩ | ⟨e1, -⟩
      · exact ⟨_, as, bs, a, b, hne, ha, hb, Or.inl ⟨by rw [← hu]; exact e1.symm, rfl⟩⟩
      · exact ⟨_, as, bs, a, b, hne, ha, hb, Or.inr ⟨by rw [← hu]; exact e1, rfl⟩⟩
    · right
      push Not at hne
      rw [ha.2, hb.2, hne.1, hne.2]
      rfl
  | _ :: _ :: _ :: _ =>
    right; rfl

theorem decimal_not_int {s : Text} {q : ℚ} (h : IsDecimal s q) : looksInt s = false ∧ looksNum s = true := by
  obtain ⟨as, bs, a, b, hne, ha, hb, h⟩ := h
  constructor
  · by_contra hI
    have := (looksInt_iff s).mp (by simpa using hI)
    obtain ⟨ds, body, hne', hd, h'⟩ := this
    have hdot : '.' ∈ s := by
      rcases h with ⟨rfl, -⟩ | ⟨rfl, -⟩ <;> simp
    rcases h' with ⟨rfl, -⟩ | ⟨rfl, -⟩
    · exact hd.no_dot hdot
    · rcases List.mem_cons.mp hdot with h | h
      · exact absurd h (by decide)
      · exact hd.no_dot h
  · rw [looksNum_iff]
    refine ⟨a ++ '.' :: b, by simp, ?_, ?_⟩
    · intro c hc
      rw [List.mem_append, List.mem_cons] at hc
      rcases hc with hc | rfl | hc
      · rw [ha.2] at hc
        obtain ⟨d, hd, rfl⟩ := List.mem_map.mp hc
        exact Or.inr ⟨d, ha.1 d hd, rfl⟩
      · exact Or.inl rfl
      · rw [hb.2] at hc
        obtain ⟨d, hd, rfl⟩ := List.mem_map.mp hc
        exact Or.inr ⟨d, hb.1 d hd, rfl⟩
    · rcases h with ⟨rfl, -⟩ | ⟨rfl, -⟩
      · exact Or.inl rfl
      · exact Or.inr rfl

theorem looksInt_looksNum {s : Text} (h : looksInt s = true) : looksNum s = true := by
  unfold looksInt at h
  unfold looksNum
  rw [Bool.and_eq_true, List.all_eq_true] at *
  refine ⟨h.1, ?_⟩
  intro c hc
  rw [h.2 c hc]; rfl

theorem none_not_num (r : Text) : looksNum ("None".toList ++ r) = false ∧ looksInt ("None".toList ++ r) = false := by
  have h : looksNum ("None".toList ++ r) = false := rfl
  refine ⟨h, ?_⟩
  by_contra h'
  have := looksInt_looksNum (Bool.of_not_eq_false h')
  rw [h] at this
  exact absurd this (by simp)

theorem pyFloat_int {s : Text} (h : looksInt s = true) : ∃ q, pyFloat s = .ok q := by
  unfold looksInt at h
  rw [Bool.and_eq_true] at h
  obtain ⟨ds, hd⟩ := (all_digits_iff _).mp h.2
  unfold pyFloat
  rw [splitOn_not_mem hd.no_dot]
  exact ⟨_, rfl⟩

variable {T : Type}

/-- The value of a text without spaces. -/
theorem parseScalar_iff (fs : Files T) (hfs : fs [] = none) (pf : Bool) (s : Text) (r : Except PyErr (Scalar T)) :
    parseScalar fs pf s = r ↔ ScalarDenotes fs pf s r := by
  constructor
  · rintro rfl
    unfold parseScalar
    split_ifs with h1 h2 h3 h4 he0
    · rcases h1 with rfl | rfl
      · exact .yes
      · exact .no
    · exact .int _ _ ((looksInt_iff s).mp h2)
    · have hn := (looksNum_iff s).mp h3
      rcases pyFloat_cases hn (by simpa using h2) with ⟨q, hq⟩ | he
      · rw [pyFloat_decimal hq]
        exact .decimal _ _ hq
      · rw [he]
        refine .badNumber _ hn ?_ ?_
        · rintro ⟨i, hi⟩
          exact h2 (isInt_value hi).1
        · rintro ⟨q, hq⟩
          rw [pyFloat_decimal hq] at he
          exact absurd he (by simp)
    · obtain ⟨r, rfl⟩ := h4
      exact .none r
    · subst he0
      rw [hfs]
      exact .empty
    · have hp : Plain s := by
        refine ⟨he0, fun h => h1 (Or.inl h), fun h => h1 (Or.inr h), fun h => h3 ((looksNum_iff s).mpr h), ?_⟩
        rintro r rfl
        exact h4 ⟨r, rfl⟩
      match hf : fs s, pf with
      | some (some t), true => exact .file _ _ hp rfl hf
      | some none, true =>
        refine .text _ hp ?_
        intro _ t h
        rw [hf] at h; simp at h
      | none, true =>
        refine .text _ hp ?_
        intro _ t h
        rw [hf] at h; simp at h
      | some (some _), false => exact .text _ hp (by simp)
      | some none, false => exact .text _ hp (by simp)
      | none, false => exact .text _ hp (by simp)
  · intro h
    cases h with
    | yes => rfl
    | no => rfl
    | int _ i hi =>
      have := isInt_value hi
      unfold parseScalar
      rw [if_neg, if_pos this.1, this.2]
      rintro (rfl | rfl)
      · exact absurd this.1 (by decide)
      · exact absurd this.1 (by decide)
    | decimal _ q hq =>
      have := decimal_not_int hq
      unfold parseScalar
      rw [if_neg, this.1, this.2]
      · rw [pyFloat_decimal hq]; rfl
      · rintro (rfl | rfl)
        · exact absurd this.2 (by decide)
        · exact absurd this.2 (by decide)
    | badNumber _ hn hi hq =>
      have h3 := (looksNum_iff s).mpr hn
      have h2 : looksInt s = false := by
        by_contra h
        exact hi ⟨_, (looksInt_iff s).mp (Bool.of_not_eq_false h)⟩
      unfold parseScalar
      rw [if_neg, h2, h3]
      · rcases pyFloat_cases hn h2 with h | h
        · exact absurd h hq
        · rw [h]; rfl
      · rintro (rfl | rfl)
        · exact absurd h3 (by decide)
        · exact absurd h3 (by decide)
    | none r =>
      unfold parseScalar
      rw [if_neg, if_neg, if_neg, if_pos ⟨r, rfl⟩]
      · rw [(none_not_num r).1]; simp
      · rw [(none_not_num r).2]; simp
      · rintro (h | h)
        · exact absurd (congrArg List.length h) (by simp)
        · exact absurd (congrArg List.length h) (by simp)
    | empty =>
      unfold parseScalar
      rw [hfs]
      rfl
    | file _ t hp hpf ht =>
      obtain ⟨p0, p1, p2, p3, p4⟩ := hp
      unfold parseScalar
      rw [if_neg (by rintro (h | h); exacts [p1 h, p2 h]), if_neg, if_neg, if_neg, ht, hpf]
      · rintro ⟨r, h⟩; exact p4 r h.symm
      · rw [looksNum_iff]; exact p3
      · intro h; exact p3 ((looksNum_iff s).mp (looksInt_looksNum h))
    | text _ hp ht =>
      obtain ⟨p0, p1, p2, p3, p4⟩ := hp
      unfold parseScalar
      rw [if_neg (by rintro (h | h); exacts [p1 h, p2 h]), if_neg, if_neg, if_neg]
      · split
        · rename_i t h hpf
          first | exact absurd h (ht rfl _) | exact absurd hpf (ht rfl _)
        · rfl
        · rw [if_neg p0]
      · rintro ⟨r, h⟩; exact p4 r h.symm
      · rw [looksNum_iff]; exact p3
      · intro h; exact p3 ((looksNum_iff s).mp (looksInt_looksNum h))

theorem parseScalar_error {fs : Files T} {pf : Bool} {s : Text} {e : PyErr} (h : parseScalar fs pf s = .error e) :
    e = .valueError := by
  unfold parseScalar at h
  split_ifs at h with h1 h2 h3 h4 he <;> try exact absurd h (by simp)
  · rcases pyFloat_cases ((looksNum_iff s).mp h3) (by simpa using h2) with ⟨q, hq⟩ | he
    · rw [pyFloat_decimal hq] at h; exact absurd h (by simp [Except.map])
    · rw [he] at h; simp only [Except.map, Except.error.injEq] at h; exact h.symm
  · match hf : fs s, pf with
    | some (some t), true => rw [hf] at h; exact absurd h (by simp)
    | some none, true => rw [hf] at h; exact absurd h (by simp)
    | none, true => rw [hf] at h; exact absurd h (by simp)
    | some (some _), false => rw [hf] at h; exact absurd h (by simp)
    | some none, false => rw [hf] at h; exact absurd h (by simp)
    | none, false => rw [hf] at h; exact absurd h (by simp)
  · match hf : fs s, pf with
    | some (some t), true => rw [hf] at h; exact absurd h (by simp)
    | some none, true => rw [hf] at h; exact absurd h (by simp)
    | none, true => rw [hf] at h; exact absurd h (by simp)
    | some (some _), false => rw [hf] at h; exact absurd h (by simp)
    | some none, false => rw [hf] at h; exact absurd h (by simp)
    | none, false => rw [hf] at h; exact absurd h (by simp)

/-- The type of a list: the highest of its items. -/
def topKind (l : List (Scalar T)) (k : Kind) : Kind :=
  l.foldl (fun k v => if k.rank < (kindOf v).rank then kindOf v else k) k

theorem topKind_rank (l : List (Scalar T)) (k : Kind) :
    (∀ x ∈ l, (kindOf x).rank ≤ (topKind l k).rank) ∧ k.rank ≤ (topKind l k).rank ∧
      (topKind l k = k ∨ ∃ x ∈ l, topKind l k = kindOf x) := by
  induction l generalizing k with
  | nil => simp [topKind]
  | cons a l ih =>
    have e : topKind (a :: l) k = topKind l (if k.rank < (kindOf a).rank then kindOf a else k) := rfl
    rw [e]
    obtain ⟨h1, h2, h3⟩ := ih (if k.rank < (kindOf a).rank then kindOf a else k)
    refine ⟨?_, ?_, ?_⟩
    · intro x hx
      rcases List.mem_cons.mp hx with rfl | hx
      · refine le_trans ?_ h2
        split_ifs with h
        · exact le_refl _
        · exact not_lt.mp h
      · exact h1 x hx
    · refine le_trans ?_ h2
      split_ifs with h
      · exact le_of_lt h
      · exact le_refl _
    · rcases h3 with h3 | ⟨x, hx, h3⟩
      · split_ifs at h3 ⊢ with h
        · right; exact ⟨a, List.mem_cons_self, h3⟩
        · left; exact h3
      · right; exact ⟨x, List.mem_cons_of_mem _ hx, h3⟩

theorem rank_injective {a b : Kind} (h : a.rank = b.rank) : a = b := by
  cases a <;> cases b <;> first | rfl | (exact absurd h (by decide))

theorem convert_str (rf : ℚ → Text) (x : Scalar T) : convert rf .str x = asText rf x := by
  rcases x with _ | (_ | _) | _ | _ | _ | _ <;> rfl

theorem convert_float (rf : ℚ → Text) (x : Scalar T) : convert rf .float x = asFloat x := by
  rcases x with _ | (_ | _) | _ | _ | _ | _ <;> first | rfl | (simp [convert, asFloat])

theorem convert_int (rf : ℚ → Text) (x : Scalar T) : convert rf .int x = asInt x := by
  rcases x with _ | (_ | _) | _ | _ | _ | _ <;> rfl

/-- The conversion of a list is the one to the common type. -/
theorem asarray_commonType (rf : ℚ → Text) (l : List (Scalar T)) : ∃ r, asarray rf l = .arr r ∧ CommonType rf l r := by
  have hk : asarray rf l = .arr (l.map (convert rf (topKind l .bool))) := rfl
  rw [hk]
  refine ⟨_, rfl, ?_⟩
  obtain ⟨h1, -, h3⟩ := topKind_rank l .bool
  generalize topKind l .bool = k at *
  have hlow : ∀ x ∈ l, ∀ m : Kind, k.rank < m.rank → kindOf x ≠ m := by
    intro x hx m hm he
    have := h1 x hx
    rw [he] at this
    omega
  cases k with
  | object =>
    have : l.map (convert rf .object) = l := by
      conv_rhs => rw [← List.map_id l]
      apply List.map_congr_left
      intro x _
      cases x <;> rfl
    rw [this]
    apply CommonType.object
    rcases h3 with h3 | ⟨x, hx, h3⟩
    · exact absurd h3 (by decide)
    · cases x with
      | none => left; exact hx
      | table t => right; exact ⟨t, hx⟩
      | _ => exact absurd h3 (by simp [kindOf])
  | str =>
    have : l.map (convert rf .str) = l.map (asText rf) := by
      apply List.map_congr_left
      intro x _
      exact convert_str rf x
    rw [this]
    apply CommonType.text
    · intro h; exact hlow _ h .object (by decide) rfl
    · intro t h; exact hlow _ h .object (by decide) rfl
    · rcases h3 with h3 | ⟨x, hx, h3⟩
      · exact absurd h3 (by decide)
      · cases x with
        | str v => exact ⟨v, hx⟩
        | _ => exact absurd h3 (by simp [kindOf])
  | float =>
    have : l.map (convert rf .float) = l.map asFloat := by
      apply List.map_congr_left
      intro x _
      exact convert_float rf x
    rw [this]
    apply CommonType.float
    · intro h; exact hlow _ h .object (by decide) rfl
    · intro t h; exact hlow _ h .object (by decide) rfl
    · intro t h; exact hlow _ h .str (by decide) rfl
    · rcases h3 with h3 | ⟨x, hx, h3⟩
      · exact absurd h3 (by decide)
      · cases x with
        | float v => exact ⟨v, hx⟩
        | _ => exact absurd h3 (by simp [kindOf])
  | int =>
    have : l.map (convert rf .int) = l.map asInt := by
      apply List.map_congr_left
      intro x _
      exact convert_int rf x
    rw [this]
    apply CommonType.int
    · intro h; exact hlow _ h .object (by decide) rfl
    · intro t h; exact hlow _ h .object (by decide) rfl
    · intro t h; exact hlow _ h .str (by decide) rfl
    · intro t h; exact hlow _ h .float (by decide) rfl
    · rcases h3 with h3 | ⟨x, hx, h3⟩
      · exact absurd h3 (by decide)
      · cases x with
        | int v => exact ⟨v, hx⟩
        | _ => exact absurd h3 (by simp [kindOf])
  | bool =>
    have : l.map (convert rf .bool) = l := by
      conv_rhs => rw [← List.map_id l]
      apply List.map_congr_left
      intro x _
      cases x <;> rfl
    rw [this]
    apply CommonType.bool
    intro x hx
    cases x with
    | bool b => exact ⟨b, rfl⟩
    | none => exact absurd rfl (hlow _ hx .object (by decide))
    | int _ => exact absurd rfl (hlow _ hx .int (by decide))
    | float _ => exact absurd rfl (hlow _ hx .float (by decide))
    | str _ => exact absurd rfl (hlow _ hx .str (by decide))
    | table _ => exact absurd rfl (hlow _ hx .object (by decide))

theorem topKind_eq {l : List (Scalar T)} {k : Kind} (h1 : ∀ x ∈ l, (kindOf x).rank ≤ k.rank)
    (h2 : ∃ x ∈ l, kindOf x = k) : topKind l .bool = k := by
  obtain ⟨a1, a2, a3⟩ := topKind_rank l .bool
  apply rank_injective
  obtain ⟨x, hx, rfl⟩ := h2
  have b1 := a1 x hx
  rcases a3 with a3 | ⟨y, hy, a3⟩
  · rw [a3] at b1 ⊢
    have : (Kind.bool).rank = 0 := rfl
    omega
  · have := h1 y hy
    rw [a3] at b1 ⊢
    omega

theorem commonType_asarray (rf : ℚ → Text) {l r : List (Scalar T)} (h : CommonType rf l r) : asarray rf l = .arr r := by
  have hk : asarray rf l = .arr (l.map (convert rf (topKind l .bool))) := rfl
  rw [hk]
  cases h with
  | object h =>
    have : topKind l .bool = .object := by
      apply topKind_eq
      · intro x _; cases x <;> simp [kindOf, Kind.rank]
      · rcases h with h | ⟨t, h⟩
        · exact ⟨_, h, rfl⟩
        · exact ⟨_, h, rfl⟩
    rw [this]
    congr 1
    conv_rhs => rw [← List.map_id l]
    apply List.map_congr_left
    intro x _
    cases x <;> rfl
  | text h1 h2 h3 =>
    have : topKind l .bool = .str := by
      apply topKind_eq
      · intro x hx
        cases x with
        | none => exact absurd hx h1
        | table t => exact absurd hx (h2 t)
        | _ => simp [kindOf, Kind.rank]
      · obtain ⟨s, h3⟩ := h3
        exact ⟨_, h3, rfl⟩
    rw [this]
    congr 1
    apply List.map_congr_left
    intro x _
    exact convert_str rf x
  | float h1 h2 h3 h4 =>
    have : topKind l .bool = .float := by
      apply topKind_eq
      · intro x hx
        cases x with
        | none => exact absurd hx h1
        | table t => exact absurd hx (h2 t)
        | str t => exact absurd hx (h3 t)
        | _ => simp [kindOf, Kind.rank]
      · obtain ⟨s, h3⟩ := h4
        exact ⟨_, h3, rfl⟩
    rw [this]
    congr 1
    apply List.map_congr_left
    intro x _
    exact convert_float rf x
  | int h1 h2 h3 h4 h5 =>
    have : topKind l .bool = .int := by
      apply topKind_eq
      · intro x hx
        cases x with
        | none => exact absurd hx h1
        | table t => exact absurd hx (h2 t)
        | str t => exact absurd hx (h3 t)
        | float t => exact absurd hx (h4 t)
        | _ => simp [kindOf, Kind.rank]
      · obtain ⟨s, h3⟩ := h5
        exact ⟨_, h3, rfl⟩
    rw [this]
    congr 1
    apply List.map_congr_left
    intro x _
    exact convert_int rf x
  | bool h =>
    have : topKind l .bool = .bool := by
      rcases (topKind_rank l .bool).2.2 with h' | ⟨x, hx, h'⟩
      · exact h'
      · obtain ⟨b, rfl⟩ := h x hx
        exact h'
    rw [this]
    congr 1
    conv_rhs => rw [← List.map_id l]
    apply List.map_congr_left
    intro x _
    cases x <;> rfl

theorem mapM_ok_iff {α β : Type*} (f : α → Except PyErr β) (l : List α) (vals : List β) :
    l.mapM f = .ok vals ↔ List.Forall₂ (fun x v => f x = .ok v) l vals := by
  induction l generalizing vals with
  | nil =>
    rw [List.mapM_nil]
    constructor
    · intro h
      simp only [pure, Except.pure, Except.ok.injEq] at h
      subst h; exact .nil
    · rintro ⟨⟩; rfl
  | cons a l ih =>
    rw [List.mapM_cons]
    constructor
    · intro h
      match ha : f a, hl : l.mapM f with
      | .error e, _ => rw [ha] at h; simp [bind, Except.bind] at h
      | .ok b, .error e => rw [ha, hl] at h; simp [bind, Except.bind] at h
      | .ok b, .ok bs =>
        rw [ha, hl] at h
        simp only [bind, Except.bind, pure, Except.pure, Except.ok.injEq] at h
        subst h
        exact .cons ha ((ih bs).mp hl)
    · intro h
      cases h with
      | cons h1 h2 =>
        rw [h1, (ih _).mpr h2]; rfl

theorem mapM_error {α β : Type*} (f : α → Except PyErr β) (e : PyErr) (he : ∀ a e', f a = .error e' → e' = e)
    (l : List α) : (∃ x ∈ l, f x = .error e) ↔ l.mapM f = .error e := by
  induction l with
  | nil => simp [pure, Except.pure]
  | cons a l ih =>
    rw [List.mapM_cons]
    match ha : f a with
    | .error e' =>
      obtain rfl := he a e' ha
      simp only [List.mem_cons, exists_eq_or_imp, ha, true_or, bind, Except.bind]
    | .ok b =>
      simp only [List.mem_cons, exists_eq_or_imp, ha, reduceCtorEq, false_or]
      rw [ih]
      match hl : l.mapM f with
      | .error e' => simp [bind, Except.bind]
      | .ok bs => simp [bind, Except.bind, pure, Except.pure]

theorem mapM_error_value {α β : Type*} (f : α → Except PyErr β) (e : PyErr) (he : ∀ a e', f a = .error e' → e' = e)
    (l : List α) (e' : PyErr) (h : l.mapM f = .error e') : e' = e := by
  induction l with
  | nil => simp [pure, Except.pure] at h
  | cons a l ih =>
    rw [List.mapM_cons] at h
    match ha : f a, hl : l.mapM f with
    | .error e2, _ =>
      rw [ha] at h
      simp only [bind, Except.bind, Except.error.injEq] at h
      exact h ▸ he a e2 ha
    | .ok b, .error e2 =>
      rw [ha, hl] at h
      simp only [bind, Except.bind, Except.error.injEq] at h
      exact ih (h ▸ hl)
    | .ok b, .ok bs => rw [ha, hl] at h; simp [bind, Except.bind, pure, Except.pure] at h

theorem mem_separated {c x : Char} {v : Text} {l : List Text} (h : Separated c v l) {w : Text} (hw : w ∈ l)
    (hx : x ∈ w) : x ∈ v := by
  rw [h.2.2]
  have hl := h.1
  clear h
  induction l with
  | nil => simp at hw
  | cons a l ih =>
    rcases List.mem_cons.mp hw with rfl | hw
    · cases l <;> simp [List.intercalate, List.intersperse, hx]
    · cases l with
      | nil => simp at hw
      | cons b l =>
        have := ih hw (by simp)
        simp only [List.intercalate, List.intersperse, List.flatten_cons, List.mem_append] at this ⊢
        right; right; exact this

theorem cutComment_of_not_mem {s : Text} (h : '%' ∉ s) : cutComment s = s :=
  beforeComment_unique ⟨h, Or.inl rfl⟩

theorem mem_stripped {u v : Text} (h : Stripped u v) {c : Char} (hc : c ∈ v) : c ∈ u := by
  obtain ⟨a, b, rfl, -⟩ := h
  simp [hc]

/-- The value of a list. -/
theorem parseList_iff (rf : ℚ → Text) (fs : Files T) (hfs : fs [] = none) (v : Text) (hv : '%' ∉ v)
    (r : Except PyErr (Val T)) :
    (match (splitOn ' ' v).mapM (fun x => parseScalar fs true (strip (cutComment x))) with
      | .error e => .error e
      | .ok items => .ok (asarray rf items)) = r ↔ ListDenotes rf fs v r := by
  have hsep := splitOn_separated ' ' v
  have hcut : ∀ x ∈ splitOn ' ' v, cutComment x = x := fun x hx =>
    cutComment_of_not_mem fun h => hv (mem_separated hsep hx h)
  have herr : ∀ a e', (fun x => parseScalar fs true (strip (cutComment x))) a = Except.error e' → e' = .valueError :=
    fun a e' h => parseScalar_error h
  constructor
  · rintro rfl
    cases hm : (splitOn ' ' v).mapM (fun x => parseScalar fs true (strip (cutComment x))) with
    | error e =>
      obtain rfl := mapM_error_value _ _ herr _ e hm
      obtain ⟨x, hx, hxe⟩ := (mapM_error _ _ herr _).mpr hm
      simp only [hcut x hx] at hxe
      exact .error _ x (strip x) hsep hx (strip_spec x) ((parseScalar_iff fs hfs true _ _).mp hxe)
    | ok items =>
      obtain ⟨r, hr, hc⟩ := asarray_commonType rf items
      show ListDenotes rf fs v (.ok (asarray rf items))
      rw [hr]
      refine .items _ items r hsep ?_ hc
      have := (mapM_ok_iff _ _ _).mp hm
      have hlen := this
      refine List.Forall₂.imp (R := fun x val => x ∈ splitOn ' ' v ∧ parseScalar fs true (strip (cutComment x)) = .ok val) ?_ ?_
      · rintro x val ⟨hx, h⟩
        rw [hcut x hx] at h
        exact ⟨strip x, strip_spec x, (parseScalar_iff fs hfs true _ _).mp h⟩
      · clear hm hr hc hlen hsep hcut
        generalize splitOn ' ' v = l at this
        induction this with
        | nil => exact .nil
        | cons h1 h2 ih =>
          refine .cons ⟨List.mem_cons_self, h1⟩ (ih.imp ?_)
          rintro x y ⟨a, b⟩
          exact ⟨List.mem_cons_of_mem _ a, b⟩
  · intro h
    cases h with
    | error l x w hs hx hw hd =>
      obtain rfl := separated_unique hs
      have : (splitOn ' ' v).mapM (fun x => parseScalar fs true (strip (cutComment x))) = .error .valueError := by
        rw [← mapM_error _ _ herr]
        refine ⟨x, hx, ?_⟩
        beta_reduce
        rw [hcut x hx, stripped_unique hw, parseScalar_iff fs hfs]
        exact hd
      rw [this]
    | items l vals r hs hf hc =>
      obtain rfl := separated_unique hs
      have : (splitOn ' ' v).mapM (fun x => parseScalar fs true (strip (cutComment x))) = .ok vals := by
        rw [mapM_ok_iff]
        clear hsep hs hc herr
        generalize splitOn ' ' v = l at hf hcut
        induction hf with
        | nil => exact .nil
        | cons h1 h2 ih =>
          refine .cons ?_ (ih fun x hx => hcut x (List.mem_cons_of_mem _ hx))
          obtain ⟨w, hw, hd⟩ := h1
          rw [hcut _ List.mem_cons_self, stripped_unique hw, parseScalar_iff fs hfs]
          exact hd
      rw [this]
      show Except.ok (asarray rf vals) = _
      rw [commonType_asarray rf hc]

/-- `parse_value` implements the grammar. -/
theorem parseValue_iff (rf : ℚ → Text) (fs : Files T) (hfs : fs [] = none) (pf fl : Bool) (s : Text)
    (r : Except PyErr (Val T)) : parseValue rf fs pf fl s = r ↔ EntryDenotes rf fs pf fl s r := by
  have hno : '%' ∉ strip (cutComment s) := fun h => (cutComment_spec s).1 (mem_stripped (strip_spec _) h)
  constructor
  · intro h
    refine ⟨cutComment s, strip (cutComment s), cutComment_spec s, strip_spec _, ?_⟩
    unfold parseValue at h
    by_cases hc : ' ' ∈ strip (cutComment s) ∨ fl = true
    · simp only [hc, if_true] at h
      exact Or.inl ⟨hc, (parseList_iff rf fs hfs _ hno r).mp h⟩
    · simp only [hc, if_false] at h
      exact Or.inr ⟨hc, _, (parseScalar_iff fs hfs pf _ _).mp rfl, h.symm⟩
  · rintro ⟨u, v, hu, hv, h⟩
    obtain rfl := beforeComment_unique hu
    obtain rfl := stripped_unique hv
    unfold parseValue
    rcases h with ⟨hc, h⟩ | ⟨hc, x, hx, rfl⟩
    · simp only [hc, if_true]
      exact (parseList_iff rf fs hfs _ hno r).mpr h
    · simp only [hc, if_false]
      rw [(parseScalar_iff fs hfs pf _ _).mpr hx]

end Aeolis.Config
