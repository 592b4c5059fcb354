import Verif.Model.Config

/-! Specification of the configuration text format. -/

namespace Aeolis.Spec

open Aeolis.Config

/-- The character of a decimal digit. -/
def digitChar (n : ℕ) : Char := Char.ofNat (48 + n)

/-- Text of a sequence of digits. -/
def Digits (ds : List ℕ) (s : Text) : Prop := (∀ d ∈ ds, d < 10) ∧ s = ds.map digitChar

/-- The number written with the given digits, most significant first. -/
def value (ds : List ℕ) : ℕ := Nat.ofDigits 10 ds.reverse

/-- An optional minus sign: `s` is `body` with `v = x`, or `-body` with `v = -x`. -/
def Signed {K : Type*} [Neg K] (s body : Text) (x v : K) : Prop := (s = body ∧ v = x) ∨ (s = '-' :: body ∧ v = -x)

/-- Integers: an optional minus sign and at least one digit. -/
def IsInt (s : Text) (i : ℤ) : Prop :=
  ∃ ds body, ds ≠ [] ∧ Digits ds body ∧ Signed s body (value ds : ℤ) i

/-- Numbers with a point: an optional minus sign, digits, a point, digits, at least one digit in all. -/
def IsDecimal (s : Text) (q : ℚ) : Prop :=
  ∃ as bs a b, (as ≠ [] ∨ bs ≠ []) ∧ Digits as a ∧ Digits bs b ∧
    Signed s (a ++ '.' :: b) ((value as : ℚ) + (value bs : ℚ) / 10 ^ bs.length) q

/-- Texts made of digits and points, after an optional minus sign. -/
def NumberLike (s : Text) : Prop :=
  ∃ body : Text, body ≠ [] ∧ (∀ c ∈ body, c = '.' ∨ ∃ d < 10, c = digitChar d) ∧ (s = body ∨ s = '-' :: body)

/-- Texts that are none of the special forms. -/
def Plain (s : Text) : Prop :=
  s ≠ [] ∧ s ≠ ['T'] ∧ s ≠ ['F'] ∧ ¬ NumberLike s ∧ ∀ r, s ≠ "None".toList ++ r

/-- The grammar of single values. -/
inductive ScalarDenotes {T : Type} (fs : Files T) (parseFiles : Bool) : Text → Except PyErr (Scalar T) → Prop where
  | yes : ScalarDenotes fs parseFiles ['T'] (.ok (.bool true))
  | no : ScalarDenotes fs parseFiles ['F'] (.ok (.bool false))
  | int (s i) : IsInt s i → ScalarDenotes fs parseFiles s (.ok (.int i))
  | decimal (s q) : IsDecimal s q → ScalarDenotes fs parseFiles s (.ok (.float q))
  | badNumber (s) : NumberLike s → (¬ ∃ i, IsInt s i) → (¬ ∃ q, IsDecimal s q) →
      ScalarDenotes fs parseFiles s (.error .valueError)
  | none (r) : ScalarDenotes fs parseFiles ("None".toList ++ r) (.ok .none)
  | empty : ScalarDenotes fs parseFiles [] (.ok .none)
  | file (s t) : Plain s → parseFiles = true → fs s = some (some t) → ScalarDenotes fs parseFiles s (.ok (.table t))
  | text (s) : Plain s → (parseFiles = true → ∀ t, fs s ≠ some (some t)) →
      ScalarDenotes fs parseFiles s (.ok (.str s))

/-- `u` is the part of `s` before the first '%'. -/
def BeforeComment (s u : Text) : Prop := '%' ∉ u ∧ (s = u ∨ ∃ rest, s = u ++ '%' :: rest)

/-- `v` is `u` without the white space at both ends. -/
def Stripped (u v : Text) : Prop :=
  ∃ a b, u = a ++ v ++ b ∧ (∀ c ∈ a, isSpace c = true) ∧ (∀ c ∈ b, isSpace c = true) ∧
    (∀ c, v.head? = some c → isSpace c = false) ∧ (∀ c, v.getLast? = some c → isSpace c = false)

/-- `l` are the items of `v` separated by the character `c`. -/
def Separated (c : Char) (v : Text) (l : List Text) : Prop :=
  l ≠ [] ∧ (∀ x ∈ l, c ∉ x) ∧ v = List.intercalate [c] l

/-- The scalar as text, number or integer, as far as the value of a list with an item of that type is converted. -/
def asText {T : Type} (reprFloat : ℚ → Text) : Scalar T → Scalar T
  | .bool true => .str "True".toList
  | .bool false => .str "False".toList
  | .int i => .str (printInt i)
  | .float q => .str (reprFloat q)
  | v => v

def asFloat {T : Type} : Scalar T → Scalar T
  | .bool true => .float 1
  | .bool false => .float 0
  | .int i => .float i
  | v => v

def asInt {T : Type} : Scalar T → Scalar T
  | .bool true => .int 1
  | .bool false => .int 0
  | v => v

/-- Items of a list are converted to a common type: a list with an item without value (or a table) keeps its items, a
list with a text is a list of texts, one with a number with a point is a list of such numbers, one with an integer is a
list of integers, and one of booleans stays. -/
inductive CommonType {T : Type} (reprFloat : ℚ → Text) (l : List (Scalar T)) : List (Scalar T) → Prop where
  | object : (.none ∈ l ∨ ∃ t, .table t ∈ l) → CommonType reprFloat l l
  | text : .none ∉ l → (∀ t, .table t ∉ l) → (∃ s, .str s ∈ l) → CommonType reprFloat l (l.map (asText reprFloat))
  | float : .none ∉ l → (∀ t, .table t ∉ l) → (∀ s, .str s ∉ l) → (∃ q, .float q ∈ l) →
      CommonType reprFloat l (l.map asFloat)
  | int : .none ∉ l → (∀ t, .table t ∉ l) → (∀ s, .str s ∉ l) → (∀ q, .float q ∉ l) → (∃ i, .int i ∈ l) →
      CommonType reprFloat l (l.map asInt)
  | bool : (∀ x ∈ l, ∃ b, x = .bool b) → CommonType reprFloat l l

/-- The grammar of lists: items separated by single spaces, each one a value (files are always loaded).  An item that is
not a value makes the whole list an error. -/
inductive ListDenotes {T : Type} (reprFloat : ℚ → Text) (fs : Files T) (v : Text) : Except PyErr (Config.Val T) → Prop where
  | error (l x w) : Separated ' ' v l → x ∈ l → Stripped x w → ScalarDenotes fs true w (.error .valueError) →
      ListDenotes reprFloat fs v (.error .valueError)
  | items (l vals r) : Separated ' ' v l →
      List.Forall₂ (fun x val => ∃ w, Stripped x w ∧ ScalarDenotes fs true w (.ok val)) l vals →
      CommonType reprFloat vals r → ListDenotes reprFloat fs v (.ok (.arr r))

/-- The grammar of entries: the text before a comment, without surrounding white space, is a list if it contains a
space (or is required to be a list), and a single value otherwise. -/
def EntryDenotes {T : Type} (reprFloat : ℚ → Text) (fs : Files T) (parseFiles forceList : Bool) (s : Text)
    (r : Except PyErr (Config.Val T)) : Prop :=
  ∃ u v, BeforeComment s u ∧ Stripped u v ∧
    ((' ' ∈ v ∨ forceList = true) ∧ ListDenotes reprFloat fs v r ∨
     ¬ (' ' ∈ v ∨ forceList = true) ∧ ∃ x, ScalarDenotes fs parseFiles v x ∧ r = x.map .scalar)

end Aeolis.Spec
