import Verif.Spec.Config

/-! Specification of the configuration file and of backups. -/

namespace Aeolis.Spec

open Aeolis.Config

/-- A comment line: its first character other than white space is '%'. -/
def IsComment (line : Text) : Prop := ∃ a b, line = a ++ '%' :: b ∧ ∀ c ∈ a, isSpace c = true

/-- The line assigns the text `v` to the parameter `k`: it is no comment, `k` is the text before the first '=' without
surrounding white space, and `v` the text up to the second '=' or the end. -/
def Assigns (line k v : Text) : Prop :=
  ¬ IsComment line ∧ ∃ key rest, '=' ∉ key ∧ '=' ∉ v ∧ Stripped key k ∧ line = key ++ '=' :: (v ++ rest) ∧
    (rest = [] ∨ ∃ r, rest = '=' :: r)

/-- The value given for a parameter: that of the last line assigning it, and the default without such a line. -/
def Given {T : Type} (reprFloat : ℚ → Text) (fs : Files T) (parseFiles : Bool) (defaults : Conf T)
    (lines : List Text) (k : Text) (v : Option (Config.Val T)) : Prop :=
  (∃ pre line post w x, lines = pre ++ line :: post ∧ Assigns line k w ∧ (∀ l ∈ post, ∀ u, ¬ Assigns l k u) ∧
      EntryDenotes reprFloat fs parseFiles false w (.ok x) ∧ v = some x) ∨
    ((∀ l ∈ lines, ∀ u, ¬ Assigns l k u) ∧ v = PyDict.get defaults k)

/-- Parameters with derived values. -/
def derivedKeys : List Text :=
  ["grain_dist".toList, "grain_size".toList, "output_file".toList, "h".toList, "process_fences".toList,
    "nsavetimes".toList]

/-- The backup of `f` with number `n`: three digits behind a tilde. -/
def BackupName (f : Text) (n : ℕ) (g : Text) : Prop :=
  ∃ a b c, a < 10 ∧ b < 10 ∧ c < 10 ∧ n = 100 * a + 10 * b + c ∧ g = f ++ ['~', digitChar a, digitChar b, digitChar c]

/-- Operations on a file. -/
inductive FileOp (C : Type) where
  | write (c : C)
  | backup

/-- A file with its backups, the oldest first. -/
structure Saved (C : Type) where
  current : Option C
  backups : List C

/-- A write replaces the content, a backup appends it to the backups; at most 999 of them. -/
def Saved.step {C : Type} (s : Saved C) : FileOp C → Saved C
  | .write c => { s with current := some c }
  | .backup =>
    match s.current with
    | none => s
    | some c => if s.backups.length < 999 then { s with backups := s.backups ++ [c] } else s

/-- The files on disk are those of the specification. -/
def Stores {C : Type} (d : Disk C) (f : Text) (s : Saved C) : Prop :=
  d f = s.current ∧ ∀ n g, 1 ≤ n → n ≤ 999 → BackupName f n g → d g = s.backups[n - 1]?

end Aeolis.Spec
