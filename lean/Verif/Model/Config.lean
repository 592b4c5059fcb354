import Verif.Model.PyDict
import Verif.Model.State
import Mathlib.Data.Nat.Digits.Defs
import Mathlib.Algebra.Order.Field.Rat
import Mathlib.Algebra.Order.Floor.Defs
import Mathlib.Data.Rat.Floor

/-!
Model of the configuration file: aeolis/inout.py:48-120,175-320 (`write_configfile`, 123-172, fails at
its first statement and is not modelled), `print_value` aeolis/utils.py:198-229.
Texts are lists of characters.  Numbers with a decimal point are exact rationals (floating point is not modelled).
-/

namespace Aeolis.Config

/-- Text handled in aeolis/inout.py:48-297. -/
abbrev Text := List Char

/-- Python's whitespace characters (`str.isspace`), removed by `str.strip`.
Used in the code at aeolis/inout.py:94-95,274. -/
def isSpace (c : Char) : Bool :=
  let n := c.toNat
  (0x09 ≤ n && n ≤ 0x0d) || (0x1c ≤ n && n ≤ 0x20) || n == 0x85 || n == 0xa0 || n == 0x1680 ||
    (0x2000 ≤ n && n ≤ 0x200a) || n == 0x2028 || n == 0x2029 || n == 0x202f || n == 0x205f || n == 0x3000

/-- `str.strip()`. Used in the code at aeolis/inout.py:94-95,274. -/
def strip (s : Text) : Text := ((s.dropWhile isSpace).reverse.dropWhile isSpace).reverse

/-- `s.split(c)` for a single character. Used in the code at aeolis/inout.py:94,272,277. -/
def splitOn (c : Char) : Text → List Text
  | [] => [[]]
  | x :: xs =>
    if x = c then [] :: splitOn c xs
    else match splitOn c xs with
      | [] => [[x]]
      | p :: ps => (x :: p) :: ps

/-- Decimal digits `\d`.  Simplification: only ASCII digits. Used in the code at aeolis/inout.py:280,282. -/
def isDigit (c : Char) : Bool := '0' ≤ c && c ≤ '9'

/-- Value of a sequence of digits. Used in the code at aeolis/inout.py:281. -/
def natOf (s : Text) : ℕ := s.foldl (fun n c => 10 * n + (c.toNat - 48)) 0

/-- Text without a leading minus sign (`-?` in the patterns). Models aeolis/inout.py:280,282. -/
def unsigned : Text → Text
  | '-' :: r => r
  | r => r

/-- Whether the text starts with a minus sign. Models aeolis/inout.py:280,282. -/
def negative : Text → Bool
  | '-' :: _ => true
  | _ => false

/-- Pattern `^-?\d+$`, aeolis/inout.py:280 (on stripped text). -/
def looksInt (s : Text) : Bool := !(unsigned s).isEmpty && (unsigned s).all isDigit

/-- Pattern `^-?[\d\.]+$`, aeolis/inout.py:282. -/
def looksNum (s : Text) : Bool := !(unsigned s).isEmpty && (unsigned s).all (fun c => isDigit c || c == '.')

/-- `int(s)` for text of that pattern. Models aeolis/inout.py:281. -/
def pyInt (s : Text) : ℤ := if negative s then -(natOf (unsigned s) : ℤ) else natOf (unsigned s)

/-- `float(s)` for text of that pattern: `ValueError` for more than one point or without digits.
Models aeolis/inout.py:283. -/
def pyFloat (s : Text) : Except PyErr ℚ :=
  match splitOn '.' (unsigned s) with
  | [a] => .ok (if negative s then -(natOf a : ℚ) else natOf a)
  | [a, b] =>
    if a.isEmpty && b.isEmpty then .error .valueError
    else
      let v : ℚ := natOf a + natOf b / 10 ^ b.length
      .ok (if negative s then -v else v)
  | _ => .error .valueError

/-- Values of configuration parameters other than arrays built from lists. `table`: array loaded from a file.
Models aeolis/inout.py:278-297. -/
inductive Scalar (T : Type) where
  | none
  | bool (b : Bool)
  | int (i : ℤ)
  | float (q : ℚ)
  | str (s : Text)
  | table (t : T)
deriving DecidableEq, Repr

/-- Configuration values: scalars (and tables) and numpy arrays built from lists.
Models aeolis/inout.py:278-297. -/
inductive Val (T : Type) where
  | scalar (v : Scalar T)
  | arr (items : List (Scalar T))
deriving DecidableEq, Repr

/-- The file system as seen by `parse_value`: for the name of an existing file, the loaded table or `none` if
`np.loadtxt` fails. Models aeolis/inout.py:286-293. -/
abbrev Files (T : Type) := Text → Option (Option T)

/-- Text of an integer, `'%d'` and `str`. Used in the code at aeolis/utils.py:221. -/
def printInt (i : ℤ) : Text :=
  let d : Text := if i.natAbs = 0 then ['0'] else (Nat.digits 10 i.natAbs).reverse.map (fun n => Char.ofNat (48 + n))
  if i < 0 then '-' :: d else d

/-- Types of the array `np.asarray` makes of scalars, by promotion. Models aeolis/inout.py:276-277. -/
inductive Kind where
  | bool | int | float | str | object
deriving DecidableEq, Repr

/-- Type of a scalar for `np.asarray`, aeolis/inout.py:276-277. -/
def kindOf {T : Type} : Scalar T → Kind
  | .none => .object
  | .bool _ => .bool
  | .int _ => .int
  | .float _ => .float
  | .str _ => .str
  | .table _ => .object

/-- Order of promotion in `np.asarray`, aeolis/inout.py:276-277. -/
def Kind.rank : Kind → ℕ
  | .bool => 0 | .int => 1 | .float => 2 | .str => 3 | .object => 4

/-- Conversion of an item to the type of the array. `reprFloat`: text of a float (Python's shortest representation, not
modelled). Models aeolis/inout.py:276-277. -/
def convert {T : Type} (reprFloat : ℚ → Text) : Kind → Scalar T → Scalar T
  | .int, .bool b => .int (if b then 1 else 0)
  | .float, .bool b => .float (if b then 1 else 0)
  | .float, .int i => .float i
  | .str, .bool b => .str (if b then "True".toList else "False".toList)
  | .str, .int i => .str (printInt i)
  | .str, .float q => .str (reprFloat q)
  | _, v => v

/-- `np.asarray` of a list of scalars.  Simplification: lists with loaded tables are kept as they are (numpy stacks
tables of equal shape and rejects others). Models aeolis/inout.py:276-277. -/
def asarray {T : Type} (reprFloat : ℚ → Text) (items : List (Scalar T)) : Val T :=
  let k := items.foldl (fun k v => if k.rank < (kindOf v).rank then kindOf v else k) Kind.bool
  .arr (items.map (convert reprFloat k))

/-- `parse_value` on text without '%' and ' ' at the ends and no space inside, aeolis/inout.py:278-297. -/
def parseScalar {T : Type} (fs : Files T) (parseFiles : Bool) (v : Text) : Except PyErr (Scalar T) :=
  if v = ['T'] ∨ v = ['F'] then .ok (.bool (v == ['T']))
  else if looksInt v then .ok (.int (pyInt v))
  else if looksNum v then (pyFloat v).map .float
  else if "None".toList <+: v then .ok .none
  else
    match fs v, parseFiles with
    | some (some t), true => .ok (.table t)
    | some none, true => .ok (.str v)
    | _, _ => if v = [] then .ok .none else .ok (.str v)

/-- Removal of a comment, aeolis/inout.py:271-272. -/
def cutComment (s : Text) : Text := s.takeWhile (· ≠ '%')

/-- `parse_value`, aeolis/inout.py:224-297.  List items are parsed with `parse_files=True` whatever the argument. -/
def parseValue {T : Type} (reprFloat : ℚ → Text) (fs : Files T) (parseFiles forceList : Bool) (s : Text) :
    Except PyErr (Val T) :=
  let v := strip (cutComment s)
  if ' ' ∈ v ∨ forceList = true then
    match (splitOn ' ' v).mapM (fun x => parseScalar fs true (strip (cutComment x))) with
    | .error e => .error e
    | .ok items => .ok (asarray reprFloat items)
  else (parseScalar fs parseFiles v).map .scalar

/-- `'%0.nf'`: fixed-point text with `n` decimals, ties to even. Used in the code at aeolis/utils.py:223-227. -/
def roundEven (x : ℚ) : ℤ :=
  let f := ⌊x⌋
  if x - f < 1 / 2 then f
  else if 1 / 2 < x - f then f + 1
  else if f % 2 = 0 then f else f + 1

/-- Exactly `n` digits with leading zeros. Used in the code at aeolis/utils.py:223-227, aeolis/inout.py:313. -/
def padded : ℕ → ℕ → Text
  | 0, _ => []
  | n + 1, m => padded n (m / 10) ++ [Char.ofNat (48 + m % 10)]

/-- Text of a non-negative number of units of `10^-n` with `n` decimals.
Used in the code at aeolis/utils.py:223-227. -/
def fixedNat (n m : ℕ) : Text := printInt (m / 10 ^ n : ℕ) ++ '.' :: padded n (m % 10 ^ n)

/-- `'%0.nf' % q`. A negative number keeps its sign even if it is rounded to zero.
Models aeolis/utils.py:223-227. -/
def printFixed (n : ℕ) (q : ℚ) : Text :=
  let m := (roundEven (|q| * 10 ^ n)).toNat
  if q < 0 then '-' :: fixedNat n m else fixedNat n m

/-- Values handed to `print_value`: Python scalars, or iterables whose items are Python scalars or numpy scalars.
Models aeolis/utils.py:198-229. -/
inductive Item where
  | none
  | bool (b : Bool)
  | int (i : ℤ)
  | float (q : ℚ)
  | str (s : Text)
  /-- numpy booleans and integers are not instances of `bool` and `int`; numpy floats are instances of `float` -/
  | npBool (b : Bool)
  | npInt (i : ℤ)

/-- `print_value` of a scalar, aeolis/utils.py:217-229. -/
def printItem (fill : Text) : Item → Text
  | .none => fill
  | .bool b => if b then ['T'] else ['F']
  | .int i => printInt i
  | .float q => if q < 1 then printFixed 6 q else printFixed 2 q
  | .str s => s
  | .npBool b => if b then "True".toList else "False".toList
  | .npInt i => printInt i

/-- `' '.join`. Models aeolis/utils.py:216. -/
def joinSpaces : List Text → Text
  | [] => []
  | [x] => x
  | x :: y :: r => x ++ ' ' :: joinSpaces (y :: r)

/-- `print_value` of a list or array, aeolis/utils.py:215-216: the items are printed with the default filler. -/
def printList (items : List Item) : Text := joinSpaces (items.map (printItem "<novalue>".toList))

/-- A configuration. Models aeolis/inout.py:86-120. -/
abbrev Conf (T : Type) := PyDict Text (Val T)

/-- Whether a line of the file assigns a parameter, aeolis/inout.py:93. -/
def isAssignment (line : Text) : Bool := line.contains '=' && !(['%'].isPrefixOf (strip line))

/-- Key and value text of an assignment line, aeolis/inout.py:94-95. -/
def assignment (line : Text) : Option (Text × Text) :=
  match splitOn '=' line with
  | k :: v :: _ => some (strip k, v)
  | _ => none

/-- Effect of a line, aeolis/inout.py:93-95. -/
def readLine {T : Type} (reprFloat : ℚ → Text) (fs : Files T) (parseFiles : Bool) (p : Conf T) (line : Text) :
    Except PyErr (Conf T) :=
  if isAssignment line then
    match assignment line with
    | none => .error .valueError
    | some (k, v) =>
      match parseValue reprFloat fs parseFiles false v with
      | .error e => .error e
      | .ok x => .ok (PyDict.set p k x)
  else .ok p

/-- All lines of the file, aeolis/inout.py:92-95. -/
def readLines {T : Type} (reprFloat : ℚ → Text) (fs : Files T) (parseFiles : Bool) (p : Conf T) (lines : List Text) :
    Except PyErr (Conf T) :=
  List.foldlM (m := Except PyErr) (readLine reprFloat fs parseFiles) p lines

/-- Truth value of a configuration value; `ValueError` for arrays of several items. `truth`: truth value of a table.
Used in the code at aeolis/inout.py:100-118. -/
def truthy {T : Type} (truth : T → Except PyErr Bool) : Val T → Except PyErr Bool
  | .scalar .none => .ok false
  | .scalar (.bool b) => .ok b
  | .scalar (.int i) => .ok (i ≠ 0)
  | .scalar (.float q) => .ok (q ≠ 0)
  | .scalar (.str s) => .ok (s ≠ [])
  | .scalar (.table t) => truth t
  | .arr [] => .ok false
  | .arr [x] =>
    match x with
    | .none => .ok false
    | .bool b => .ok b
    | .int i => .ok (i ≠ 0)
    | .float q => .ok (q ≠ 0)
    | .str s => .ok (s ≠ [])
    | .table t => truth t
  | .arr _ => .error .valueError

/-- `makeiterable`, aeolis/utils.py:48-56. -/
def makeIterable {T : Type} : Val T → Val T
  | .scalar .none => .arr []
  | .scalar (.table t) => .scalar (.table t)
  | .scalar v => .arr [v]
  | .arr l => .arr l

/-- `p[k]`. Used in the code at aeolis/inout.py:99-118. -/
def lookup {T : Type} (p : Conf T) (k : String) : Except PyErr (Val T) :=
  match PyDict.get p k.toList with
  | some v => .ok v
  | none => .error .keyError

/-- `os.path.splitext(name)[0]`: the part before the last point of the last component, unless everything before the
point in that component consists of points. Used in the code at aeolis/inout.py:107. -/
def splitextRoot (name : Text) : Text :=
  let base := name.reverse.takeWhile (· ≠ '/')
  let ext := base.takeWhile (· ≠ '.')
  let stem := base.drop (ext.length + 1)
  if base.contains '.' && stem.any (· ≠ '.') then (name.reverse.drop (ext.length + 1)).reverse else name

/-- Number for the quotient at aeolis/inout.py:118. -/
def number {T : Type} : Val T → Option ℚ
  | .scalar (.bool b) => some (if b then 1 else 0)
  | .scalar (.int i) => some i
  | .scalar (.float q) => some q
  | _ => none

/-- `int(a / b)`, aeolis/inout.py:118; anything but numbers gives `TypeError` (simplified for arrays). -/
def quotient {T : Type} (a b : Val T) : Except PyErr (Val T) :=
  match number a, number b with
  | some x, some y =>
    if y = 0 then .error .zeroDivision
    else .ok (.scalar (.int (if 0 ≤ x / y then ⌊x / y⌋ else ⌈x / y⌉)))
  | _, _ => .error .typeError

/-- A default that is filled in when the parameter is present without a (true) value.
Models aeolis/inout.py:106-118. -/
def fillDefault {T : Type} (truth : T → Except PyErr Bool) (k : String) (value : Conf T → Except PyErr (Val T))
    (p : Conf T) : Except PyErr (Conf T) :=
  match PyDict.get p k.toList with
  | none => .ok p
  | some v =>
    match truthy truth v with
    | .error e => .error e
    | .ok true => .ok p
    | .ok false =>
      match value p with
      | .error e => .error e
      | .ok w => .ok (PyDict.set p k.toList w)

/-- Grain size arrays, aeolis/inout.py:100-103. -/
def grainArrays {T : Type} (p : Conf T) : Except PyErr (Conf T) :=
  match PyDict.get p "grain_dist".toList with
  | none => .ok p
  | some d =>
    let p := PyDict.set p "grain_dist".toList (makeIterable d)
    match PyDict.get p "grain_size".toList with
    | none => .error .keyError
    | some g => .ok (PyDict.set p "grain_size".toList (makeIterable g))

/-- Text of the default output file, aeolis/inout.py:107. -/
def outputName (configfile : Text) : Text := splitextRoot configfile ++ ".nc".toList

/-- Derived defaults, aeolis/inout.py:99-118. -/
def deriveDefaults {T : Type} (truth : T → Except PyErr Bool) (configfile : Text) (p : Conf T) :
    Except PyErr (Conf T) := do
  let p ← grainArrays p
  let p ← fillDefault truth "output_file" (fun _ => .ok (.scalar (.str (outputName configfile)))) p
  let p ← fillDefault truth "h" (fun p => lookup p "z") p
  let p ← fillDefault truth "process_fences" (fun _ => .ok (.scalar (.bool false))) p
  fillDefault truth "nsavetimes" (fun p => do quotient (← lookup p "dzb_interval") (← lookup p "dt")) p

/-- `read_configfile`, aeolis/inout.py:48-120. `content`: the lines of the file, `none` if it does not exist. -/
def readConfig {T : Type} (reprFloat : ℚ → Text) (fs : Files T) (truth : T → Except PyErr Bool) (parseFiles : Bool)
    (defaults : Conf T) (configfile : Text) (content : Option (List Text)) : Except PyErr (Conf T) :=
  match content with
  | none => .error .ioError
  | some lines => do
    let p ← readLines reprFloat fs parseFiles defaults lines
    deriveDefaults truth configfile p

/-- `isarray`, aeolis/utils.py:59-68, for configuration values. -/
def isArray {T : Type} : Val T → Bool
  | .scalar (.table _) => true
  | .arr _ => true
  | _ => false

/-- Shape of an array. Used in the code at aeolis/inout.py:198-221. -/
def shapeOf {T : Type} (shape : T → List ℕ) : Val T → List ℕ
  | .scalar (.table t) => shape t
  | .arr l => [l.length]
  | _ => []

/-- `v > 0` for a scalar; other values cannot be compared (arrays: ambiguous truth value).
Used in the code at aeolis/inout.py:195. -/
def positive {T : Type} (v : Val T) : Except PyErr Bool :=
  match number v with
  | some q => .ok (0 < q)
  | none =>
    match v with
    | .arr _ => .error .valueError
    | .scalar (.table _) => .error .valueError
    | _ => .error .typeError

/-- Check of one table, aeolis/inout.py:198-209. -/
def checkTable {T : Type} (shape : T → List ℕ) (columns : ℕ) (v : Val T) : Except PyErr Unit :=
  if isArray v then
    if (shapeOf shape v).length ≠ 2 ∨ (shapeOf shape v).getD 1 0 < columns then .error .valueError else .ok ()
  else .ok ()

/-- `check_configuration`, aeolis/inout.py:175-221, without the warnings. -/
def checkConfig {T : Type} (shape : T → List ℕ) (p : Conf T) : Except PyErr Unit := do
  let x ← lookup p "xgrid_file"
  if !isArray x then throw .valueError
  let b ← lookup p "bed_file"
  if !isArray b then throw .valueError
  let y ← lookup p "ygrid_file"
  if !isArray y then
    let ny ← lookup p "ny"
    if ← positive ny then throw .valueError
  checkTable shape 3 (← lookup p "wind_file")
  checkTable shape 2 (← lookup p "tide_file")
  checkTable shape 6 (← lookup p "meteo_file")

/-- Files and their contents. Models aeolis/inout.py:301-320. -/
abbrev Disk (C : Type) := Text → Option C

/-- `'%s~%03d' % (fname, n)` for `n < 1000`, aeolis/inout.py:313. -/
def backupName (fname : Text) (n : ℕ) : Text := fname ++ '~' :: padded 3 n

/-- First unused number, aeolis/inout.py:312-316: the loop leaves the last name, 999, if all are in use. -/
def firstFree {C : Type} (d : Disk C) (fname : Text) : ℕ :=
  ((List.range 999).map (· + 1)).find? (fun n => (d (backupName fname n)).isNone) |>.getD 999

/-- `get_backupfilename`, aeolis/inout.py:309-320. -/
def backupFilename {C : Type} (d : Disk C) (fname : Text) : Except PyErr Text :=
  let name := backupName fname (firstFree d fname)
  if (d name).isSome then .error .valueError else .ok name

/-- Writing a file. Models aeolis/inout.py:301-306. -/
def writeFile {C : Type} (d : Disk C) (f : Text) (c : C) : Disk C := fun g => if g = f then some c else d g

/-- `backup`, aeolis/inout.py:301-306. -/
def backup {C : Type} (d : Disk C) (fname : Text) : Except PyErr (Disk C) :=
  match d fname with
  | none => .ok d
  | some c =>
    match backupFilename d fname with
    | .error e => .error e
    | .ok name => .ok (writeFile d name c)

end Aeolis.Config
