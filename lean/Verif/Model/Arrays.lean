import Mathlib.Algebra.BigOperators.Group.List.Basic
import Verif.Model.State

/-!
Model of the arrays read from input files and put on the grid (aeolis/inout.py:198-208, 286-293; aeolis/model.py:192-208;
aeolis/bed.py:71-116; aeolis/gridparams.py:61, 123) and of the dump of a record of the output file (aeolis/netcdf.py:379-412).
-/

namespace Aeolis.Arr

variable {V : Type*}

/-- A numpy array in C order: shape and elements. Used in the code at aeolis/bed.py:71-116. -/
structure NdArr (V : Type*) where
  shape : List ℕ
  data : List V
deriving DecidableEq, Repr

/-- Position of the element with indices `ix` in C order. Used in the code at aeolis/bed.py:104 (`reshape`). -/
def ravel : List ℕ → List ℕ → ℕ
  | _ :: sh, i :: ix => i * sh.prod + ravel sh ix
  | _, _ => 0

/-- Indices of the element at position `k` in C order. Used in the code at aeolis/bed.py:72 (assignment with broadcasting). -/
def unravel : List ℕ → ℕ → List ℕ
  | [], _ => []
  | _ :: sh, k => k / sh.prod :: unravel sh (k % sh.prod)

/-- Element of an array. Used in the code at aeolis/bed.py:71-116. -/
def NdArr.get (a : NdArr V) (ix : List ℕ) : Option V := a.data[ravel a.shape ix]?

/-- `np.loadtxt(file, dtype=float)`, aeolis/inout.py:289: the rows as a two-dimensional array from which the dimensions of size one are
removed (`ndmin=0`), an empty file gives an empty array, rows of different length fail (`none`; `parse_value` then returns the name of
the file). -/
def loadtxt : List (List V) → Option (NdArr V)
  | [] => some ⟨[0], []⟩
  | r :: rs =>
    if rs.all (fun r' => r'.length == r.length) then
      some ⟨[(r :: rs).length, r.length].filter (· ≠ 1), (r :: rs).flatten⟩
    else none

/-- `a.reshape(shape)`, aeolis/bed.py:104, 112. -/
def NdArr.reshape (a : NdArr V) (sh : List ℕ) : Except PyErr (NdArr V) :=
  if a.shape.prod = sh.prod then .ok ⟨sh, a.data⟩ else .error .valueError

/-- Indices in the source of the element `ix` of the target when broadcasting (aligned at the last dimension, dimensions of size one
are repeated). Used in the code at aeolis/bed.py:72. -/
def sourceIndex (sh ix : List ℕ) : List ℕ :=
  List.zipWith (fun n i => if n = 1 then 0 else i) sh (ix.drop (ix.length - sh.length))

/-- The source can be broadcast to the target: aligned at the last dimension, sizes are equal or one.
Simplification: sources with more dimensions than the target are rejected (numpy accepts leading ones; loaded files have at most two
dimensions, the targets at least two). Used in the code at aeolis/bed.py:72. -/
def broadcasts (sh tgt : List ℕ) : Bool :=
  decide (sh.length ≤ tgt.length) &&
    (List.zipWith (fun n m => n == m || n == 1) sh (tgt.drop (tgt.length - sh.length))).all id

/-- `s[k][:,:] = a` for a grid of shape `tgt`: aeolis/bed.py:72-74, 80, aeolis/gridparams.py:61, 123. -/
def NdArr.assign (a : NdArr V) (tgt : List ℕ) : Except PyErr (NdArr V) :=
  if broadcasts a.shape tgt then
    match (List.range tgt.prod).mapM (fun k => a.get (sourceIndex a.shape (unravel tgt k))) with
    | some d => .ok ⟨tgt, d⟩
    | none => .error .indexError
  else .error .valueError

/-- Shape `(ny+1, nx+1)` of the grid set in `AeoLiS.initialize` from `xgrid_file`, aeolis/model.py:192-203; `len` of an array without
dimensions is a `TypeError`. -/
def gridShape (x : NdArr V) : Except PyErr (ℕ × ℕ) :=
  match x.shape with
  | [r, c] => .ok (r, c)
  | [] => .error .typeError
  | n :: _ => .ok (1, n)

/-- The check of a series (`wind_file`, `tide_file`, `meteo_file`) in `check_configuration`, aeolis/inout.py:198-208: two dimensions and
at least `cols` columns (3, 2, 6), otherwise `ValueError`. -/
def checkSeries (cols : ℕ) (a : NdArr V) : Except PyErr Unit :=
  match a.shape with
  | [_, c] => if c < cols then .error .valueError else .ok ()
  | _ => .error .valueError

/-- `threshold_file[:,:,np.newaxis].repeat(nf, axis=-1)`, aeolis/bed.py:115-116: `IndexError` for fewer than two dimensions. -/
def thresholdGrid (nf : ℕ) (a : NdArr V) : Except PyErr (NdArr V) :=
  match a.shape with
  | [r, c] => .ok ⟨[r, c, nf], a.data.flatMap (List.replicate nf)⟩
  | _ => .error .indexError

/-- The masks in `bed.initialize`, aeolis/bed.py:107-112: one where no file is given, otherwise the values of the file in the shape of
the grid. -/
def maskGrid (one : V) (grid : List ℕ) : Option (NdArr V) → Except PyErr (NdArr V)
  | none => .ok ⟨[], [one]⟩
  | some a => a.reshape grid

/-- Consecutive groups of `c` elements (the rows written by `np.savetxt`), aeolis/netcdf.py:412. -/
def rows (c : ℕ) : ℕ → List V → List (List V)
  | 0, _ => []
  | n + 1, l => l.take c :: rows c n (l.drop c)

/-- The lines written by `netcdf.dump` for a record, aeolis/netcdf.py:412: `np.savetxt(dumpfile, m.reshape((-1, m.shape[1])))`;
`IndexError` if there is no second dimension, `ValueError` if it is empty. The text `%.18e` identifies a number of double precision, so
lines are lists of numbers. -/
def dumpRows (m : NdArr V) : Except PyErr (List (List V)) :=
  match m.shape with
  | _ :: c :: _ => if c = 0 then .error .valueError else .ok (rows c (m.shape.prod / c) m.data)
  | _ => .error .indexError

/-- `netcdf.dump`, aeolis/netcdf.py:379-412: the records of the variables by name (`KeyError`), the record `ix` counted from the end if
negative (`IndexError`). -/
def dump (vars : String → Option (List (NdArr V))) (var : String := "mass") (ix : Int := -1) :
    Except PyErr (List (List V)) :=
  match vars var with
  | none => .error .keyError
  | some recs =>
    let i := if ix < 0 then ix + recs.length else ix
    if i < 0 then .error .indexError
    else match recs[i.toNat]? with
      | none => .error .indexError
      | some m => dumpRows m

/-- `s['mass'][:,:,:,:] = p['bedcomp_file'].reshape(s['mass'].shape)`, aeolis/bed.py:104, for the loaded file (`AttributeError` if the
file could not be read as numbers, so that the parameter is a text). -/
def loadComposition (file : List (List V)) (shape : List ℕ) : Except PyErr (NdArr V) :=
  match loadtxt file with
  | none => .error .attributeError
  | some a => a.reshape shape

/-- `s['zb'][:,:] = p['bed_file']`, aeolis/bed.py:72, for the loaded file (`ValueError` if the file could not be read as numbers: from
`check_configuration`, aeolis/inout.py:194-196). -/
def loadBed (file : List (List V)) (shape : List ℕ) : Except PyErr (NdArr V) :=
  match loadtxt file with
  | none => .error .valueError
  | some a => a.assign shape

end Aeolis.Arr
