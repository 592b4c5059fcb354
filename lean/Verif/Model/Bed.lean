import Verif.Model.Utils

/-!
Model of `aeolis/bed.py`: bed composition of one grid cell with `nl` layers (`m k f`, layer
`k < nl`, `0` = top; fraction `f : Fin nf`) in exact arithmetic over an ordered field.

numpy evaluates the same expressions for all cells at once.  The `np.any` guards in the code skip
work that would be a no-op for the cell; `Verif/Model/BedGrid.lean` models the guarded grid code, and
`Verif/Props/BedGrid.lean` proves that it is this cell code applied to every cell whose top layer mass is
not negative.
-/

namespace Aeolis.Bed

open Finset

variable {K : Type*} [Field K] [LinearOrder K] {nf : ℕ}

/-- Layered bed mass of a cell: `m k f`, `s['mass'][y,x,k,f]` (kg/m2). Models aeolis/bed.py:223-322. -/
abbrev Mass (K : Type*) (nf : ℕ) := ℕ → Fin nf → K

/-- `m[cell,k,:] += v`. Models aeolis/bed.py:290-293,409,434-437. -/
def addLayer (m : Mass K nf) (k : ℕ) (v : Fin nf → K) : Mass K nf :=
  Function.update m k (fun f => m k f + v f)

/-- State handed through `prevent_negative_mass`: mass, exchanged mass `dm` (identical in all
`nf` columns of the code's array, so a scalar per cell) and pickup per fraction.
Models aeolis/bed.py:325-451. -/
structure Exch (K : Type*) (nf : ℕ) where
  m : Mass K nf
  dm : K
  pickup : Fin nf → K

/-- `dm = -np.sum(pickup)`, aeolis/bed.py:261 (and 408, 449). -/
def exchMass (pickup : Fin nf → K) : K := -∑ f, pickup f

/-- Erosional part `ero = np.maximum(0., pickup)`, aeolis/bed.py:392. -/
def ero (pickup : Fin nf → K) : Fin nf → K := fun f => max 0 (pickup f)

/-- Depositional part `dep = -np.minimum(0., pickup)`, aeolis/bed.py:393. -/
def dep (pickup : Fin nf → K) : Fin nf → K := fun f => -min 0 (pickup f)

/-- `prevent_negative_mass`, case 1: net deposition cell with erosional fractions,
aeolis/bed.py:385-409. -/
def case1 (e : Exch K nf) : Exch K nf :=
  let er := ero e.pickup
  let de := dep e.pickup
  let erog := ∑ f, er f
  if 0 < e.dm ∧ 0 < erog then
    let ddep : Fin nf → K := fun f => erog * normalize 0 de f
    let pickup' : Fin nf → K := fun f => -de f + ddep f
    { m := addLayer e.m 0 (fun f => -(er f - ddep f))
      dm := exchMass pickup'
      pickup := pickup' }
  else e

/-- The test `n > i` with `n = dm // mx` (numpy floor division), aeolis/bed.py:418-421, 429.
For `mx = 0` numpy gives `inf`, `nan`, `-inf` for positive, zero, negative `dm`, so that `n > i`
holds exactly when `dm > 0`. -/
def nGt [FloorRing K] (dm mx : K) (i : ℕ) : Prop :=
  if mx = 0 then 0 < dm else (i : ℤ) < ⌊dm / mx⌋

instance [FloorRing K] (dm mx : K) (i : ℕ) : Decidable (nGt dm mx i) := by
  unfold nGt; infer_instance

/-- One pass of the loop over the layers in case 2, aeolis/bed.py:427-440: layers from `i` on move
down one layer (the bottom one disappears), layer `i` becomes `mx*d`, and that layer is subtracted
from the pickup. -/
def case2Step (nl : ℕ) (mx : K) (d : Fin nf → K) (i : ℕ) (e : Exch K nf) : Exch K nf :=
  let shifted : Mass K nf := fun k => if i + 1 ≤ k ∧ k < nl then e.m (k - 1) else e.m k
  let m' : Mass K nf := Function.update shifted i (fun f => mx * d f)
  { e with m := m', pickup := fun f => e.pickup f - mx * d f }

/-- `prevent_negative_mass`, case 2: deposition larger than the top layer mass,
aeolis/bed.py:411-449. -/
def case2 [FloorRing K] (nl : ℕ) (e : Exch K nf) : Exch K nf :=
  let mx := ∑ f, e.m 0 f
  if nGt e.dm mx 0 then
    let d := normalize 0 e.pickup
    let e' := (List.range nl).foldl
      (fun acc i => if nGt e.dm mx i then case2Step nl mx d i acc else acc) e
    if mx < e.dm then
      { e' with pickup := fun _ => 0, dm := exchMass (fun _ : Fin nf => (0 : K)) }
    else e'
  else e

/-- `prevent_negative_mass`, aeolis/bed.py:325-451. -/
def preventNegativeMass [FloorRing K] (nl : ℕ) (e : Exch K nf) : Exch K nf :=
  case2 nl (case1 e)

/-- Body of the loop in `arrange_layers` for one cell and one `i` in `range(1,nl)`,
aeolis/bed.py:499-503. -/
def arrangeStep (isEro isDep : Bool) (dm : K) (d : Mass K nf) (m : Mass K nf) (i : ℕ) :
    Mass K nf :=
  let m := if isEro then
      addLayer (addLayer m (i - 1) (fun f => -(dm * d i f))) i (fun f => dm * d i f) else m
  if isDep then
      addLayer (addLayer m (i - 1) (fun f => -(dm * d (i - 1) f))) i (fun f => dm * d (i - 1) f)
  else m

/-- `arrange_layers`, aeolis/bed.py:471-506. -/
def arrangeLayers (nl : ℕ) (isEro isDep : Bool) (dm : K) (d m : Mass K nf) : Mass K nf :=
  let m := (List.range' 1 (nl - 1)).foldl (arrangeStep isEro isDep dm d) m
  if isDep then addLayer m (nl - 1) (fun f => -(dm * d (nl - 1) f)) else m

/-- Where the infinite source below the bed takes its composition from, aeolis/bed.py:289-295:
last row of a per-layer distribution, the bottom layer of the composition file in this cell, or the
single distribution. -/
inductive Source (K : Type*) (nf : ℕ)
  | perLayer (lastRow : Fin nf → K)
  | bedcomp (bottom : Fin nf → K)
  | uniform (dist : Fin nf → K)

/-- The raw (not normalised) numbers the source composition is made of.
Models aeolis/bed.py:289-295. -/
def Source.raw : Source K nf → Fin nf → K
  | .perLayer g => g
  | .bedcomp g => g
  | .uniform g => g

/-- Composition of the infinite source (normalised), aeolis/bed.py:289-295. -/
def Source.comp : Source K nf → Fin nf → K
  | .perLayer g => normalize 0 g
  | .bedcomp g => normalize 0 g
  | .uniform g => normalize 0 g

/-- Parameters used by `bed.update`. Models aeolis/bed.py:252-320. -/
structure Params (K : Type*) (nf : ℕ) where
  nl : ℕ
  rhog : K
  porosity : K
  maxError : K
  source : Source K nf
  processBedupdate : Bool
  processTide : Bool

/-- The part of the spatial state of one cell touched by `bed.update`. Models aeolis/bed.py:223-322. -/
structure Cell (K : Type*) (nf : ℕ) where
  mass : Mass K nf
  pickup : Fin nf → K
  zb : K
  zs : K
  dzb : K

/-- `bed.update` for one cell, aeolis/bed.py:223-322.  The arrays `pickup`, `mass` are views of the
state, so the in-place changes made by `prevent_negative_mass` are visible in the returned state.
The warning at 299-305 is omitted (logging only). -/
def update [FloorRing K] (p : Params K nf) (s : Cell K nf) : Cell K nf :=
  let dm0 := exchMass s.pickup
  let isEro : Bool := decide (dm0 < 0)
  let isDep : Bool := decide (0 < dm0)
  let e := preventNegativeMass p.nl { m := s.mass, dm := dm0, pickup := s.pickup }
  let d : Mass K nf := fun k => normalize 0 (e.m k)
  let m := addLayer e.m 0 (fun f => -e.pickup f)
  let m := arrangeLayers p.nl isEro isDep e.dm d m
  let m := if isEro then addLayer m (p.nl - 1) (fun f => -(e.dm * p.source.comp f)) else m
  let m : Mass K nf := fun k f => preventTinyNegatives p.maxError 0 (m k f)
  let dz := e.dm / (p.rhog * (1 - p.porosity))
  { mass := m
    pickup := e.pickup
    zb := if p.processBedupdate then s.zb + dz else s.zb
    zs := if p.processBedupdate ∧ p.processTide then s.zs + dz else s.zs
    dzb := if p.processBedupdate then dz else s.dzb }

/-- `gs = grain_dist / sum(grain_dist)`, aeolis/bed.py:89-90, 98-99. -/
def gs (g : Fin nf → K) : Fin nf → K := fun f => g f / ∑ j, g j

/-- Given grain size distribution: one for all layers, or one row per layer. Models aeolis/bed.py:86-104. -/
inductive GrainDist (K : Type*) (nf : ℕ)
  | single (g : Fin nf → K)
  | layered (rows : List (Fin nf → K))

/-- Bed composition part of `bed.initialize` for one cell, aeolis/bed.py:78-104; `none` is the
`ValueError` at 96.  With a composition file the mass is copied from it.  (The Python test
`A and B and C or D` makes an integer typed distribution take the first branch even with a composition
file, `intDtype`; a layered integer distribution then fails, also `none`.) -/
def initMass (nl : ℕ) (rhog porosity : K) (thlyr : ℕ → K) (intDtype : Bool)
    (bedcomp : Option (Mass K nf)) : GrainDist K nf → Option (Mass K nf)
  | .single g =>
    match bedcomp, intDtype with
    | some mc, false => some mc
    | _, _ => some (fun k f => rhog * (1 - porosity) * thlyr k * gs g f)
  | .layered rows =>
    match bedcomp, intDtype with
    | _, true => none
    | some mc, false => some mc
    | none, false =>
      if nl ≠ rows.length then none
      else some (fun k f => rhog * (1 - porosity) * thlyr k * gs (rows.getD k 0) f)

/-- Fraction `f` in `mixtoplayer`: `min(1, sum(thlyr)/DOD)` where `DOD > 0`, else 1,
aeolis/bed.py:158-161. -/
def mixFrac (nl : ℕ) (thlyr : ℕ → K) (dod : K) : K :=
  if 0 < dod then min 1 ((∑ k ∈ range nl, thlyr k) / dod) else 1

/-- Layers above the depth of disturbance before forcing the top layer,
`(cumsum(thlyr) <= DOD) & (DOD > 0)`, aeolis/bed.py:168. -/
def mixIx0 (thlyr : ℕ → K) (dod : K) (k : ℕ) : Prop :=
  (∑ j ∈ range (k + 1), thlyr j) ≤ dod ∧ 0 < dod

instance (thlyr : ℕ → K) (dod : K) (k : ℕ) : Decidable (mixIx0 thlyr dod k) := by
  unfold mixIx0; infer_instance

/-- Layers mixed, with the top layer forced, aeolis/bed.py:174. -/
def mixIx (thlyr : ℕ → K) (dod : K) (k : ℕ) : Prop := k = 0 ∨ mixIx0 thlyr dod k

instance (thlyr : ℕ → K) (dod : K) (k : ℕ) : Decidable (mixIx thlyr dod k) := by
  unfold mixIx; infer_instance

/-- `mixtoplayer` for one cell, aeolis/bed.py:121-190.  `anyIx` is the value of `np.any(ix)` over
the whole grid; `nanmean` over the mixed layers is the sum over them divided by their number. -/
def mixtoplayer (nl : ℕ) (processMix : Bool) (facDOD hsmix : K) (thlyr : ℕ → K) (anyIx : Bool)
    (m : Mass K nf) : Mass K nf :=
  if processMix then
    let dod := facDOD * hsmix
    let fr := mixFrac nl thlyr dod
    if anyIx then
      let sel := (range nl).filter (fun k => mixIx thlyr dod k)
      fun k f =>
        if k ∈ sel then
          ((∑ j ∈ sel, m j f) / (sel.card : K)) * fr + m k f * (1 - fr)
        else m k f
    else m
  else m

/-- `wet_bed_reset` for one cell, aeolis/bed.py:193-219. -/
def wetBedReset (process : Bool) (dtOpt Tbedreset zs zb0 zb : K) : K :=
  if process then
    if zb + 1 / 100 < zs then zb + (zb0 - zb) * (dtOpt / Tbedreset) else zb
  else zb

/-- Result of `average_change`, aeolis/bed.py:454-469. -/
structure AvgChange (K : Type*) where
  dzb : K
  dzbyear : K
  dzbavg : K
  dzbveg : K

/-- `average_change` for one cell, aeolis/bed.py:454-469; `3600*24*365.25 = 31557600`. -/
def averageChange (dtOpt accfac avgTime lzb ldzbavg zb : K) : AvgChange K :=
  let dzb := zb - lzb
  let dzbyear := dzb * 31557600 / (dtOpt * accfac)
  let n := dtOpt * accfac / avgTime
  { dzb := dzb, dzbyear := dzbyear, dzbavg := n * dzbyear + (1 - n) * ldzbavg, dzbveg := dzbyear }

end Aeolis.Bed
