import Verif.Model.Bed

/-!
Model of `bed.update` on the whole grid, with the tests `np.any` that look at all cells at once and the
masked assignments, as written in aeolis/bed.py:223-506.  The cells are numbered by an arbitrary finite
type `C` (the code's reshape to `(-1, nl, nf)`).
-/

namespace Aeolis.Bed

open Finset

variable {K : Type*} [Field K] [LinearOrder K] {nf : ℕ} {C : Type*} [Fintype C]

/-- The arrays handed through `prevent_negative_mass`, aeolis/bed.py:325-451; all columns of `dm` are
equal. -/
structure GridExch (C K : Type*) (nf : ℕ) where
  m : C → Mass K nf
  dm : C → K
  pickup : C → Fin nf → K

/-- `a[ix] = b[ix]` on arrays over the cells, used throughout aeolis/bed.py:385-449. -/
def masked {A : Type*} (ix : C → Prop) [DecidablePred ix] (b a : C → A) : C → A :=
  fun c => if ix c then b c else a c

/-- Case 1 with its test `np.any(ix)`, aeolis/bed.py:385-409. -/
def gridCase1 (g : GridExch C K nf) : GridExch C K nf :=
  let er : C → Fin nf → K := fun c => ero (g.pickup c)
  let de : C → Fin nf → K := fun c => dep (g.pickup c)
  let erog : C → K := fun c => ∑ f, er c f
  let ix : C → Prop := fun c => 0 < g.dm c ∧ 0 < erog c
  if ∃ c, ix c then
    let d : C → Fin nf → K := fun c => normalize 0 (de c)
    let ddep : C → Fin nf → K := fun c f => erog c * d c f
    let pickup := masked ix (fun c f => -de c f + ddep c f) g.pickup
    let dm := masked ix (fun c => exchMass (pickup c)) g.dm
    let m := masked ix (fun c => addLayer (g.m c) 0 (fun f => -(er c f - ddep c f))) g.m
    ⟨m, dm, pickup⟩
  else g

/-- One round of the loop over the layers in case 2 for all cells selected by `ix`,
aeolis/bed.py:433-440. -/
def gridStep (nl : ℕ) (mx : C → K) (d : C → Fin nf → K) (i : ℕ) (ix : C → Prop) [DecidablePred ix]
    (g : GridExch C K nf) : GridExch C K nf :=
  let m := masked ix (fun c k => if i + 1 ≤ k ∧ k < nl then g.m c (k - 1) else g.m c k) g.m
  let m := masked ix (fun c => Function.update (m c) i (fun f => mx c * d c f)) m
  let pickup := masked ix (fun c f => g.pickup c f - m c i f) g.pickup
  ⟨m, g.dm, pickup⟩

/-- The loop over the layers with its `break`, aeolis/bed.py:427-440; the list holds the layers still to
come. -/
def gridLoop [FloorRing K] (nl : ℕ) (dm mx : C → K) (d : C → Fin nf → K) :
    List ℕ → GridExch C K nf → GridExch C K nf
  | [], g => g
  | i :: is, g =>
    if ∃ c, nGt (dm c) (mx c) i then
      gridLoop nl dm mx d is (gridStep nl mx d i (fun c => nGt (dm c) (mx c) i) g)
    else g

/-- Case 2, aeolis/bed.py:411-449. -/
def gridCase2 [FloorRing K] (nl : ℕ) (g : GridExch C K nf) : GridExch C K nf :=
  let mx : C → K := fun c => ∑ f, g.m c 0 f
  if ∃ c, nGt (g.dm c) (mx c) 0 then
    let d : C → Fin nf → K := fun c => normalize 0 (g.pickup c)
    let g' := gridLoop nl g.dm mx d (List.range nl) g
    let ix : C → Prop := fun c => mx c < g.dm c
    let pickup := if ∃ c, ix c then masked ix (fun _ _ => 0) g'.pickup else g'.pickup
    ⟨g'.m, masked ix (fun c => exchMass (pickup c)) g'.dm, pickup⟩
  else g

/-- `m[ix,k,:] += v[ix]`, as in aeolis/bed.py:499-503. -/
def gridAdd (ix : C → Prop) [DecidablePred ix] (k : ℕ) (v : C → Fin nf → K) (m : C → Mass K nf) :
    C → Mass K nf :=
  masked ix (fun c => addLayer (m c) k (v c)) m

/-- `arrange_layers` for all cells, aeolis/bed.py:472-506. -/
def gridArrange (nl : ℕ) (ixEro ixDep : C → Prop) [DecidablePred ixEro] [DecidablePred ixDep]
    (dm : C → K) (d m : C → Mass K nf) : C → Mass K nf :=
  let m := (List.range' 1 (nl - 1)).foldl (fun m i =>
    let m := gridAdd ixEro (i - 1) (fun c f => -(dm c * d c i f)) m
    let m := gridAdd ixEro i (fun c f => dm c * d c i f) m
    let m := gridAdd ixDep (i - 1) (fun c f => -(dm c * d c (i - 1) f)) m
    gridAdd ixDep i (fun c f => dm c * d c (i - 1) f) m) m
  gridAdd ixDep (nl - 1) (fun c f => -(dm c * d c (nl - 1) f)) m

/-- `bed.update` on the grid, aeolis/bed.py:223-322; `src` is the composition of the infinite source below
each cell. -/
def gridUpdate [FloorRing K] (p : Params K nf) (src : C → Source K nf) (s : C → Cell K nf) :
    C → Cell K nf :=
  let dm : C → K := fun c => exchMass (s c).pickup
  let ixEro : C → Prop := fun c => dm c < 0
  let ixDep : C → Prop := fun c => 0 < dm c
  let g := gridCase2 p.nl (gridCase1 ⟨fun c => (s c).mass, dm, fun c => (s c).pickup⟩)
  let d : C → Mass K nf := fun c k => normalize 0 (g.m c k)
  let m : C → Mass K nf := fun c => addLayer (g.m c) 0 (fun f => -g.pickup c f)
  let m := gridArrange p.nl ixEro ixDep g.dm d m
  let m := gridAdd ixEro (p.nl - 1) (fun c f => -(g.dm c * (src c).comp f)) m
  let m : C → Mass K nf := fun c k f => preventTinyNegatives p.maxError 0 (m c k f)
  let dz : C → K := fun c => g.dm c / (p.rhog * (1 - p.porosity))
  fun c =>
    { mass := m c
      pickup := g.pickup c
      zb := if p.processBedupdate then (s c).zb + dz c else (s c).zb
      zs := if p.processBedupdate ∧ p.processTide then (s c).zs + dz c else (s c).zs
      dzb := if p.processBedupdate then dz c else (s c).dzb }

end Aeolis.Bed
