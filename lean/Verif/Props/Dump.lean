import Verif.Props.InputGrids

/-!
C117: a record of the output file, dumped to a text file, used as input of another run.
-/

namespace Aeolis.Props

open Aeolis.Arr

variable {V : Type*}

/-- An array with as many elements as its shape says, and at least one. -/
def Filled (m : NdArr V) : Prop := m.data.length = m.shape.prod ∧ 0 < m.shape.prod

/-- The lines written for an array of at least two dimensions. -/
theorem dumpRows_spec (a c : ℕ) (sh : List ℕ) (m : NdArr V) (hs : m.shape = a :: c :: sh) (h : Filled m) :
    dumpRows m = .ok (rows c (a * sh.prod) m.data) ∧ m.data.length = a * sh.prod * c ∧
      0 < a * sh.prod ∧ 0 < c := by
  obtain ⟨h1, h2⟩ := h
  have hp : m.shape.prod = a * sh.prod * c := by rw [hs]; simp; ring
  rw [hp] at h1 h2
  have hc : 0 < c := Nat.pos_of_mul_pos_left h2 |> fun _ => by
    rcases Nat.eq_zero_or_pos c with h0 | h0
    · simp [h0] at h2
    · exact h0
  have ha : 0 < a * sh.prod := by
    rcases Nat.eq_zero_or_pos (a * sh.prod) with h0 | h0
    · simp [h0] at h2
    · exact h0
  refine ⟨?_, h1, ha, hc⟩
  unfold dumpRows
  rw [hs]
  simp only
  rw [if_neg (by omega), ← hs, hp, Nat.mul_div_cancel _ hc]

/-- **C117** Which record is dumped: with the default index the last one; index `i` from the start and index `i - n` from the end (for
`n` records) both give record `i`; all other indices, and unknown variables, fail. -/
theorem C117_record (vars : String → Option (List (NdArr V))) (var : String) (recs : List (NdArr V))
    (hv : vars var = some recs) :
    (∀ m earlier, recs = earlier ++ [m] → dump vars var = dumpRows m) ∧
    (∀ (i : ℕ) m, recs[i]? = some m → dump vars var i = dumpRows m ∧
      dump vars var ((i : ℤ) - recs.length) = dumpRows m) ∧
    (∀ k : ℤ, (recs.length ≤ k ∨ k < -recs.length) → dump vars var k = .error .indexError) ∧
    (∀ other k, vars other = none → dump vars other k = .error .keyError) := by
  have hi : ∀ (i : ℕ) m, recs[i]? = some m → dump vars var i = dumpRows m ∧
      dump vars var ((i : ℤ) - recs.length) = dumpRows m := by
    intro i m hm
    have hlt : i < recs.length := (List.getElem?_eq_some_iff.mp hm).1
    constructor
    · unfold dump
      rw [hv]
      simp only
      rw [if_neg (by omega), if_neg (by omega), Int.toNat_natCast, hm]
    · unfold dump
      rw [hv]
      simp only
      rw [if_pos (show (i : ℤ) - recs.length < 0 by omega),
        show (i : ℤ) - recs.length + recs.length = i by omega, if_neg (by omega), Int.toNat_natCast, hm]
  refine ⟨?_, hi, ?_, ?_⟩
  · rintro m earlier rfl
    have := (hi earlier.length m (by simp)).2
    rw [← this]
    congr 1
    simp
  · intro k hk
    unfold dump
    rw [hv]
    simp only
    by_cases h0 : k < 0
    · rw [if_pos h0, if_pos (show k + recs.length < 0 by omega)]
    · rw [if_neg h0, if_neg h0, List.getElem?_eq_none (by omega)]
  · intro other k ho
    unfold dump
    rw [ho]

/-- **C117** The bed composition of the last record of a run, dumped and given as `bedcomp_file` to a run with the same numbers of rows,
columns, layers and fractions, is restored exactly: every mass is back in its own cell, layer and fraction (for grids of any size,
including transects, single layers and single fractions). -/
theorem C117_composition_restored (vars : String → Option (List (NdArr V))) (earlier : List (NdArr V)) (m : NdArr V)
    (hv : vars "mass" = some (earlier ++ [m])) (r c nl nf : ℕ) (hs : m.shape = [r, c, nl, nf]) (hm : Filled m) :
    ∃ lines, dump vars = .ok lines ∧ loadComposition lines [r, c, nl, nf] = .ok m := by
  obtain ⟨h1, h2, h3, h4⟩ := dumpRows_spec r c [nl, nf] m hs hm
  refine ⟨_, ((C117_record vars "mass" _ hv).1 m earlier rfl).trans h1, ?_⟩
  unfold loadComposition
  rw [loadtxt_rows c _ m.data h3 h2]
  simp only [NdArr.reshape]
  rw [if_pos]
  · cases m; simp only at hs; simp [hs]
  · rw [filter_one_prod]; simp; ring

/-- **C117** Loading the dump in a run with other sizes: rejected (`ValueError`) exactly if the total number of masses differs. With the
same total it is accepted, whatever the sizes, and the masses are laid out in reading order: element `ix` of the new run is the element
of the dumped record with the same number in C order. -/
theorem C117_other_sizes (m : NdArr V) (a c : ℕ) (sh : List ℕ) (hs : m.shape = a :: c :: sh) (hm : Filled m)
    (shape : List ℕ) :
    ∃ lines, dumpRows m = .ok lines ∧
      (m.shape.prod ≠ shape.prod → loadComposition lines shape = .error .valueError) ∧
      (m.shape.prod = shape.prod → ∃ g, loadComposition lines shape = .ok g ∧ g.shape = shape ∧
        ∀ ix, List.Forall₂ (· < ·) ix shape → g.get ix = m.get (unravel m.shape (ravel shape ix))) := by
  obtain ⟨h1, h2, h3, h4⟩ := dumpRows_spec a c sh m hs hm
  have hp : ([a * sh.prod, c].filter (· ≠ 1)).prod = m.shape.prod := by
    rw [filter_one_prod, hs]; simp; ring
  refine ⟨_, h1, ?_, ?_⟩
  · intro hne
    unfold loadComposition
    rw [loadtxt_rows c _ m.data h3 h2]
    simp only [NdArr.reshape]
    rw [hp, if_neg hne]
  · intro he
    refine ⟨⟨shape, m.data⟩, ?_, rfl, ?_⟩
    · unfold loadComposition
      rw [loadtxt_rows c _ m.data h3 h2]
      simp only [NdArr.reshape]
      rw [hp, if_pos he]
    · intro ix hix
      have := ravel_lt _ _ hix
      simp only [NdArr.get]
      rw [ravel_unravel _ _ (by omega)]

/-- **C117** So a composition of two layers and three fractions is accepted by a run with three layers and two fractions, and the
masses end up in other layers and fractions: the third fraction of the top layer becomes the first of the second layer. -/
theorem C117_layers_fractions_exchanged (vars : String → Option (List (NdArr V))) (a b c d e f : V)
    (hv : vars "mass" = some [⟨[1, 1, 2, 3], [a, b, c, d, e, f]⟩]) :
    ∃ lines g, dump vars = .ok lines ∧ loadComposition lines [1, 1, 3, 2] = .ok g ∧
      g.get [0, 0, 0, 0] = some a ∧ g.get [0, 0, 1, 0] = some c := by
  have hrec := (C117_record vars "mass" _ hv).1 ⟨[1, 1, 2, 3], [a, b, c, d, e, f]⟩ [] rfl
  obtain ⟨lines, h1, -, h2⟩ := C117_other_sizes ⟨[1, 1, 2, 3], [a, b, c, d, e, f]⟩ 1 1 [2, 3] rfl
    ⟨rfl, by simp⟩ [1, 1, 3, 2]
  obtain ⟨g, hg, -, hv2⟩ := h2 (by simp)
  refine ⟨lines, g, hrec.trans h1, hg, ?_, ?_⟩
  · rw [hv2 [0, 0, 0, 0] (by simp)]; rfl
  · rw [hv2 [0, 0, 1, 0] (by simp)]; rfl

/-- **C117** The bed level (or any variable per cell) of the last record, dumped and given as `bed_file` to a run on the same grid, is
restored exactly, for every grid that a file with x-coordinates can define. -/
theorem C117_bed_restored (vars : String → Option (List (NdArr V))) (var : String) (earlier : List (NdArr V)) (m : NdArr V)
    (hv : vars var = some (earlier ++ [m])) (xfile : List (List V)) (xr xc : ℕ) (hx : IsTable xfile xr xc) (x : NdArr V)
    (hload : loadtxt xfile = some x) (r c : ℕ) (hgrid : gridShape x = .ok (r, c))
    (hs : m.shape = [r, c]) (hm : m.data.length = r * c) :
    ∃ lines, dump vars var = .ok lines ∧ loadBed lines [r, c] = .ok m := by
  obtain ⟨x', hx', hsh⟩ := C118_grid_from_file xfile xr xc hx
  have hxx : x' = x := by rw [hload] at hx'; exact (Option.some.inj hx').symm
  subst hxx
  have hp1 := hx.some_line
  have hp2 := hx.some_column
  have hrc : 0 < r ∧ 2 ≤ c := by
    rw [hsh] at hgrid
    split_ifs at hgrid with h1 h2 h3 <;> (have := Except.ok.inj hgrid; simp only [Prod.mk.injEq] at this; omega)
  have hfill : Filled m := by
    refine ⟨by rw [hm, hs]; simp, ?_⟩
    rw [hs]
    simpa using Nat.mul_pos hrc.1 (by omega : 0 < c)
  obtain ⟨h1, h2, h3, h4⟩ := dumpRows_spec r c [] m hs hfill
  refine ⟨_, ((C117_record vars var _ hv).1 m earlier rfl).trans h1, ?_⟩
  have htab : IsTable (rows c (r * ([] : List ℕ).prod) m.data) r c :=
    ⟨by rw [rows_length]; simp, rows_each c _ _ h2, hrc.1, h4⟩
  obtain ⟨g, hg, hgs⟩ := (C118_bed_accepted _ r c htab r c hrc.1 hrc.2).1 (by simp)
  rw [hg]
  congr 1
  have hgl : g.data.length = [r, c].prod := by
    have hb := hg
    unfold loadBed at hb
    rw [htab.load] at hb
    simp only at hb
    by_cases hbr : broadcasts ([r, c].filter (· ≠ 1)) [r, c] = true
    · obtain ⟨b, hb1, -, hb3, -⟩ := assign_ok ⟨[r, c].filter (· ≠ 1), _⟩ [r, c]
        (by rw [filter_one_prod, htab.size]; simp) hbr
      rw [hb1] at hb
      rw [← Except.ok.inj hb]
      exact hb3
    · simp only [NdArr.assign] at hb
      rw [if_neg hbr] at hb
      cases hb
  refine NdArr.ext_get g m (by rw [hgs, hs]) (by rw [hgl, hgs]) hfill.1 ?_
  intro ix hix
  rw [hgs] at hix
  cases hix with
  | cons hi hix =>
    cases hix with
    | cons hj hix =>
      cases hix
      rename_i i j
      rw [C118_bed_values _ r c htab r c g hg i j hi hj, if_neg (by omega)]
      have hat := htab.at i j hj
      rw [rows_flatten c _ m.data h2] at hat
      have : m.get [i, j] = m.data[i * c + j]? := by simp [NdArr.get, hs, ravel]
      rw [this]
      by_cases hr1 : r = 1
      · rw [if_pos hr1]
        have : i = 0 := by omega
        subst this
        exact hat.symm
      · rw [if_neg hr1, if_neg (by omega)]
        exact hat.symm

/-- A record with two cells, one layer and two fractions. -/
def smallRecord : NdArr ℚ := ⟨[1, 2, 1, 2], [10, 20, 30, 40]⟩

example : ∃ lines, dump (fun v => if v = "mass" then some [smallRecord, smallRecord] else none) = .ok lines ∧
    loadComposition lines [1, 2, 1, 2] = .ok smallRecord :=
  C117_composition_restored _ [smallRecord] smallRecord rfl 1 2 1 2 rfl ⟨rfl, by decide⟩

example : dumpRows smallRecord = .ok [[10, 20], [30, 40]] := rfl

example : ∃ lines, dump (fun v => if v = "zb" then some [⟨[1, 3], [(1 : ℚ), 2, 3]⟩] else none) "zb" = .ok lines ∧
    loadBed lines [1, 3] = .ok ⟨[1, 3], [1, 2, 3]⟩ :=
  C117_bed_restored _ "zb" [] ⟨[1, 3], [1, 2, 3]⟩ rfl [[0, 5, 10]] 1 3 ⟨rfl, by simp, by omega, by omega⟩
    ⟨[3], [0, 5, 10]⟩ rfl 1 3 rfl rfl rfl

example : Filled smallRecord ∧ smallRecord.shape.prod = [2, 1, 2, 1].prod := ⟨⟨rfl, by decide⟩, rfl⟩

/-- The last of two records, and the first by its number. -/
example : dump (fun v => if v = "mass" then some [⟨[1, 2], [(1 : ℚ), 2]⟩, ⟨[1, 2], [3, 4]⟩] else none) "mass"
      = dumpRows ⟨[1, 2], [(3 : ℚ), 4]⟩ ∧
    dump (fun v => if v = "mass" then some [⟨[1, 2], [(1 : ℚ), 2]⟩, ⟨[1, 2], [3, 4]⟩] else none) "mass" 0
      = dumpRows ⟨[1, 2], [(1 : ℚ), 2]⟩ ∧
    dump (fun v => if v = "mass" then some [⟨[1, 2], [(1 : ℚ), 2]⟩, ⟨[1, 2], [3, 4]⟩] else none) "mass" 2 = .error .indexError :=
  have h := C117_record (fun v => if v = "mass" then some [⟨[1, 2], [(1 : ℚ), 2]⟩, ⟨[1, 2], [3, 4]⟩] else none) "mass"
    [⟨[1, 2], [(1 : ℚ), 2]⟩, ⟨[1, 2], [3, 4]⟩] rfl
  ⟨h.1 _ [⟨[1, 2], [(1 : ℚ), 2]⟩] rfl, (h.2.1 0 _ rfl).1, h.2.2.1 2 (.inl (by decide))⟩

/-- A record of four values cannot be read as six. -/
example : ∃ lines, dumpRows smallRecord = .ok lines ∧ loadComposition lines [1, 1, 2, 3] = .error .valueError := by
  obtain ⟨lines, h1, h2, -⟩ := C117_other_sizes smallRecord 1 2 [1, 2] rfl ⟨rfl, by decide⟩ [1, 1, 2, 3]
  exact ⟨lines, h1, h2 (by decide)⟩

example : ∃ lines g, dump (fun v => if v = "mass" then some [⟨[1, 1, 2, 3], [(1 : ℚ), 2, 3, 4, 5, 6]⟩] else none) = .ok lines ∧
    loadComposition lines [1, 1, 3, 2] = .ok g ∧ g.get [0, 0, 0, 0] = some 1 ∧ g.get [0, 0, 1, 0] = some 3 :=
  C117_layers_fractions_exchanged _ 1 2 3 4 5 6 rfl

end Aeolis.Props
