import Mathlib.Tactic.IntervalCases
import Verif.Proofs.Arrays

/-!
C118: how the numbers in the input files end up on the grid.

A file is the list of its lines, a line the list of its numbers; `entry file a b` is number `b` on line `a`.
-/

namespace Aeolis.Props

open Aeolis.Arr

variable {V : Type*}

/-- Number `b` on line `a` of a file. -/
def entry (file : List (List V)) (a b : ℕ) : Option V := file[a]?.bind (fun row => row[b]?)

/-- A file of `r` lines with `c` numbers each, not empty. -/
structure IsTable (file : List (List V)) (r c : ℕ) : Prop where
  lines : file.length = r
  columns : ∀ row ∈ file, row.length = c
  some_line : 0 < r
  some_column : 0 < c

theorem IsTable.load {file : List (List V)} {r c : ℕ} (h : IsTable file r c) :
    loadtxt file = some ⟨[r, c].filter (· ≠ 1), file.flatten⟩ := by
  rw [loadtxt_file c file (by rintro rfl; have := h.lines; have := h.some_line; simp_all) h.columns, h.lines]

theorem IsTable.size {file : List (List V)} {r c : ℕ} (h : IsTable file r c) :
    file.flatten.length = r * c := by rw [flatten_length c file h.columns, h.lines]

theorem IsTable.at {file : List (List V)} {r c : ℕ} (h : IsTable file r c) (a b : ℕ) (hb : b < c) :
    file.flatten[a * c + b]? = entry file a b := flatten_get c file h.columns a b hb

/-- **C118** The size of the grid follows from the file with the x-coordinates: several lines with several numbers are the rows and
columns of the grid; a single line or a single column is a transect (one row); a single number is no grid (`TypeError`). -/
theorem C118_grid_from_file (file : List (List V)) (r c : ℕ) (h : IsTable file r c) :
    ∃ x, loadtxt file = some x ∧
      gridShape x = if r = 1 ∧ c = 1 then .error .typeError
        else if r = 1 then .ok (1, c)
        else if c = 1 then .ok (1, r)
        else .ok (r, c) := by
  refine ⟨_, h.load, ?_⟩
  by_cases hr : r = 1 <;> by_cases hc : c = 1 <;> simp [gridShape, hr, hc]

/-- **C118** A file with bed levels (or coordinates, vegetation, fences: any file assigned to the grid) is accepted on a grid of `r`
rows and `c ≥ 2` columns exactly if it has the size of the grid, or is one line with a number per column, or one number, or one *column*
with as many numbers as the grid has columns. Otherwise the run stops with `ValueError`. -/
theorem C118_bed_accepted (file : List (List V)) (r' c' : ℕ) (h : IsTable file r' c') (r c : ℕ)
    (hr : 0 < r) (hc : 2 ≤ c) :
    ((r' = r ∧ c' = c) ∨ (r' = 1 ∧ c' = c) ∨ (r' = 1 ∧ c' = 1) ∨ (c' = 1 ∧ r' = c) →
      ∃ g, loadBed file [r, c] = .ok g ∧ g.shape = [r, c]) ∧
    (¬ ((r' = r ∧ c' = c) ∨ (r' = 1 ∧ c' = c) ∨ (r' = 1 ∧ c' = 1) ∨ (c' = 1 ∧ r' = c)) →
      loadBed file [r, c] = .error .valueError) := by
  have key : broadcasts ([r', c'].filter (· ≠ 1)) [r, c] = true ↔
      ((r' = r ∧ c' = c) ∨ (r' = 1 ∧ c' = c) ∨ (r' = 1 ∧ c' = 1) ∨ (c' = 1 ∧ r' = c)) := by
    by_cases h1 : r' = 1 <;> by_cases h2 : c' = 1
    · subst h1 h2; simp [broadcasts]
    · subst h1
      simp [broadcasts, h2]
    · subst h2
      simp [broadcasts, h1]
      omega
    · simp [broadcasts, h1, h2]
  constructor
  · intro hcase
    obtain ⟨b, hb, hs, -, -⟩ := assign_ok ⟨[r', c'].filter (· ≠ 1), file.flatten⟩ [r, c]
      (by rw [filter_one_prod, h.size]; simp) (key.mpr hcase)
    exact ⟨b, by unfold loadBed; rw [h.load]; exact hb, hs⟩
  · intro hcase
    unfold loadBed
    rw [h.load]
    simp only [NdArr.assign]
    rw [if_neg (fun hh => hcase (key.mp hh))]

/-- **C118** Value put in row `i`, column `j` of the grid: the number on line `i` at place `j` of a file with several lines and columns;
number `j` of a file with a single line for every row; the same number everywhere for a file with one number; and, for a file with a
single column, number `j` of the column — so the column is laid along the row of the grid and repeated for all rows. -/
theorem C118_bed_values (file : List (List V)) (r' c' : ℕ) (h : IsTable file r' c') (r c : ℕ)
    (g : NdArr V) (hg : loadBed file [r, c] = .ok g) (i j : ℕ) (hi : i < r) (hj : j < c) :
    g.get [i, j] = if r' = 1 ∧ c' = 1 then entry file 0 0
      else if r' = 1 then entry file 0 j
      else if c' = 1 then entry file j 0
      else entry file i j := by
  have hb : broadcasts ([r', c'].filter (· ≠ 1)) [r, c] = true := by
    by_contra hn
    unfold loadBed at hg
    rw [h.load] at hg
    simp only [NdArr.assign] at hg
    rw [if_neg hn] at hg
    cases hg
  obtain ⟨b, hb1, hs, -, hb2⟩ := assign_ok ⟨[r', c'].filter (· ≠ 1), file.flatten⟩ [r, c]
    (by rw [filter_one_prod, h.size]; simp) hb
  have : b = g := by
    unfold loadBed at hg
    rw [h.load] at hg
    simp only at hg
    rw [hb1] at hg
    exact Except.ok.inj hg
  subst this
  rw [hb2 [i, j] (.cons hi (.cons hj .nil))]
  by_cases h1 : r' = 1 <;> by_cases h2 : c' = 1
  · subst h1 h2
    simpa [NdArr.get, sourceIndex, ravel] using h.at 0 0 (by omega)
  · subst h1
    have hc' : c' = c := by simp [broadcasts, h2] at hb; exact hb
    have := h.at 0 j (by omega)
    simpa [NdArr.get, sourceIndex, ravel, h2] using this
  · subst h2
    have := h.at j 0 (by omega)
    simpa [NdArr.get, sourceIndex, ravel, h1] using this
  · have hc' : r' = r ∧ c' = c := by simpa [broadcasts, h1, h2] using hb
    have := h.at i j (by omega)
    simpa [NdArr.get, sourceIndex, ravel, h1, h2] using this

/-- **C118** Consequence for a square grid: a file with one column, meant as one bed level per row, is accepted and gives the bed
transposed — levels vary along the row, not from row to row. -/
theorem C118_column_becomes_row (file : List (List V)) (n : ℕ) (hn : 2 ≤ n) (h : IsTable file n 1) :
    ∃ g, loadBed file [n, n] = .ok g ∧ ∀ i < n, ∀ j < n, g.get [i, j] = entry file j 0 := by
  obtain ⟨g, hg, -⟩ := (C118_bed_accepted file n 1 h n n (by omega) hn).1 (by simp)
  refine ⟨g, hg, fun i hi j hj => ?_⟩
  rw [C118_bed_values file n 1 h n n g hg i j hi hj]
  simp [show n ≠ 1 by omega]

/-- **C118** The coordinates themselves always fit the grid made from their file, and a grid of several rows and columns has in row `i`
and column `j` the number on line `i` at place `j`. -/
theorem C118_coordinates (file : List (List V)) (r c : ℕ) (h : IsTable file r c) (hr : 2 ≤ r) (hc : 2 ≤ c) :
    ∃ x, loadtxt file = some x ∧ gridShape x = .ok (r, c) ∧
      ∃ g, x.assign [r, c] = .ok g ∧ ∀ i < r, ∀ j < c, g.get [i, j] = entry file i j := by
  obtain ⟨x, hx, hs⟩ := C118_grid_from_file file r c h
  obtain ⟨g, hg, -⟩ := (C118_bed_accepted file r c h r c (by omega) hc).1 (by simp)
  refine ⟨x, hx, ?_, g, ?_, fun i hi j hj => ?_⟩
  · rw [hs, if_neg (by omega), if_neg (by omega), if_neg (by omega)]
  · unfold loadBed at hg; rw [hx] at hg; exact hg
  · rw [C118_bed_values file r c h r c g hg i j hi hj, if_neg (by omega), if_neg (by omega), if_neg (by omega)]

/-- **C118** A transect: the numbers of a file with a single line or a single column are the coordinates of the single row. -/
theorem C118_transect (file : List (List V)) (r c : ℕ) (h : IsTable file r c)
    (h1 : (r = 1 ∧ 2 ≤ c) ∨ (c = 1 ∧ 2 ≤ r)) :
    ∃ x, loadtxt file = some x ∧ gridShape x = .ok (1, r * c) ∧
      ∃ g, x.assign [1, r * c] = .ok g ∧ ∀ j < r * c, g.get [0, j] = file.flatten[j]? := by
  obtain ⟨x, hx, hs⟩ := C118_grid_from_file file r c h
  have hn : 2 ≤ r * c := by rcases h1 with ⟨rfl, h2⟩ | ⟨rfl, h2⟩ <;> simpa using h2
  obtain ⟨g, hg, -⟩ := (C118_bed_accepted file r c h 1 (r * c) (by omega) hn).1
    (by rcases h1 with ⟨rfl, h⟩ | ⟨rfl, h⟩ <;> simp)
  refine ⟨x, hx, ?_, g, ?_, fun j hj => ?_⟩
  · rw [hs, if_neg (by omega)]
    rcases h1 with ⟨rfl, h⟩ | ⟨rfl, h⟩
    · simp
    · rw [if_neg (by omega), if_pos rfl, Nat.mul_one]
  · unfold loadBed at hg; rw [hx] at hg; exact hg
  · rw [C118_bed_values file r c h 1 (r * c) g hg 0 j (by omega) hj]
    rcases h1 with ⟨rfl, h2⟩ | ⟨rfl, h2⟩
    · rw [if_neg (by omega), if_pos rfl, ← h.at 0 j (by omega)]; simp
    · rw [if_neg (by omega), if_neg (by omega), if_pos rfl, ← h.at j 0 (by omega)]; simp

/-- **C118** Masks are accepted exactly if they have as many numbers as the grid has cells, whatever their lines and columns, and are
laid on the grid in reading order; a mask with lines and columns exchanged is therefore accepted and scrambled. -/
theorem C118_masks (one : V) (file : List (List V)) (r' c' : ℕ) (h : IsTable file r' c') (r c : ℕ) :
    ∃ v, loadtxt file = some v ∧
      (r' * c' ≠ r * c → maskGrid one [r, c] (some v) = .error .valueError) ∧
      (r' * c' = r * c → ∃ g, maskGrid one [r, c] (some v) = .ok g ∧ g.shape = [r, c] ∧
        ∀ i < r, ∀ j < c, g.get [i, j] = file.flatten[i * c + j]?) := by
  refine ⟨_, h.load, ?_, ?_⟩
  · intro hne
    simp only [maskGrid, NdArr.reshape]
    rw [if_neg]
    rw [filter_one_prod]; simpa using hne
  · intro he
    refine ⟨⟨[r, c], file.flatten⟩, ?_, rfl, ?_⟩
    · simp only [maskGrid, NdArr.reshape]
      rw [if_pos]
      rw [filter_one_prod]; simpa using he
    · intro i _ j _
      simp [NdArr.get, ravel]

/-- **C118** A file with thresholds needs several lines and several columns: for a transect (one line or one column) the run always
stops with `IndexError`. Otherwise every fraction of the cell in row `i` and column `j` gets the number on line `i` at place `j`. -/
theorem C118_thresholds (nf : ℕ) (file : List (List V)) (r c : ℕ) (h : IsTable file r c) :
    ∃ v, loadtxt file = some v ∧
      (r = 1 ∨ c = 1 → thresholdGrid nf v = .error .indexError) ∧
      (r ≠ 1 → c ≠ 1 → ∃ g, thresholdGrid nf v = .ok g ∧ g.shape = [r, c, nf] ∧
        ∀ i < r, ∀ j < c, ∀ f < nf, g.get [i, j, f] = entry file i j) := by
  refine ⟨_, h.load, ?_, ?_⟩
  · intro h1
    by_cases hr : r = 1 <;> by_cases hc : c = 1 <;> simp_all [thresholdGrid]
  · intro hr hc
    refine ⟨⟨[r, c, nf], file.flatten.flatMap (List.replicate nf)⟩, by simp [thresholdGrid, hr, hc], rfl, ?_⟩
    intro i hi j hj f hf
    rw [← h.at i j hj]
    have := flatten_get nf (file.flatten.map (List.replicate nf))
      (by intro row hrow; obtain ⟨x, -, rfl⟩ := List.mem_map.mp hrow; simp) (i * c + j) f hf
    simp only [NdArr.get, ravel, List.prod_cons, List.prod_nil, Nat.mul_one, Nat.add_zero]
    rw [List.flatMap_def, show i * (c * nf) + (j * nf + f) = (i * c + j) * nf + f by ring, this, List.getElem?_map]
    cases file.flatten[i * c + j]? with
    | none => rfl
    | some v => simp [hf]

/-- **C118** A file with a time series (wind: 3 columns, tide: 2, meteorology: 6) is accepted exactly if it has at least that many
columns and *at least two lines*: a series with a single record is rejected with `ValueError`. -/
theorem C118_series (cols : ℕ) (hcols : 2 ≤ cols) (file : List (List V)) (r c : ℕ) (h : IsTable file r c) :
    ∃ v, loadtxt file = some v ∧
      checkSeries cols v = if 2 ≤ r ∧ cols ≤ c then .ok () else .error .valueError := by
  refine ⟨_, h.load, ?_⟩
  have := h.some_line
  have := h.some_column
  by_cases hr : r = 1 <;> by_cases hc : c = 1
  · rw [if_neg (by omega)]; simp [checkSeries, hr, hc]
  · rw [if_neg (by omega)]; simp [checkSeries, hr, hc]
  · rw [if_neg (by omega)]; simp [checkSeries, hr, hc]
  · by_cases hk : cols ≤ c
    · rw [if_pos (by omega)]; simp [checkSeries, hr, hc]; omega
    · rw [if_neg (by omega)]; simp [checkSeries, hr, hc]; omega

/-- A table of two lines and three columns. -/
def smallTable : List (List ℚ) := [[1, 2, 3], [4, 5, 6]]

theorem smallTable_isTable : IsTable smallTable 2 3 := ⟨rfl, by simp [smallTable], by omega, by omega⟩

example : ∃ g, loadBed smallTable [2, 3] = .ok g ∧ g.get [1, 0] = some 4 := by
  obtain ⟨g, hg, -⟩ := (C118_bed_accepted smallTable 2 3 smallTable_isTable 2 3 (by omega) (by omega)).1 (by simp)
  exact ⟨g, hg, (C118_bed_values _ 2 3 smallTable_isTable 2 3 g hg 1 0 (by omega) (by omega)).trans rfl⟩

example : loadBed smallTable [3, 2] = .error .valueError :=
  (C118_bed_accepted smallTable 2 3 smallTable_isTable 3 2 (by omega) (by omega)).2 (by omega)

/-- Exchanged lines and columns are accepted for a mask. -/
example : ∃ g, maskGrid 1 [3, 2] (some ⟨[2, 3], smallTable.flatten⟩) = .ok g ∧ g.get [1, 0] = some 3 :=
  ⟨⟨[3, 2], smallTable.flatten⟩, rfl, rfl⟩

example : ∃ g, loadBed [[(1 : ℚ)], [2]] [2, 2] = .ok g ∧ g.get [1, 0] = some 1 := by
  obtain ⟨g, hg, h⟩ := C118_column_becomes_row [[(1 : ℚ)], [2]] 2 (by omega)
    ⟨rfl, by simp, by omega, by omega⟩
  exact ⟨g, hg, (h 1 (by omega) 0 (by omega)).trans rfl⟩

example : IsTable [[(0 : ℚ), 5, 10]] 1 3 ∧ (2 ≤ (3 : ℕ)) := ⟨⟨rfl, by simp, by omega, by omega⟩, by omega⟩

/-- A table of two lines as coordinates, as a mask, as thresholds and as a series. -/
example : (∃ x, loadtxt smallTable = some x ∧ gridShape x = .ok (2, 3) ∧
      ∃ g, x.assign [2, 3] = .ok g ∧ g.get [1, 2] = some 6) ∧
    (∃ v, loadtxt smallTable = some v ∧ maskGrid 1 [2, 2] (some v) = .error .valueError) ∧
    (∃ v g, loadtxt smallTable = some v ∧ thresholdGrid 4 v = .ok g ∧ g.get [0, 1, 3] = some 2) ∧
    (∃ v, loadtxt smallTable = some v ∧ checkSeries 3 v = .ok ()) := by
  refine ⟨?_, ?_, ?_, ?_⟩
  · obtain ⟨x, h1, h2, g, h3, h4⟩ := C118_coordinates smallTable 2 3 smallTable_isTable (by norm_num) (by norm_num)
    exact ⟨x, h1, h2, g, h3, (h4 1 (by norm_num) 2 (by norm_num)).trans rfl⟩
  · obtain ⟨v, h1, h2, -⟩ := C118_masks 1 smallTable 2 3 smallTable_isTable 2 2
    exact ⟨v, h1, h2 (by norm_num)⟩
  · obtain ⟨v, h1, -, h2⟩ := C118_thresholds 4 smallTable 2 3 smallTable_isTable
    obtain ⟨g, h3, -, h4⟩ := h2 (by norm_num) (by norm_num)
    exact ⟨v, g, h1, h3, (h4 0 (by norm_num) 1 (by norm_num) 3 (by norm_num)).trans rfl⟩
  · obtain ⟨v, h1, h2⟩ := C118_series 3 (by norm_num) smallTable 2 3 smallTable_isTable
    exact ⟨v, h1, h2.trans (if_pos (by norm_num))⟩

/-- A file of one column is a transect, one with a single number is no grid. -/
example : (∃ x, loadtxt [[(1 : ℚ)], [2], [3]] = some x ∧ gridShape x = .ok (1, 3 * 1)) ∧
    (∃ x, loadtxt [[(1 : ℚ)]] = some x ∧ gridShape x = .error .typeError) := by
  refine ⟨?_, ?_⟩
  · obtain ⟨x, h1, h2, -⟩ := C118_transect [[(1 : ℚ)], [2], [3]] 3 1 ⟨rfl, by simp, by omega, by omega⟩ (.inr (by norm_num))
    exact ⟨x, h1, h2⟩
  · obtain ⟨x, h1, h2⟩ := C118_grid_from_file [[(1 : ℚ)]] 1 1 ⟨rfl, by simp, by omega, by omega⟩
    exact ⟨x, h1, h2.trans (if_pos (by norm_num))⟩

end Aeolis.Props
