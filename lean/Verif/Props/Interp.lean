import Verif.Proofs.Interp

/-! C08, C09, C10 (time series), C79 (grain size percentiles). -/

set_option linter.unusedSectionVars false

namespace Aeolis.Props

open Aeolis.Spec

variable {K : Type*} [Field K] [LinearOrder K] [IsStrictOrderedRing K] [FloorRing K]

/-- C08: at a listed time the listed value is returned. -/
theorem C08_listed_times (ts : List (K × K)) (hinc : Increasing ts) (i : ℕ) (hi : i < ts.length) :
    interpCircular ts (ts[i]).1 = some (ts[i]).2 := by
  match ts, hi with
  | k0 :: rest, hi =>
    have hlast : ∀ k ∈ k0 :: rest, k.1 ≤ ((k0 :: rest).getLast (by simp)).1 := by
      intro k hk
      rw [← List.dropLast_append_getLast (l := k0 :: rest) (by simp)] at hk
      rw [List.mem_append] at hk
      rcases hk with hk | hk
      · have := hinc
        rw [← List.dropLast_append_getLast (l := k0 :: rest) (by simp)] at this
        exact ((List.pairwise_append.mp this).2.2 k hk _ (by simp)).le
      · simp only [List.mem_singleton] at hk; rw [hk]
    have hfirst : k0.1 ≤ ((k0 :: rest)[i]).1 := by
      cases i with
      | zero => exact le_rfl
      | succ i => exact ((List.pairwise_cons.mp hinc).1 _ (List.getElem_mem _)).le
    rw [interpCircular_in_range k0 rest hinc _ hfirst
      (by have := hlast _ (List.getElem_mem hi); linarith)]
    obtain ⟨x0, f0⟩ := k0
    show some (if _ < x0 then _ else _) = _
    rw [if_neg (not_lt.mpr hfirst)]
    congr 1
    by_cases hlt : i + 1 < ((x0, f0) :: rest).length
    · have hstep : (((x0, f0) :: rest)[i]).1 < (((x0, f0) :: rest)[i + 1]).1 :=
        (List.pairwise_iff_getElem.mp hinc) i (i + 1) hi hlt (by omega)
      rw [interpFrom_segment _ (x0, f0) rest hinc i hlt le_rfl hstep]; ring
    · have hil : i = ((x0, f0) :: rest).length - 1 := by omega
      have hg : ((x0, f0) :: rest)[i] = ((x0, f0) :: rest).getLast (by simp) := by
        rw [List.getLast_eq_getElem]; congr 1
      rw [hg, interpFrom_last _ _ _ (fun k hk => hlast k hk)]

/-- C08: between two consecutive listed times the value lies on the straight line between the listed
values. -/
theorem C08_between_listed_times (ts : List (K × K)) (hinc : Increasing ts) (i : ℕ)
    (hi : i + 1 < ts.length) (x : K) (h1 : (ts[i]).1 ≤ x) (h2 : x ≤ (ts[i + 1]).1) :
    ∃ y, interpCircular ts x = some y ∧ OnLine ts[i] ts[i + 1] x y := by
  rcases eq_or_lt_of_le h2 with h3 | h3
  · refine ⟨(ts[i + 1]).2, ?_, ?_⟩
    · rw [h3]; exact C08_listed_times ts hinc (i + 1) hi
    · unfold OnLine; rw [h3]
  · match ts, hi with
    | (x0, f0) :: rest, hi =>
      have hstep : (((x0, f0) :: rest)[i]).1 < (((x0, f0) :: rest)[i + 1]).1 :=
        lt_of_le_of_lt h1 h3
      have hfirst : x0 ≤ (((x0, f0) :: rest)[i]).1 := by
        cases i with
        | zero => exact le_rfl
        | succ i => exact ((List.pairwise_cons.mp hinc).1 _ (List.getElem_mem _)).le
      have hlast : x < (((x0, f0) :: rest).getLast (by simp)).1 + 1 := by
        have h4 : (((x0, f0) :: rest)[i + 1]).1 ≤ (((x0, f0) :: rest).getLast (by simp)).1 := by
          rw [List.getLast_eq_getElem]
          rcases Nat.lt_or_ge (i + 1) (((x0, f0) :: rest).length - 1) with h5 | h5
          · exact ((List.pairwise_iff_getElem.mp hinc) _ _ hi (by omega) h5).le
          · have : i + 1 = ((x0, f0) :: rest).length - 1 := by omega
            simp only [this]; exact le_rfl
        linarith
      refine ⟨interpFrom x (x0, f0) rest, ?_, ?_⟩
      · rw [interpCircular_in_range (x0, f0) rest hinc x (le_trans hfirst h1) hlast]
        show some (if x < x0 then _ else _) = _
        rw [if_neg (not_lt.mpr (le_trans hfirst h1))]
      · unfold OnLine
        rw [interpFrom_segment x (x0, f0) rest hinc i hi h1 h3]
        have : (((x0, f0) :: rest)[i + 1]).1 - (((x0, f0) :: rest)[i]).1 ≠ 0 := by linarith
        field_simp
        ring

/-- C08 for tables: every column is interpolated by itself. -/
theorem C08_columns {n : ℕ} (xp : List K) (fp : Fin n → List K) (x : K) (i : Fin n) :
    interpArray true xp fp x i = interpCircular (xp.zip (fp i)) x := rfl

/-- C09: periodic with period `(last time - first time) + 1`, for any whole number of periods. -/
theorem C09_periodic (k0 : K × K) (rest : List (K × K)) (hinc : Increasing (k0 :: rest)) (x : K)
    (k : ℤ) :
    interpCircular (k0 :: rest)
        (x + k * (((k0 :: rest).getLast (by simp)).1 - k0.1 + 1))
      = interpCircular (k0 :: rest) x := by
  rw [interpCircular_eq k0 rest hinc, interpCircular_eq k0 rest hinc]
  have hne : ((k0 :: rest).getLast (by simp)).1 - k0.1 + 1 ≠ 0 := by
    have := first_le_last k0 rest hinc; linarith
  have := npMod_add_int (x - ((k0 :: rest).getLast (by simp)).1 - 1) _ hne k
  rw [← this]
  congr 3
  ring

/-- C09: in the one-second gap behind the last time the last value is held. -/
theorem C09_gap_holds_last (k0 : K × K) (rest : List (K × K)) (hinc : Increasing (k0 :: rest)) (x : K)
    (h1 : ((k0 :: rest).getLast (by simp)).1 ≤ x)
    (h2 : x < ((k0 :: rest).getLast (by simp)).1 + 1) :
    interpCircular (k0 :: rest) x = some ((k0 :: rest).getLast (by simp)).2 := by
  have hf := first_le_last k0 rest hinc
  rw [interpCircular_in_range k0 rest hinc x (le_trans hf h1) h2]
  obtain ⟨x0, f0⟩ := k0
  show some (if x < x0 then _ else _) = _
  rw [if_neg (not_lt.mpr (le_trans hf h1)), interpFrom_last]
  intro k hk
  refine le_trans ?_ h1
  rw [List.getLast_eq_getElem]
  obtain ⟨j, hj, rfl⟩ := List.getElem_of_mem hk
  rcases Nat.lt_or_ge j (((x0, f0) :: rest).length - 1) with h5 | h5
  · exact ((List.pairwise_iff_getElem.mp hinc) _ _ hj (by omega) h5).le
  · have : j = ((x0, f0) :: rest).length - 1 := by omega
    simp only [this]; exact le_rfl

/-- C09: the documented rule "a value beyond the last time evaluates as `f(x - max)`" does not hold:
for the series (0,0),(10,10) the value at 12 is that at 1, not that at 2. -/
theorem C09_documented_rule_is_off_by_one :
    interpCircular [((0 : ℚ), (0 : ℚ)), (10, 10)] 12 = some 1 ∧
    interpCircular [((0 : ℚ), (0 : ℚ)), (10, 10)] (12 - 10) = some 2 := by
  constructor <;> (rw [interpCircular_eq _ _ (by simp)]; unfold npInterp npMod; norm_num [interpFrom])

/-- C10: the interpolated value never leaves the range of the data; a value is always returned. -/
theorem C10_within_data_range (ts : List (K × K)) (hne : ts ≠ []) (hinc : Increasing ts) (x lo hi : K)
    (hb : ∀ k ∈ ts, lo ≤ k.2 ∧ k.2 ≤ hi) :
    ∃ v, interpCircular ts x = some v ∧ lo ≤ v ∧ v ≤ hi := by
  match ts, hne with
  | k0 :: rest, _ =>
    rw [interpCircular_eq k0 rest hinc]
    exact npInterp_bounds _ _ lo hi (by simp) hinc hb

/-- C10: an empty series is rejected. -/
theorem C10_empty_series_fails (x : K) : interpCircular ([] : List (K × K)) x = none := rfl

section Examples
def exSeries : List (ℚ × ℚ) := [(0, 3), (10, 5), (30, -1)]
theorem exSeries_inc : Increasing exSeries := by unfold exSeries Increasing; simp; norm_num

example : interpCircular exSeries 10 = some 5 := C08_listed_times exSeries exSeries_inc 1 (by decide)
example : ∃ y, interpCircular exSeries 20 = some y ∧ OnLine (10, 5) (30, -1) 20 y :=
  C08_between_listed_times exSeries exSeries_inc 1 (by decide) 20
    (by norm_num [exSeries]) (by norm_num [exSeries])
example : interpCircular exSeries (20 + (-3 : ℤ) * (30 - 0 + 1)) = interpCircular exSeries 20 :=
  C09_periodic (0, 3) [(10, 5), (30, -1)] exSeries_inc 20 (-3)
example : interpCircular exSeries (61/2) = some (-1) :=
  C09_gap_holds_last (0, 3) [(10, 5), (30, -1)] exSeries_inc (61/2) (by norm_num) (by norm_num)
example : ∃ v, interpCircular exSeries 1234567 = some v ∧ -1 ≤ v ∧ v ≤ 5 :=
  C10_within_data_range exSeries (by simp [exSeries]) exSeries_inc _ _ _ (by
    intro k hk; simp only [exSeries, List.mem_cons, List.not_mem_nil, or_false] at hk
    rcases hk with rfl | rfl | rfl <;> norm_num)
end Examples

/-! ### C79 grain size percentiles -/

theorem cumsum_lower (acc : K) (ws : List K) (h : ∀ w ∈ ws, 0 < w) :
    ∀ c ∈ cumsumFrom acc ws, acc < c := by
  induction ws generalizing acc with
  | nil => simp [cumsumFrom]
  | cons w ws ih =>
    intro c hc
    simp only [cumsumFrom, List.mem_cons] at hc
    have hw := h w (by simp)
    rcases hc with rfl | hc
    · linarith
    · have := ih (acc + w) (fun v hv => h v (by simp [hv])) c hc; linarith

theorem cumsum_increasing (acc : K) (ws : List K) (h : ∀ w ∈ ws, 0 < w) :
    (acc :: cumsumFrom acc ws).Pairwise (· < ·) := by
  induction ws generalizing acc with
  | nil => simp [cumsumFrom]
  | cons w ws ih =>
    rw [List.pairwise_cons]
    exact ⟨cumsum_lower acc (w :: ws) h, ih (acc + w) (fun v hv => h v (by simp [hv]))⟩

theorem cumsum_length (acc : K) (ws : List K) : (cumsumFrom acc ws).length = ws.length := by
  induction ws generalizing acc with
  | nil => rfl
  | cons w ws ih => simp [cumsumFrom, ih]

/-- The table of percentages and diameters is increasing for positive masses. -/
theorem percentile_table (diam mass : List K) (hne : mass ≠ []) (hm : ∀ w ∈ mass, 0 < w) :
    0 < listMax 0 (cumsumFrom 0 mass) ∧
    Increasing ((((0 : K) :: cumsumFrom 0 mass).map
      (fun w => 100 * w / listMax 0 (cumsumFrom 0 mass))).zip (0 :: diam)) := by
  have hp := cumsum_increasing 0 mass hm
  have hpos : 0 < listMax 0 (cumsumFrom 0 mass) := by
    rw [listMax_of_pairwise _ _ hp]
    rw [List.getLast_cons (by
      intro h; have := cumsum_length 0 mass; rw [h] at this
      exact hne (List.length_eq_zero_iff.mp this.symm))]
    exact cumsum_lower 0 mass hm _ (List.getLast_mem _)
  refine ⟨hpos, ?_⟩
  set M := listMax 0 (cumsumFrom 0 mass)
  have hq : (((0 : K) :: cumsumFrom 0 mass).map (fun w => 100 * w / M)).Pairwise (· < ·) := by
    rw [List.pairwise_map]
    refine hp.imp ?_
    intro a b hab
    rw [div_lt_div_iff_of_pos_right hpos]; linarith
  generalize ((0 : K) :: cumsumFrom 0 mass).map (fun w => 100 * w / M) = xs at hq
  generalize (0 : K) :: diam = ys
  induction xs generalizing ys with
  | nil => simp [Increasing]
  | cons x xs ih =>
    cases ys with
    | nil => simp [Increasing]
    | cons y ys =>
      rw [List.pairwise_cons] at hq
      simp only [List.zip_cons_cons, Increasing, List.pairwise_cons]
      exact ⟨fun k hk => hq.1 k.1 (List.of_mem_zip hk).1, ih hq.2 ys⟩

/-- C79: for positive masses and non-negative grain sizes up to `dmax` the percentile exists and lies
between 0 and `dmax`. -/
theorem C79_percentile_within_sizes (diam mass : List K) (dmax percent : K) (hne : mass ≠ [])
    (hlen : diam.length = mass.length) (hm : ∀ w ∈ mass, 0 < w)
    (hd : ∀ d ∈ diam, 0 ≤ d ∧ d ≤ dmax) :
    ∃ v, grainSizePercentile diam mass percent = some v ∧ 0 ≤ v ∧ v ≤ dmax := by
  obtain ⟨hpos, hinc⟩ := percentile_table diam mass hne hm
  unfold grainSizePercentile
  simp only
  rw [if_neg hpos.ne']
  have hd0 : 0 ≤ dmax := by
    have hdne : diam ≠ [] := by
      intro h; rw [h] at hlen; exact hne (List.length_eq_zero_iff.mp hlen.symm)
    exact le_trans (hd _ (List.head_mem hdne)).1 (hd _ (List.head_mem hdne)).2
  apply npInterp_bounds _ _ _ _ (by simp) hinc
  intro k hk
  have := (List.of_mem_zip hk).2
  simp only [List.mem_cons] at this
  rcases this with h | h
  · rw [h]; exact ⟨le_rfl, hd0⟩
  · exact hd _ h

/-- C79: percentiles are non-decreasing in the percentage (sizes listed in non-decreasing order). -/
theorem C79_percentile_monotone (diam mass : List K) (p q : K) (hpq : p ≤ q) (h0 : 0 ≤ p)
    (hne : mass ≠ []) (hm : ∀ w ∈ mass, 0 < w) (hd : ∀ d ∈ diam, 0 ≤ d)
    (hs : diam.Pairwise (· ≤ ·)) :
    ∃ v w, grainSizePercentile diam mass p = some v ∧ grainSizePercentile diam mass q = some w ∧
      v ≤ w := by
  obtain ⟨hpos, hinc⟩ := percentile_table diam mass hne hm
  unfold grainSizePercentile
  simp only
  rw [if_neg hpos.ne', if_neg hpos.ne']
  have hs' : ((0 : K) :: diam).Pairwise (· ≤ ·) := List.pairwise_cons.mpr ⟨fun d h => hd d h, hs⟩
  have hmono : ((((0 : K) :: cumsumFrom 0 mass).map
      (fun w => 100 * w / listMax 0 (cumsumFrom 0 mass))).zip (0 :: diam)).Pairwise
      (fun a b => a.2 ≤ b.2) := by
    generalize ((0 : K) :: cumsumFrom 0 mass).map _ = xs
    generalize (0 : K) :: diam = ys at hs'
    induction xs generalizing ys with
    | nil => simp
    | cons x xs ih =>
      cases ys with
      | nil => simp
      | cons y ys =>
        rw [List.pairwise_cons] at hs'
        simp only [List.zip_cons_cons, List.pairwise_cons]
        exact ⟨fun k hk => hs'.1 k.2 (List.of_mem_zip hk).2, ih ys hs'.2⟩
  simp only [List.map_cons, List.zip_cons_cons, mul_zero, zero_div] at hinc hmono ⊢
  refine ⟨_, _, rfl, rfl, ?_⟩
  rw [if_neg (not_lt.mpr h0), if_neg (not_lt.mpr (le_trans h0 hpq))]
  exact interpFrom_mono p q hpq _ _ hinc h0 hmono

example : ∃ v, grainSizePercentile [(1 : ℚ)/4, 1/2, 2] [20, 30, 50] 50 = some v ∧ 0 ≤ v ∧ v ≤ 2 :=
  C79_percentile_within_sizes _ _ _ _ (by simp) rfl
    (by intro w hw; simp only [List.mem_cons, List.not_mem_nil, or_false] at hw
        rcases hw with rfl | rfl | rfl <;> norm_num)
    (by intro w hw; simp only [List.mem_cons, List.not_mem_nil, or_false] at hw
        rcases hw with rfl | rfl | rfl <;> norm_num)

end Aeolis.Props
