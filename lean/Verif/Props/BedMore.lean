import Verif.Model.Bed
import Verif.Proofs.Utils
import Verif.Spec.Bed

/-!
C32 (initial composition), C38 (wave mixing), C39 (wet bed reset), C40 (average change).
-/

set_option linter.unusedSectionVars false

namespace Aeolis.Props

open Finset Aeolis.Spec Aeolis.Bed

variable {K : Type*} [Field K] [LinearOrder K] [IsStrictOrderedRing K] {nf : ℕ}

/-! ### C32 -/

/-- The layer holds `rho (1-por) th` in total, distributed proportionally to `g`, non-negative. -/
def IsMix (rho por th : K) (g m : Fin nf → K) : Prop :=
  (∑ f, m f = rho * (1 - por) * th) ∧ (∀ f f', m f * g f' = m f' * g f) ∧ ∀ f, 0 ≤ m f

theorem isMix_gs (rho por th : K) (g : Fin nf → K) (hr : 0 ≤ rho) (hp : por ≤ 1) (ht : 0 ≤ th)
    (hg : ∀ f, 0 ≤ g f) (hs : (∑ f, g f) ≠ 0) :
    IsMix rho por th g (fun f => rho * (1 - por) * th * gs g f) := by
  unfold gs
  refine ⟨?_, ?_, ?_⟩
  · rw [← Finset.mul_sum, ← Finset.sum_div, div_self hs, mul_one]
  · intro f f'; ring
  · intro f
    exact mul_nonneg (mul_nonneg (mul_nonneg hr (by linarith)) ht)
      (div_nonneg (hg f) (Finset.sum_nonneg fun j _ => hg j))

/-- C32: one distribution for all layers, no composition file. -/
theorem C32_initial_composition_single (nl : ℕ) (rho por : K) (th : ℕ → K) (int : Bool)
    (g : Fin nf → K) (hr : 0 ≤ rho) (hp : por ≤ 1) (ht : ∀ k, 0 ≤ th k) (hg : ∀ f, 0 ≤ g f)
    (hs : (∑ f, g f) ≠ 0) :
    ∃ m, initMass nl rho por th int none (.single g) = some m ∧
      ∀ k, IsMix rho por (th k) g (m k) :=
  ⟨_, rfl, fun k => isMix_gs rho por (th k) g hr hp (ht k) hg hs⟩

/-- C32: one distribution per layer (not integer typed), no composition file: accepted exactly when
the number of rows equals the number of layers, and then each layer follows its own row. -/
theorem C32_initial_composition_layered (nl : ℕ) (rho por : K) (th : ℕ → K)
    (rows : List (Fin nf → K)) (hr : 0 ≤ rho) (hp : por ≤ 1) (ht : ∀ k, 0 ≤ th k)
    (hg : ∀ g ∈ rows, (∀ f, 0 ≤ g f) ∧ (∑ f, g f) ≠ 0) :
    (rows.length ≠ nl → initMass nl rho por th false none (.layered rows) = none) ∧
    (rows.length = nl → ∃ m, initMass nl rho por th false none (.layered rows) = some m ∧
      ∀ k (hk : k < rows.length), IsMix rho por (th k) rows[k] (m k)) := by
  refine ⟨fun h => ?_, fun h => ?_⟩
  · simp [initMass, Ne.symm h]
  · refine ⟨fun k f => rho * (1 - por) * th k * gs (rows.getD k 0) f, by simp [initMass, h], ?_⟩
    intro k hk
    have h1 := hg rows[k] (List.getElem_mem hk)
    have h2 : rows.getD k 0 = rows[k] := by simp [List.getD, hk]
    simp only [h2]
    exact isMix_gs rho por (th k) _ hr hp (ht k) h1.1 h1.2

/-- C32: a composition file is copied. -/
theorem C32_composition_file (nl : ℕ) (rho por : K) (th : ℕ → K) (mc : Mass K nf)
    (g : GrainDist K nf) : initMass nl rho por th false (some mc) g = some mc := by
  cases g <;> rfl

/-- C32, an exception a user may trip over: with an integer typed distribution (for example
`grain_dist = 1`) the composition file is ignored, because of the operator precedence in the test. -/
theorem C32_integer_distribution_ignores_file (nl : ℕ) (rho por : K) (th : ℕ → K)
    (mc : Mass K nf) (g : Fin nf → K) :
    initMass nl rho por th true (some mc) (.single g) = initMass nl rho por th true none (.single g) :=
  rfl

example : ∃ m, initMass (K := ℚ) (nf := 2) 3 2650 (2/5) (fun _ => 1/100) false none (.single ![1, 3])
    = some m ∧ ∀ k, IsMix 2650 (2/5) (1/100) ![1, 3] (m k) :=
  C32_initial_composition_single _ _ _ _ _ _ (by norm_num) (by norm_num) (by intro; norm_num)
    (by intro f; fin_cases f <;> simp) (by norm_num [Fin.sum_univ_two])

example : initMass (K := ℚ) (nf := 2) 3 2650 (2/5) (fun _ => 1/100) false none
    (.layered [![1, 3], ![1, 1]]) = none :=
  (C32_initial_composition_layered 3 _ _ _ [![1, 3], ![1, 1]] (by norm_num) (by norm_num)
    (by intro; norm_num) (by
      intro g hg
      simp only [List.mem_cons, List.not_mem_nil, or_false] at hg
      rcases hg with rfl | rfl <;>
        exact ⟨by intro f; fin_cases f <;> simp, by norm_num [Fin.sum_univ_two]⟩)).1 (by decide)

/-! ### C38 -/

/-- A layer lies within the disturbance depth `dod` if its lower edge does. -/
def WithinDepth (th : ℕ → K) (dod : K) (k : ℕ) : Prop := (∑ j ∈ range (k + 1), th j) ≤ dod

/-- C38: mixing keeps the amount of every fraction in the column (any number of layers, waves, with
or without mixing elsewhere on the grid). -/
theorem C38_mixing_conserves_fractions (nl : ℕ) (on : Bool) (fac hs : K) (th : ℕ → K) (anyIx : Bool)
    (m : Mass K nf) (f : Fin nf) :
    columnTotal nl (mixtoplayer nl on fac hs th anyIx m) f = columnTotal nl m f := by
  unfold columnTotal mixtoplayer
  split
  · simp only
    split
    · set sel := (range nl).filter (fun k => mixIx th (fac * hs) k) with hsel
      rw [← Finset.sum_filter_add_sum_filter_not (range nl) (fun k => mixIx th (fac * hs) k),
        ← Finset.sum_filter_add_sum_filter_not (range nl) (fun k => mixIx th (fac * hs) k)
          (fun k => m k f)]
      congr 1
      · rw [← hsel]
        rw [Finset.sum_congr rfl fun k hk => if_pos hk, Finset.sum_add_distrib, Finset.sum_const,
          ← Finset.sum_mul, nsmul_eq_mul]
        rcases Finset.eq_empty_or_nonempty sel with h0 | h0
        · simp [h0]
        · have : (sel.card : K) ≠ 0 := by exact_mod_cast (Finset.card_pos.mpr h0).ne'
          field_simp
          ring
      · apply Finset.sum_congr rfl
        intro k hk
        beta_reduce
        rw [if_neg]
        simp only [Finset.mem_filter] at hk
        simp only [hsel, Finset.mem_filter, not_and]
        exact fun _ => hk.2
    · rfl
  · rfl

/-- C38: layers below the disturbance depth (except the top layer) are unchanged. -/
theorem C38_deep_layers_unchanged (nl : ℕ) (on : Bool) (fac hs : K) (th : ℕ → K) (anyIx : Bool)
    (m : Mass K nf) (k : ℕ) (hk : k ≠ 0) (hdeep : ¬ WithinDepth th (fac * hs) k) :
    mixtoplayer nl on fac hs th anyIx m k = m k := by
  unfold mixtoplayer
  split
  · simp only
    split
    · funext f
      beta_reduce
      rw [if_neg]
      intro hmem
      rcases (Finset.mem_filter.mp hmem).2 with h | h
      · exact hk h
      · exact hdeep h.1
    · rfl
  · rfl

/-- C38: masses stay non-negative. -/
theorem C38_mixing_nonneg (nl : ℕ) (on : Bool) (fac hs : K) (th : ℕ → K) (anyIx : Bool)
    (m : Mass K nf) (hth : ∀ k, 0 ≤ th k) (hm : ∀ k < nl, ∀ f, 0 ≤ m k f) :
    ∀ k < nl, ∀ f, 0 ≤ mixtoplayer nl on fac hs th anyIx m k f := by
  intro k hk f
  have hf0 : 0 ≤ mixFrac nl th (fac * hs) := by
    unfold mixFrac; split
    · next h => exact le_min zero_le_one (div_nonneg (Finset.sum_nonneg fun j _ => hth j) h.le)
    · exact zero_le_one
  have hf1 : mixFrac nl th (fac * hs) ≤ 1 := by
    unfold mixFrac; split
    · exact min_le_left _ _
    · exact le_rfl
  unfold mixtoplayer
  split
  · simp only
    split
    · beta_reduce
      split
      · refine add_nonneg (mul_nonneg (div_nonneg (Finset.sum_nonneg ?_) (Nat.cast_nonneg _)) hf0)
          (mul_nonneg (hm k hk f) (by linarith))
        intro j hj
        exact hm j (Finset.mem_range.mp (Finset.mem_filter.mp hj).1) f
      · exact hm k hk f
    · exact hm k hk f
  · exact hm k hk f

/-- C38: layers of equal mass keep their mass. -/
theorem C38_mixing_keeps_equal_layer_mass (nl : ℕ) (on : Bool) (fac hs : K) (th : ℕ → K)
    (anyIx : Bool) (m : Mass K nf) (M : K) (hM : ∀ k < nl, layerTotal m k = M) :
    ∀ k < nl, layerTotal (mixtoplayer nl on fac hs th anyIx m) k = M := by
  intro k hk
  unfold mixtoplayer
  split
  · simp only
    split
    · unfold layerTotal
      simp only
      split
      · next hmem =>
        rw [Finset.sum_add_distrib, ← Finset.sum_mul, ← Finset.sum_mul, ← Finset.sum_div,
          Finset.sum_comm]
        have hsum : ∀ j ∈ (range nl).filter (fun k => mixIx th (fac * hs) k), ∑ f, m j f = M :=
          fun j hj => hM j (Finset.mem_range.mp (Finset.mem_filter.mp hj).1)
        rw [Finset.sum_congr rfl hsum]
        have hne : (((range nl).filter (fun k => mixIx th (fac * hs) k)).card : K) ≠ 0 := by
          exact_mod_cast (Finset.card_pos.mpr ⟨k, hmem⟩).ne'
        rw [Finset.sum_const, nsmul_eq_mul, show ∑ f, m k f = M from hM k hk]
        field_simp
        ring
      · exact hM k hk
    · exact hM k hk
  · exact hM k hk

/-- C38: when the disturbance does not reach below the layers, all mixed layers end with the average
of each fraction over the mixed layers. -/
theorem C38_mixed_layers_are_average (nl : ℕ) (fac hs : K) (th : ℕ → K) (m : Mass K nf)
    (hd : 0 < fac * hs) (hle : fac * hs ≤ ∑ j ∈ range nl, th j) (k : ℕ) (hk : k < nl)
    (hix : k = 0 ∨ WithinDepth th (fac * hs) k) (f : Fin nf) (S : Finset ℕ)
    (hS : ∀ j, j ∈ S ↔ j < nl ∧ (j = 0 ∨ WithinDepth th (fac * hs) j)) :
    mixtoplayer nl true fac hs th true m k f * (S.card : K) = ∑ j ∈ S, m j f := by
  have hfr : mixFrac nl th (fac * hs) = 1 := by
    unfold mixFrac
    rw [if_pos hd, min_eq_left]
    rw [le_div_iff₀ hd]; linarith
  have hSel : (range nl).filter (fun k => mixIx th (fac * hs) k) = S := by
    ext j
    rw [hS j, Finset.mem_filter, Finset.mem_range]
    simp only [mixIx, mixIx0, WithinDepth, hd, and_true]
  unfold mixtoplayer
  simp only [if_true, hfr, hSel]
  have hkS : k ∈ S := (hS k).mpr ⟨hk, hix⟩
  have hne : (S.card : K) ≠ 0 := by exact_mod_cast (Finset.card_pos.mpr ⟨k, hkS⟩).ne'
  rw [if_pos hkS]
  field_simp
  ring

/-- C38: with mixing off, or in a cell without waves, nothing changes. -/
theorem C38_no_waves_no_mixing (nl : ℕ) (on : Bool) (fac hs : K) (th : ℕ → K) (anyIx : Bool)
    (m : Mass K nf) (h : on = false ∨ fac * hs ≤ 0) :
    mixtoplayer nl on fac hs th anyIx m = m := by
  unfold mixtoplayer
  rcases h with h | h
  · simp [h]
  · split
    · simp only
      split
      · funext k f
        split
        · next hmem =>
          have hS : (range nl).filter (fun k => mixIx th (fac * hs) k) = {0} := by
            ext j
            simp only [Finset.mem_filter, Finset.mem_range, mixIx, mixIx0, Finset.mem_singleton,
              not_lt.mpr h, and_false, or_false] at hmem ⊢
            omega
          rw [hS] at hmem ⊢
          simp only [Finset.mem_singleton] at hmem
          subst hmem
          have : mixFrac nl th (fac * hs) = 1 := by unfold mixFrac; rw [if_neg (not_lt.mpr h)]
          rw [this]; simp
        · rfl
      · rfl
    · rfl

/-- Three layers of 1 cm, disturbance depth 2 cm: the two upper layers are averaged. -/
example : mixtoplayer (K := ℚ) (nf := 1) 3 true (1/10) (1/5) (fun _ => 1/100) true
    (fun k _ => k + 1) 1 0 * 2 = 3 := by
  have := C38_mixed_layers_are_average (K := ℚ) (nf := 1) 3 (1/10) (1/5) (fun _ => 1/100)
    (fun k _ => k + 1) (by norm_num) (by norm_num [Finset.sum_const]) 1 (by norm_num)
    (Or.inr (by norm_num [WithinDepth, Finset.sum_const])) 0 {0, 1} (by
      intro j
      simp only [WithinDepth, Finset.sum_const, Finset.card_range, nsmul_eq_mul, Finset.mem_insert,
        Finset.mem_singleton]
      constructor
      · rintro (rfl | rfl) <;> norm_num
      · rintro ⟨h1, h2 | h2⟩
        · omega
        · push_cast at h2
          have : (j : ℚ) < 2 := by linarith
          have : j < 2 := by exact_mod_cast this
          omega)
  have hc : (({0, 1} : Finset ℕ).card : ℚ) = 2 := by norm_num
  rw [hc] at this
  rw [this]; norm_num

/-! ### C39 -/

/-- C39: only cells with water standing more than 1 cm above the bed change, and there the distance to
the initial bed is multiplied by `1 - dt/T`. -/
theorem C39_wet_bed_reset (dt T zs zb0 zb : K) :
    (zb + 1 / 100 < zs →
      wetBedReset true dt T zs zb0 zb - zb0 = (zb - zb0) * (1 - dt / T)) ∧
    (zs ≤ zb + 1 / 100 → wetBedReset true dt T zs zb0 zb = zb) ∧
    wetBedReset false dt T zs zb0 zb = zb := by
  unfold wetBedReset
  refine ⟨fun h => ?_, fun h => ?_, by simp⟩
  · simp only [if_true]; rw [if_pos h]; ring
  · simp only [if_true]; rw [if_neg (not_lt.mpr h)]

/-- C39 over any history of water levels and steps `0 ≤ dt ≤ T`: the bed never overshoots, it stays
between its starting level and the initial bed. -/
theorem C39_never_overshoots (T zb0 : K) (hT : 0 < T) (hist : List (K × K))
    (hh : ∀ e ∈ hist, 0 ≤ e.1 ∧ e.1 ≤ T) (zb : K) :
    min zb zb0 ≤ hist.foldl (fun z e => wetBedReset true e.1 T e.2 zb0 z) zb ∧
    hist.foldl (fun z e => wetBedReset true e.1 T e.2 zb0 z) zb ≤ max zb zb0 := by
  induction hist generalizing zb with
  | nil => exact ⟨min_le_left _ _, le_max_left _ _⟩
  | cons e hist ih =>
    simp only [List.foldl_cons]
    have h1 := ih (fun x hx => hh x (by simp [hx])) (wetBedReset true e.1 T e.2 zb0 zb)
    have he := hh e (by simp)
    have hr0 : 0 ≤ e.1 / T := div_nonneg he.1 hT.le
    have hr1 : e.1 / T ≤ 1 := (div_le_one hT).mpr he.2
    have key : min zb zb0 ≤ wetBedReset true e.1 T e.2 zb0 zb ∧
        wetBedReset true e.1 T e.2 zb0 zb ≤ max zb zb0 := by
      unfold wetBedReset
      simp only [if_true]
      split
      · rcases le_total zb zb0 with hz | hz
        · rw [min_eq_left hz, max_eq_right hz]
          constructor
          · nlinarith
          · nlinarith
        · rw [min_eq_right hz, max_eq_left hz]
          constructor
          · nlinarith
          · nlinarith
      · exact ⟨min_le_left _ _, le_max_left _ _⟩
    constructor
    · exact le_trans (le_min key.1 (min_le_right _ _)) h1.1
    · exact le_trans h1.2 (max_le key.2 (le_max_right _ _))

example : wetBedReset (K := ℚ) true 3600 7200 5 0 2 = 1 := by norm_num [wetBedReset]
example : ∀ e ∈ [((3600 : ℚ), (5 : ℚ)), (1800, 0)], 0 ≤ e.1 ∧ e.1 ≤ 7200 := by
  simp only [List.mem_cons, List.not_mem_nil, or_false, forall_eq_or_imp, forall_eq]
  norm_num

/-! ### C40 -/

/-- C40: reported change, its yearly rate (a year is 365.25 days) and the running average. -/
theorem C40_average_change (dt acc avg lzb lavg zb : K) (hdt : dt * acc ≠ 0) (havg : avg ≠ 0) :
    (averageChange dt acc avg lzb lavg zb).dzb = zb - lzb ∧
    (averageChange dt acc avg lzb lavg zb).dzbyear * (dt * acc) = (zb - lzb) * (36525 * 864) ∧
    (averageChange dt acc avg lzb lavg zb).dzbveg = (averageChange dt acc avg lzb lavg zb).dzbyear ∧
    ((averageChange dt acc avg lzb lavg zb).dzbavg - lavg) * avg
      = (dt * acc) * ((averageChange dt acc avg lzb lavg zb).dzbyear - lavg) := by
  unfold averageChange
  simp only
  refine ⟨trivial, ?_, trivial, ?_⟩
  · rw [div_mul_cancel₀ _ hdt]; ring
  · field_simp; ring

/-- C40: for a step not longer than the averaging time, the average stays between the old average and
the new rate. -/
theorem C40_average_is_convex (dt acc avg lzb lavg zb : K) (h0 : 0 ≤ dt * acc)
    (h1 : dt * acc ≤ avg) (havg : 0 < avg) :
    min lavg (averageChange dt acc avg lzb lavg zb).dzbyear
        ≤ (averageChange dt acc avg lzb lavg zb).dzbavg ∧
    (averageChange dt acc avg lzb lavg zb).dzbavg
        ≤ max lavg (averageChange dt acc avg lzb lavg zb).dzbyear := by
  unfold averageChange
  simp only
  set y := (zb - lzb) * 31557600 / (dt * acc)
  have hn0 : 0 ≤ dt * acc / avg := div_nonneg h0 havg.le
  have hn1 : dt * acc / avg ≤ 1 := (div_le_one havg).mpr h1
  rcases le_total lavg y with hz | hz
  · rw [min_eq_left hz, max_eq_right hz]; constructor <;> nlinarith
  · rw [min_eq_right hz, max_eq_left hz]; constructor <;> nlinarith

example : (averageChange (K := ℚ) 3600 1 86400 1 0 2).dzbavg * 86400
    = 3600 * ((averageChange (K := ℚ) 3600 1 86400 1 0 2).dzbyear) := by
  have := (C40_average_change (K := ℚ) 3600 1 86400 1 0 2 (by norm_num) (by norm_num)).2.2.2
  simpa using this

/-- Three layers of 1 cm, waves that mix 2 cm: the two upper layers are mixed, the third stays. -/
example : mixtoplayer 3 true (1 / 10) (1 / 5) (fun _ => 1 / 100) true (fun k => ![(k : ℚ), 3 - k]) 0 = ![1 / 2, 5 / 2] ∧
    mixtoplayer 3 true (1 / 10) (1 / 5) (fun _ => 1 / 100) true (fun k => ![(k : ℚ), 3 - k]) 1 = ![1 / 2, 5 / 2] := by
  decide +kernel

example : mixtoplayer 3 true (1 / 10) (1 / 5) (fun _ => 1 / 100) true (fun k => ![(k : ℚ), 3 - k]) 2 = ![2, 1] := by
  rw [C38_deep_layers_unchanged 3 true (1 / 10) (1 / 5) (fun _ => 1 / 100) true (fun k => ![(k : ℚ), 3 - k]) 2
    (by decide) (by unfold WithinDepth; norm_num [Finset.sum_range_succ])]
  norm_num

example : columnTotal 3 (mixtoplayer 3 true (1 / 10) (1 / 5) (fun _ => 1 / 100) true (fun k => ![(k : ℚ), 3 - k])) 0
    = 3 := by
  rw [C38_mixing_conserves_fractions]
  norm_num [columnTotal, Finset.sum_range_succ]

example : ∀ k < 3, ∀ f, 0 ≤ mixtoplayer 3 true (1 / 10) (1 / 5) (fun _ => 1 / 100) true (fun k => ![(k : ℚ), 3 - k]) k f :=
  C38_mixing_nonneg 3 true _ _ _ true _ (fun _ => by norm_num) (by
    intro k hk f
    have : (k : ℚ) ≤ 3 := by exact_mod_cast hk.le
    fin_cases f
    · simp
    · simp [this])

example : ∀ k < 3, layerTotal (mixtoplayer 3 true (1 / 10) (1 / 5) (fun _ => 1 / 100) true (fun k => ![(k : ℚ), 3 - k])) k = 3 :=
  C38_mixing_keeps_equal_layer_mass 3 true _ _ _ true _ 3 (by intro k _; simp [layerTotal, Fin.sum_univ_two])

/-- A bed 1 m above its reference under water goes back by a tenth in a tenth of the time scale. -/
example : wetBedReset true 1 10 2 0 (1 : ℚ) - 0 = (1 - 0) * (1 - 1 / 10) :=
  (C39_wet_bed_reset 1 10 2 0 1).1 (by norm_num)

end Aeolis.Props
