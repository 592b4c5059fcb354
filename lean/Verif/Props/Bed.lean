import Verif.Proofs.BedUpdate

/-!
Bed update properties: C33 (layer mass), C34 (balance per fraction), C35 (no negative mass),
C36 (bed level), C37 (bookkeeping over any history).
-/

set_option linter.unusedSectionVars false

namespace Aeolis.Props

open Finset Aeolis.Spec Aeolis.Bed

variable {K : Type*} [Field K] [LinearOrder K] [IsStrictOrderedRing K] [FloorRing K] {nf : ℕ}

/-! ### C33 -/

/-- C33: for every pickup compatible with the bed (`Admissible`: in particular net deposition smaller than the top layer mass) a
bed update keeps the total mass of every layer.  For larger deposition see `C33_exact_deposit_doubles_top_layer` and
`C33_large_deposit_layers`, for erosion above the mass of a layer `C33_layer_mass_tolerance`. -/
theorem C33_layer_mass_constant (p : Params K nf) (s : Cell K nf)
    (h : Admissible p.nl s.mass s.pickup)
    (hsrc : ∀ f, 0 ≤ p.source.raw f) (hsum : (∑ f, p.source.raw f) ≠ 0) :
    ∀ k < p.nl, layerTotal (update p s).mass k = layerTotal s.mass k := by
  intro k hk
  unfold layerTotal
  rw [Finset.sum_congr rfl fun f _ => update_mass_eq_raw p s h hsrc k hk f]
  exact raw_total p s h hsum k hk

/-- C33, deposition larger than the top layer mass: if all layers have the same mass they keep
it. -/
theorem C33_layer_mass_constant_large_deposit (p : Params K nf) (s : Cell K nf) (M : K)
    (hM : 0 ≤ M) (hnl : 0 < p.nl) (hn : ∀ k < p.nl, ∀ f, 0 ≤ s.mass k f)
    (ha : ∀ f, s.pickup f ≤ s.mass 0 f) (ht : ∀ k < p.nl, layerTotal s.mass k = M)
    (hd : M < -∑ f, s.pickup f) :
    ∀ k < p.nl, layerTotal (update p s).mass k = M ∧ ∀ f, 0 ≤ (update p s).mass k f :=
  update_large p s M hM hnl hn ha ht hd

/-- C33 fails exactly at the boundary: net deposition equal to the top layer mass leaves the top
layer with twice its mass. -/
theorem C33_exact_deposit_doubles_top_layer (p : Params K nf) (s : Cell K nf) (M : K)
    (hM : 0 < M) (hnl : 0 < p.nl) (ht : layerTotal s.mass 0 = M)
    (hd : -∑ f, s.pickup f = M) :
    layerTotal (update p s).mass 0 = 2 * M := by
  have h := update_exact p s M hM hnl ht hd
  have hs := exch1_spec s
  have hpk : ∑ f, (exch1 s).pickup f = -M := by
    have := hs.pick; unfold exchMass at this; simp only at this; linarith
  have h2 : ∀ f, (update p s).mass 0 f = -2 * (exch1 s).pickup f := by
    intro f
    rw [update_mass, h f, preventTiny_of_nonneg]
    have := hs.nonpos (by show 0 < exchMass s.pickup; unfold exchMass; rw [hd]; exact hM) f
    linarith
  unfold layerTotal
  rw [Finset.sum_congr rfl fun f _ => h2 f, ← Finset.mul_sum, hpk]; ring

/-! ### C34 -/

/-- C34, erosion: the column amount of each fraction changes by minus its pickup plus the net
erosion times its share in the supplying sediment. -/
theorem C34_fraction_balance_erosion (p : Params K nf) (s : Cell K nf)
    (h : Admissible p.nl s.mass s.pickup) (hsrc : ∀ f, 0 ≤ p.source.raw f)
    (hsum : (∑ f, p.source.raw f) ≠ 0) (he : 0 < ∑ f, s.pickup f) (f : Fin nf) :
    columnTotal p.nl (update p s).mass f
      = columnTotal p.nl s.mass f - s.pickup f
        + (∑ j, s.pickup j) * share p.source.raw f := by
  unfold columnTotal
  rw [Finset.sum_congr rfl fun k hk =>
    update_mass_eq_raw p s h hsrc k (Finset.mem_range.mp hk) f]
  rw [raw_column_ero p s h (by unfold exchMass; linarith) f, comp_eq]
  unfold exchMass share normalize
  rw [if_pos hsum]; ring

/-- C34, deposition, at least two layers: the column amount of each fraction changes by minus its
pickup minus the net deposition times its share in the bottom layer. -/
theorem C34_fraction_balance_deposition (p : Params K nf) (s : Cell K nf)
    (h : Admissible p.nl s.mass s.pickup) (hsrc : ∀ f, 0 ≤ p.source.raw f) (hnl : 2 ≤ p.nl)
    (hd : ∑ f, s.pickup f < 0) (f : Fin nf) :
    columnTotal p.nl (update p s).mass f
      = columnTotal p.nl s.mass f - s.pickup f
        + (∑ j, s.pickup j) * share (s.mass (p.nl - 1)) f := by
  unfold columnTotal
  rw [Finset.sum_congr rfl fun k hk =>
    update_mass_eq_raw p s h hsrc k (Finset.mem_range.mp hk) f]
  rw [raw_column_dep p s h (by unfold exchMass; linarith) f,
    (exch1_spec s).below (p.nl - 1) (by omega)]
  have h1 : (∑ j, s.mass (p.nl - 1) j) ≠ 0 := by
    have := h.exchange (p.nl - 1) (by omega)
    rw [abs_of_neg hd] at this
    unfold layerTotal at this
    linarith
  simp only [exchMass, share, normalize, ne_eq, h1, not_false_eq_true, if_true]
  ring

/-- C34, exchange without net erosion or deposition: every fraction changes by its pickup only. -/
theorem C34_fraction_balance_exchange (p : Params K nf) (s : Cell K nf)
    (h : Admissible p.nl s.mass s.pickup) (hsrc : ∀ f, 0 ≤ p.source.raw f)
    (hz : ∑ f, s.pickup f = 0) (f : Fin nf) :
    columnTotal p.nl (update p s).mass f = columnTotal p.nl s.mass f - s.pickup f := by
  unfold columnTotal
  rw [Finset.sum_congr rfl fun k hk =>
    update_mass_eq_raw p s h hsrc k (Finset.mem_range.mp hk) f]
  simp_rw [raw_none p s (adm_top h) (by unfold exchMass; linarith : exchMass s.pickup = 0)]
  rw [Finset.sum_sub_distrib, sum_range_ite_zero _ h.layers]

/-! ### C35 -/

/-- C35: no negative mass after a bed update. -/
theorem C35_no_negative_mass (p : Params K nf) (s : Cell K nf)
    (h : Admissible p.nl s.mass s.pickup) (hsrc : ∀ f, 0 ≤ p.source.raw f) :
    ∀ k < p.nl, ∀ f, 0 ≤ (update p s).mass k f := by
  intro k hk f
  rw [update_mass_eq_raw p s h hsrc k hk f]
  exact raw_nonneg p s h hsrc k hk f

/-! ### C36 -/

/-- C36 (the proved part): with bed updating on and net deposition less than the top layer mass the
bed level (and, with tides, the water level) changes by minus the total pickup over
`rhog (1 - porosity)`, and that is the reported change.  Missing: larger deposition, where the
claim is false (`C36_large_deposit_leaves_bed_level`). -/
theorem C36_bed_level_partial (p : Params K nf) (s : Cell K nf)
    (h0 : 0 ≤ layerTotal s.mass 0)
    (h : ∑ f, s.pickup f < 0 → -∑ f, s.pickup f < layerTotal s.mass 0)
    (hb : p.processBedupdate = true) :
    (update p s).zb = s.zb - (∑ f, s.pickup f) / (p.rhog * (1 - p.porosity)) ∧
    (update p s).zs = (if p.processTide then s.zs - (∑ f, s.pickup f) / (p.rhog * (1 - p.porosity))
      else s.zs) ∧
    (update p s).dzb = (update p s).zb - s.zb := by
  have he : preventNegativeMass p.nl { m := s.mass, dm := exchMass s.pickup, pickup := s.pickup }
      = exch1 s := by
    apply prevent_eq p.nl s h0
    intro hd; unfold exchMass at hd ⊢; exact h (by linarith)
  have hdm : (exch1 s).dm = -∑ f, s.pickup f := (exch1_spec s).dm
  unfold update
  simp only [he, hdm, hb, if_true, true_and]
  refine ⟨by ring, ?_, by ring⟩
  split <;> ring

/-- C36: with bed updating off neither the bed level nor the water level changes. -/
theorem C36_bed_level_off (p : Params K nf) (s : Cell K nf) (hb : p.processBedupdate = false) :
    (update p s).zb = s.zb ∧ (update p s).zs = s.zs ∧ (update p s).dzb = s.dzb := by
  unfold update; simp [hb]

/-- C36 for every exchange: the bed level changes by the net exchange, except that a net deposition of more than the top layer holds
does not count at all. -/
theorem C36_bed_level_any (p : Params K nf) (s : Cell K nf) (h0 : 0 ≤ layerTotal s.mass 0) (hb : p.processBedupdate = true) :
    (update p s).zb = s.zb - (if layerTotal s.mass 0 < -∑ f, s.pickup f then 0 else ∑ f, s.pickup f) / (p.rhog * (1 - p.porosity)) := by
  have hs := exch1_spec s
  have he : (preventNegativeMass p.nl { m := s.mass, dm := exchMass s.pickup, pickup := s.pickup }).dm =
      -(if layerTotal s.mass 0 < -∑ f, s.pickup f then 0 else ∑ f, s.pickup f) := by
    have ht : ∑ f, (exch1 s).m 0 f = layerTotal s.mass 0 := hs.total
    have hd : (exch1 s).dm = -∑ f, s.pickup f := hs.dm
    split_ifs with h
    · rw [neg_zero]
      exact (case2_large_dm p.nl (exch1 s) (by rw [ht]; exact h0) (by rw [ht, hd]; exact h)).1
    · show (case2 p.nl (exch1 s)).dm = _
      rw [← hd]
      unfold case2
      simp only
      rw [ht, hd, if_neg h, ← hd]
      split_ifs
      · exact case2_fold_dm p.nl _ _ _ _ _
      · rfl
  unfold update
  simp only [he, hb, if_true]
  ring

/-- C36 is false for large deposits: whenever the net deposition exceeds the top layer mass, the
bed level does not change at all, whatever the amount deposited. -/
theorem C36_large_deposit_leaves_bed_level (p : Params K nf) (s : Cell K nf)
    (h0 : 0 ≤ layerTotal s.mass 0) (h : layerTotal s.mass 0 < -∑ f, s.pickup f) :
    (update p s).zb = s.zb := by
  have hs := exch1_spec s
  have hl := case2_large_dm p.nl (exch1 s) (by rw [hs.total]; exact h0)
    (by rw [hs.total, hs.dm]; exact h)
  have he : (preventNegativeMass p.nl
      { m := s.mass, dm := exchMass s.pickup, pickup := s.pickup }).dm = 0 := hl.1
  unfold update
  simp only [he]
  simp

/-! ### C37 -/

/-- A run: the bed updates with a list of pickups, one after the other. -/
def bedRun (p : Params K nf) (s : Cell K nf) (pks : List (Fin nf → K)) : Cell K nf :=
  pks.foldl (fun s pk => update p { s with pickup := pk }) s

/-- Every pickup of the run respects availability at its time and deposits net less than `M`. -/
def RunOk (p : Params K nf) (M : K) : Cell K nf → List (Fin nf → K) → Prop
  | _, [] => True
  | s, pk :: pks => (∀ f, pk f ≤ s.mass 0 f) ∧ -∑ f, pk f < M ∧
      RunOk p M (update p { s with pickup := pk }) pks

/-- C37: bookkeeping over any history of bed updates of any length. -/
theorem C37_bed_bookkeeping (p : Params K nf) (M : K) (hnl : 0 < p.nl)
    (hsrc : ∀ f, 0 ≤ p.source.raw f) (hsum : (∑ f, p.source.raw f) ≠ 0)
    (hb : p.processBedupdate = true) (pks : List (Fin nf → K)) (s : Cell K nf)
    (hn : ∀ k < p.nl, ∀ f, 0 ≤ s.mass k f) (ht : ∀ k < p.nl, layerTotal s.mass k = M)
    (hok : RunOk p M s pks) :
    (∀ k < p.nl, layerTotal (bedRun p s pks).mass k = M) ∧
    (∀ k < p.nl, ∀ f, 0 ≤ (bedRun p s pks).mass k f) ∧
    (bedRun p s pks).zb
      = s.zb - (pks.map (fun pk => ∑ f, pk f)).sum / (p.rhog * (1 - p.porosity)) := by
  induction pks generalizing s with
  | nil => exact ⟨ht, hn, by simp [bedRun]⟩
  | cons pk pks ih =>
    obtain ⟨ha, hd, hr⟩ := hok
    have hadm : Admissible p.nl ({ s with pickup := pk } : Cell K nf).mass
        ({ s with pickup := pk } : Cell K nf).pickup := by
      refine ⟨hnl, hn, ha, ?_, fun _ => by rw [ht 0 hnl]; exact hd⟩
      intro k hk
      simp only [ht k hk]
      rw [abs_le]
      refine ⟨by linarith, ?_⟩
      rw [← ht 0 hnl]; exact Finset.sum_le_sum fun f _ => ha f
    have h1 := C33_layer_mass_constant p _ hadm hsrc hsum
    have h2 := C35_no_negative_mass p _ hadm hsrc
    have h3 := (C36_bed_level_partial p { s with pickup := pk }
      (Finset.sum_nonneg fun f _ => hn 0 hnl f) hadm.single hb).1
    have := ih (update p { s with pickup := pk }) h2 (fun k hk => by rw [h1 k hk]; exact ht k hk) hr
    refine ⟨this.1, this.2.1, ?_⟩
    show (bedRun p (update p { s with pickup := pk }) pks).zb = _
    rw [this.2.2, h3]
    simp only [List.map_cons, List.sum_cons]
    rw [add_div]; ring

/-! ### Concrete cases meeting the hypotheses -/

section Examples

/-- Two layers, two fractions. -/
def exParams : Params ℚ 2 :=
  { nl := 2, rhog := 2650, porosity := 2/5, maxError := 1/1000000, source := .uniform ![1, 3]
    processBedupdate := true, processTide := true }

/-- A net deposition cell with one erosional fraction. -/
def exCell : Cell ℚ 2 :=
  { mass := fun k => if k = 0 then ![6, 4] else ![5, 5], pickup := ![1, -3], zb := 2, zs := 3,
    dzb := 0 }

theorem exCell_adm : Admissible exParams.nl exCell.mass exCell.pickup := by
  refine ⟨by decide, ?_, ?_, ?_, ?_⟩
  · intro k _ f
    unfold exCell; fin_cases f <;> by_cases h : k = 0 <;> simp [h]
  · intro f; unfold exCell; fin_cases f <;> norm_num
  · intro k _
    unfold exCell layerTotal
    by_cases h : k = 0 <;> simp [h, Fin.sum_univ_two] <;> norm_num [abs_le]
  · intro _; unfold exCell layerTotal; norm_num [Fin.sum_univ_two]

example : ∀ k < 2, layerTotal (update exParams exCell).mass k = layerTotal exCell.mass k :=
  C33_layer_mass_constant exParams exCell exCell_adm
    (by intro f; fin_cases f <;> simp [exParams, Source.raw])
    (by norm_num [exParams, Source.raw, Fin.sum_univ_two])

example : columnTotal 2 (update exParams exCell).mass 0 = columnTotal 2 exCell.mass 0 - 1 + (-2) * (1/2) := by
  have := C34_fraction_balance_deposition exParams exCell exCell_adm
    (by intro f; fin_cases f <;> simp [exParams, Source.raw]) (by decide)
    (by norm_num [exCell, Fin.sum_univ_two]) 0
  rw [show (exParams.nl) = 2 from rfl] at this
  rw [this]
  norm_num [exCell, share, Fin.sum_univ_two]

/-- Erosion of both fractions. -/
example : columnTotal 2 (update exParams { exCell with pickup := ![2, 2] }).mass 0
    = columnTotal 2 exCell.mass 0 - 2 + 4 * (1/4) := by
  have hadm : Admissible exParams.nl ({ exCell with pickup := ![2, 2] } : Cell ℚ 2).mass
      ({ exCell with pickup := ![2, 2] } : Cell ℚ 2).pickup := by
    refine ⟨by decide, exCell_adm.nonneg, ?_, ?_, ?_⟩
    · intro f; unfold exCell; fin_cases f <;> norm_num
    · intro k _
      unfold exCell layerTotal
      by_cases h : k = 0 <;> simp [h, Fin.sum_univ_two] <;> norm_num [abs_le]
    · intro h; norm_num [Fin.sum_univ_two] at h
  have := C34_fraction_balance_erosion exParams { exCell with pickup := ![2, 2] } hadm
    (by intro f; fin_cases f <;> simp [exParams, Source.raw])
    (by norm_num [exParams, Source.raw, Fin.sum_univ_two]) (by norm_num [Fin.sum_univ_two]) 0
  rw [show (exParams.nl) = 2 from rfl] at this
  rw [this]
  norm_num [exCell, exParams, Source.raw, share, Fin.sum_univ_two]

example : (update exParams exCell).zb = 2 + 2 / (2650 * (3/5)) := by
  have := (C36_bed_level_partial exParams exCell (by norm_num [exCell, layerTotal, Fin.sum_univ_two])
    exCell_adm.single rfl).1
  rw [this]; norm_num [exCell, exParams, Fin.sum_univ_two]

/-- 25 kg/m2 deposited on a 10 kg/m2 layer: the bed level stays at 2. -/
example : (update exParams { exCell with pickup := ![-20, -5] }).zb = 2 :=
  C36_large_deposit_leaves_bed_level exParams { exCell with pickup := ![-20, -5] }
    (by norm_num [exCell, layerTotal, Fin.sum_univ_two])
    (by norm_num [exCell, layerTotal, Fin.sum_univ_two])

/-- 10 kg/m2 deposited on a 10 kg/m2 layer: the layer ends with 20 kg/m2. -/
example : layerTotal (update exParams { exCell with pickup := ![-4, -6] }).mass 0 = 20 := by
  have := C33_exact_deposit_doubles_top_layer exParams { exCell with pickup := ![-4, -6] } 10
    (by norm_num) (by decide) (by norm_num [exCell, layerTotal, Fin.sum_univ_two])
    (by norm_num [Fin.sum_univ_two])
  rw [this]; norm_num

/-- A run of two updates meets the hypotheses of C37. -/
example : RunOk exParams 10 exCell [![1, -3], ![0, -1]] := by
  refine ⟨exCell_adm.available, by norm_num [Fin.sum_univ_two], ?_, by norm_num [Fin.sum_univ_two],
    trivial⟩
  intro f
  have h := C35_no_negative_mass exParams exCell exCell_adm
    (by intro f; fin_cases f <;> simp [exParams, Source.raw]) 0 (by decide)
  have : ({ exCell with pickup := ![1, -3] } : Cell ℚ 2) = exCell := rfl
  rw [this]
  fin_cases f
  · simpa using h 0
  · have := h 1; simp at this ⊢; linarith

end Examples

/-- Layers of ten units under a deposit of twelve. -/
example : ∀ k < 2, layerTotal (update exParams { exCell with pickup := ![-4, -8] }).mass k = 10 ∧
    ∀ f, 0 ≤ (update exParams { exCell with pickup := ![-4, -8] }).mass k f :=
  C33_layer_mass_constant_large_deposit exParams { exCell with pickup := ![-4, -8] } 10 (by norm_num) (by decide)
    exCell_adm.nonneg
    (by intro f; unfold exCell; fin_cases f <;> norm_num)
    (by intro k _; unfold exCell layerTotal; by_cases h : k = 0 <;> simp [h, Fin.sum_univ_two] <;> norm_num)
    (by norm_num [Fin.sum_univ_two])

/-- One unit of the first fraction is exchanged for one of the second. -/
example : columnTotal 2 (update exParams { exCell with pickup := ![1, -1] }).mass 0
    = columnTotal 2 exCell.mass 0 - 1 :=
  C34_fraction_balance_exchange exParams { exCell with pickup := ![1, -1] }
    ⟨by decide, exCell_adm.nonneg, by intro f; unfold exCell; fin_cases f <;> norm_num,
      by intro k _; unfold exCell layerTotal; by_cases h : k = 0 <;> simp [h, Fin.sum_univ_two] <;> norm_num,
      by norm_num [Fin.sum_univ_two]⟩
    (by intro f; unfold exParams Source.raw; fin_cases f <;> norm_num) (by norm_num [Fin.sum_univ_two]) 0

example : (update { exParams with processBedupdate := false } exCell).zb = 2 :=
  (C36_bed_level_off { exParams with processBedupdate := false } exCell rfl).1

/-- A net deposit of two units in one step. -/
example : (update exParams exCell).zb = 2 - (-2) / (2650 * (1 - 2 / 5)) := by
  rw [C36_bed_level_any exParams exCell (by norm_num [exCell, layerTotal, Fin.sum_univ_two]) rfl]
  norm_num [exCell, exParams, layerTotal, Fin.sum_univ_two]

/-- Two steps: a net deposit of two units, then an erosion of one. -/
example : (bedRun exParams exCell [![1, -3], ![1, 0]]).zb = 2 - (-1) / (2650 * (1 - 2 / 5)) := by
  have h := (C37_bed_bookkeeping exParams 10 (by decide)
    (by intro f; unfold exParams Source.raw; fin_cases f <;> norm_num)
    (by norm_num [exParams, Source.raw, Fin.sum_univ_two]) rfl [![1, -3], ![1, 0]] exCell exCell_adm.nonneg
    (by intro k _; unfold exCell layerTotal; by_cases h : k = 0 <;> simp [h, Fin.sum_univ_two] <;> norm_num)
    ⟨by intro f; unfold exCell; fin_cases f <;> norm_num, by norm_num [Fin.sum_univ_two],
      by intro f; fin_cases f <;> decide +kernel, by norm_num [Fin.sum_univ_two], trivial⟩).2.2
  rw [h]
  norm_num [exCell, exParams, Fin.sum_univ_two]

end Aeolis.Props
