import Verif.Proofs.BedLarge
import Verif.Props.Bed

/-!
C33, C36: bed update without restriction on the deposition.
-/

set_option linter.unusedSectionVars false

namespace Aeolis.Props

open Finset Aeolis.Spec Aeolis.Bed

variable {K : Type*} [Field K] [LinearOrder K] [IsStrictOrderedRing K] [FloorRing K] {nf : ℕ}

/-- C33: for any exchange whose net deposition is below the mass of the top layer (erosion may exceed the mass of a layer) the
mass of every layer stays the same, up to the small negative masses that are set to zero; all layers contain sand. -/
theorem C33_layer_mass_tolerance (p : Params K nf) (s : Cell K nf) (hnl : 0 < p.nl) (he : 0 ≤ p.maxError)
    (hl : ∀ k < p.nl, 0 < layerTotal s.mass k) (hd : -∑ f, s.pickup f < layerTotal s.mass 0)
    (hsum : (∑ f, p.source.raw f) ≠ 0) :
    ∀ k < p.nl, 0 ≤ layerTotal (update p s).mass k - layerTotal s.mass k ∧
      layerTotal (update p s).mass k - layerTotal s.mass k ≤ nf * p.maxError := by
  intro k hk
  have hr : ∑ f, rawMass p s k f = ∑ f, s.mass k f :=
    raw_total_of p s hnl (hl 0 hnl).le (fun _ => hd) (fun _ j hj => (hl j hj).ne') hsum k hk
  have hstep : ∀ f, 0 ≤ (update p s).mass k f - rawMass p s k f ∧ (update p s).mass k f - rawMass p s k f ≤ p.maxError := by
    intro f
    rw [update_mass]
    unfold preventTinyNegatives
    split
    · rename_i h; constructor <;> linarith [h.1, h.2]
    · rw [sub_self]; exact ⟨le_rfl, he⟩
  unfold layerTotal
  rw [← hr, ← sum_sub_distrib]
  refine ⟨sum_nonneg fun f _ => (hstep f).1, ?_⟩
  calc ∑ f, ((update p s).mass k f - rawMass p s k f) ≤ ∑ _f : Fin nf, p.maxError := sum_le_sum fun f _ => (hstep f).2
    _ = nf * p.maxError := by rw [sum_const, card_univ, Fintype.card_fin, nsmul_eq_mul]

/-- C33, deposition above the mass of the top layer, layers of any mass: with `n` the number of times the top layer fits into the
deposition, the upper `n` layers get the mass of the former top layer and the others move down `n` places; the lowest `n` layers
and the remainder of the deposition disappear. -/
theorem C33_large_deposit_layers (p : Params K nf) (s : Cell K nf) (hn : ∀ k < p.nl, ∀ f, 0 ≤ s.mass k f)
    (ha : ∀ f, s.pickup f ≤ s.mass 0 f) (h0 : 0 < layerTotal s.mass 0) (hd : layerTotal s.mass 0 < -∑ f, s.pickup f) :
    let n := ⌊(-∑ f, s.pickup f) / layerTotal s.mass 0⌋₊
    ∀ k < p.nl, layerTotal (update p s).mass k = if k < n then layerTotal s.mass 0 else layerTotal s.mass (k - n) := by
  intro n k hk
  have hs := exch1_spec s
  have hpos : 0 < exchMass s.pickup := h0.trans hd
  have hpk : ∑ f, (exch1 s).pickup f = -exchMass s.pickup := by
    have := hs.pick; unfold exchMass at this ⊢; simp only at this; linarith
  have hm : ∀ j < p.nl, (∑ f, (exch1 s).m j f = ∑ f, s.mass j f) ∧ ∀ f, 0 ≤ (exch1 s).m j f := by
    intro j hj
    rcases Nat.eq_zero_or_pos j with h5 | h5
    · subst h5; exact ⟨hs.total, hs.nonneg (fun f => hn 0 hj f) ha⟩
    · rw [hs.below j (by omega)]; exact ⟨rfl, hn j hj⟩
  have hraw : ∀ f, 0 ≤ rawMass p s k f := by
    intro f
    rw [raw_large p s h0 hd k hk f]
    split
    · refine mul_nonneg h0.le ?_
      unfold normalize
      rw [hpk, if_pos (by linarith)]
      exact div_nonneg_of_nonpos (hs.nonpos hpos f) (by linarith)
    · exact (hm _ (by omega)).2 f
  have hu : ∀ f, (update p s).mass k f = rawMass p s k f := fun f => by rw [update_mass, preventTiny_of_nonneg _ _ (hraw f)]
  show ∑ f, (update p s).mass k f = _
  simp only [hu, raw_large p s h0 hd k hk]
  show ∑ f, (if k < n then _ else _) = _
  split
  · rw [← mul_sum, normalize_sum _ _ (by rw [hpk]; linarith), mul_one]
    rfl
  · exact (hm _ (by omega)).1

/-- C33, deposition of all fractions above the mass of the top layer: composition of the layers afterwards. -/
theorem C33_large_deposit_composition (p : Params K nf) (s : Cell K nf) (hn : ∀ k < p.nl, ∀ f, 0 ≤ s.mass k f)
    (ha : ∀ f, s.pickup f ≤ 0) (h0 : 0 < layerTotal s.mass 0) (hd : layerTotal s.mass 0 < -∑ f, s.pickup f) :
    let n := ⌊(-∑ f, s.pickup f) / layerTotal s.mass 0⌋₊
    ∀ k < p.nl, ∀ f, (update p s).mass k f = if k < n then layerTotal s.mass 0 * share s.pickup f else s.mass (k - n) f := by
  intro n k hk f
  have hp : (∑ f, s.pickup f) ≠ 0 := by intro h; rw [h, neg_zero] at hd; linarith
  have hr : rawMass p s k f = if k < n then layerTotal s.mass 0 * share s.pickup f else s.mass (k - n) f := by
    rw [raw_large p s h0 hd k hk f, exch1_pure s ha]
    unfold normalize share
    simp only
    rw [if_pos hp]
    rfl
  rw [update_mass, hr, preventTiny_of_nonneg]
  split
  · refine mul_nonneg h0.le ?_
    unfold share
    exact div_nonneg_of_nonpos (ha f) (by linarith)
  · exact hn _ (by omega) f

/-- C36: net deposition equal to the mass of the top layer still raises the bed by the deposited volume. -/
theorem C36_bed_level_exact_deposit (p : Params K nf) (s : Cell K nf) (h0 : 0 < layerTotal s.mass 0)
    (hd : -∑ f, s.pickup f = layerTotal s.mass 0) (hb : p.processBedupdate = true) :
    (update p s).zb = s.zb - (∑ f, s.pickup f) / (p.rhog * (1 - p.porosity)) := by
  have hs := exch1_spec s
  have hdm : (exch1 s).dm = -∑ f, s.pickup f := hs.dm
  have hmx : ∑ f, (exch1 s).m 0 f = layerTotal s.mass 0 := hs.total
  have hc : (case2 p.nl (exch1 s)).dm = -∑ f, s.pickup f := by
    have hfold : ∀ (l : List ℕ) (e : Exch K nf) (mx dm : K) (d : Fin nf → K),
        (l.foldl (fun acc i => if nGt dm mx i then case2Step p.nl mx d i acc else acc) e).dm = e.dm := by
      intro l
      induction l with
      | nil => intros; rfl
      | cons i l ih =>
        intro e mx dm d
        rw [List.foldl_cons, ih]
        split <;> rfl
    unfold case2
    simp only
    split
    · rw [if_neg (by rw [hmx, hdm, hd]; exact lt_irrefl _), hfold, hdm]
    · exact hdm
  unfold update
  simp only [hb, if_true]
  rw [show (preventNegativeMass p.nl { m := s.mass, dm := exchMass s.pickup, pickup := s.pickup }).dm = _ from hc]
  ring

/-! ### Concrete cases -/

/-- Erosion of 7 from a top layer of 10 over a layer of 4: totals stay. -/
example : ∀ k < 2, |layerTotal (update exParams { exCell with
      mass := fun k => if k = 0 then ![6, 4] else ![2, 2], pickup := ![4, 3] }).mass k
        - layerTotal (fun k => if k = 0 then ![6, 4] else ![2, 2]) k| ≤ 2 / 1000000 := by
  intro k hk
  have := C33_layer_mass_tolerance exParams { exCell with mass := fun k => if k = 0 then ![6, 4] else ![2, 2], pickup := ![4, 3] }
    (by decide) (by norm_num [exParams])
    (fun k _ => by unfold layerTotal; by_cases h : k = 0 <;> simp [h, Fin.sum_univ_two] <;> norm_num)
    (by norm_num [layerTotal, Fin.sum_univ_two])
    (by norm_num [exParams, Source.raw, Fin.sum_univ_two]) k hk
  rw [abs_of_nonneg this.1]
  refine this.2.trans ?_
  norm_num [exParams]

/-- 15 deposited on layers of 10 and 4: one layer of 10 is put on top, the former top layer becomes the second one. -/
example : ∀ k < 2, layerTotal (update exParams { exCell with
      mass := fun k => if k = 0 then ![6, 4] else ![2, 2], pickup := ![-9, -6] }).mass k = 10 := by
  intro k hk
  have := C33_large_deposit_layers exParams { exCell with mass := fun k => if k = 0 then ![6, 4] else ![2, 2], pickup := ![-9, -6] }
    (fun k _ f => by fin_cases f <;> by_cases h : k = 0 <;> simp [h]) (fun f => by fin_cases f <;> norm_num)
    (by norm_num [layerTotal, Fin.sum_univ_two]) (by norm_num [layerTotal, Fin.sum_univ_two]) k hk
  have hn : ⌊(-∑ f, (![-9, -6] : Fin 2 → ℚ) f) / layerTotal (fun k => if k = 0 then ![6, 4] else (![2, 2] : Fin 2 → ℚ)) 0⌋₊ = 1 := by
    norm_num [layerTotal, Fin.sum_univ_two]
    rw [Nat.floor_eq_iff (by norm_num)]
    norm_num
  simp only at this
  rw [this, hn]
  split <;> norm_num [layerTotal, Fin.sum_univ_two]
  rw [if_pos (by omega)]
  norm_num

/-- A deposit of 25 units on layers of ten: the two layers take the composition of the deposit. -/
example : (update exParams { exCell with pickup := ![-10, -15] }).mass 1 0 = 4 := by
  have h := C33_large_deposit_composition exParams { exCell with pickup := ![-10, -15] } exCell_adm.nonneg
    (by intro f; fin_cases f <;> norm_num) (by norm_num [exCell, layerTotal, Fin.sum_univ_two])
    (by norm_num [exCell, layerTotal, Fin.sum_univ_two]) 1 (by decide) 0
  rw [h]
  have e : ⌊(-∑ f, (![-10, -15] : Fin 2 → ℚ) f) / layerTotal exCell.mass 0⌋₊ = 2 := by
    decide +kernel
  simp only [e]
  decide +kernel

end Aeolis.Props
