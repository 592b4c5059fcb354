import Verif.Proofs.Bed
import Verif.Spec.Bed

set_option linter.unusedSectionVars false

namespace Aeolis.Bed

open Finset Aeolis.Spec

variable {K : Type*} [Field K] [LinearOrder K] [IsStrictOrderedRing K] [FloorRing K] {nf : ℕ}

theorem comp_eq (src : Source K nf) : src.comp = normalize 0 src.raw := by cases src <;> rfl

theorem adm_top {nl : ℕ} {m : Mass K nf} {pk : Fin nf → K} (h : Admissible nl m pk) :
    0 ≤ ∑ f, m 0 f := Finset.sum_nonneg fun f _ => h.nonneg 0 h.layers f

theorem adm_lt {nl : ℕ} {m : Mass K nf} {pk : Fin nf → K} (h : Admissible nl m pk)
    (hd : 0 < exchMass pk) : exchMass pk < ∑ f, m 0 f := by
  unfold exchMass at *
  exact h.single (by linarith)

theorem adm_exch {nl : ℕ} {m : Mass K nf} {pk : Fin nf → K} (h : Admissible nl m pk)
    (k : ℕ) (hk : k < nl) : |exchMass pk| ≤ ∑ f, m k f := by
  unfold exchMass; rw [abs_neg]; exact h.exchange k hk

theorem raw_nonneg (p : Params K nf) (s : Cell K nf) (h : Admissible p.nl s.mass s.pickup)
    (hsrc : ∀ f, 0 ≤ p.source.raw f) (k : ℕ) (hk : k < p.nl) (f : Fin nf) :
    0 ≤ rawMass p s k f := by
  rcases lt_trichotomy (exchMass s.pickup) 0 with hd | hd | hd
  · rw [raw_ero p s h.layers (adm_top h) hd k hk f]
    have h1 : 0 ≤ if k + 1 < p.nl then normalize 0 (s.mass (k + 1)) f else p.source.comp f := by
      split
      · next h2 => exact normalize_nonneg _ (fun f => h.nonneg _ h2 f) f
      · rw [comp_eq]; exact normalize_nonneg _ hsrc f
    have h2 := mul_nonneg (neg_nonneg.mpr hd.le) h1
    have h3 := adm_exch h k hk
    rw [abs_of_neg hd] at h3
    have h4 := mul_normalize_le (s.mass k) (fun f => h.nonneg k hk f) _ h3 f
    rcases Nat.eq_zero_or_pos k with h5 | h5
    · subst h5
      have := h.available f
      rw [if_neg (by omega : ¬ 1 ≤ 0), if_pos rfl]
      linarith
    · rw [if_pos (by omega : 1 ≤ k), if_neg (by omega : ¬ k = 0)]
      linarith
  · rw [raw_none p s (adm_top h) hd k f]
    split
    · next h5 => subst h5; have := h.available f; linarith
    · have := h.nonneg k hk f; linarith
  · rw [raw_dep p s h.layers (adm_top h) hd (adm_lt h hd) k hk f]
    have hs := exch1_spec s
    have hn : ∀ k < p.nl, ∀ f, 0 ≤ (exch1 s).m k f := by
      intro k hk f
      rcases Nat.eq_zero_or_pos k with h5 | h5
      · subst h5; exact hs.nonneg (fun f => h.nonneg 0 hk f) h.available f
      · rw [hs.below k (by omega)]; exact h.nonneg k hk f
    have ht : ∀ k, ∑ f, (exch1 s).m k f = ∑ f, s.mass k f := by
      intro k
      rcases Nat.eq_zero_or_pos k with h5 | h5
      · subst h5; exact hs.total
      · rw [hs.below k (by omega)]
    have h3 := adm_exch h k hk
    rw [abs_of_pos hd, ← ht k] at h3
    have h4 := mul_normalize_le ((exch1 s).m k) (fun f => hn k hk f) _ h3 f
    have h6 := hs.nonpos hd f
    rcases Nat.eq_zero_or_pos k with h5 | h5
    · subst h5
      rw [if_neg (by omega : ¬ 1 ≤ 0), if_pos rfl]
      linarith
    · rw [if_pos (by omega : 1 ≤ k), if_neg (by omega : ¬ k = 0)]
      have h7 := mul_nonneg hd.le
        (normalize_nonneg ((exch1 s).m (k - 1)) (fun f => hn (k - 1) (by omega) f) f)
      linarith

theorem update_mass_eq_raw (p : Params K nf) (s : Cell K nf)
    (h : Admissible p.nl s.mass s.pickup) (hsrc : ∀ f, 0 ≤ p.source.raw f) (k : ℕ)
    (hk : k < p.nl) (f : Fin nf) : (update p s).mass k f = rawMass p s k f := by
  rw [update_mass, preventTiny_of_nonneg _ _ (raw_nonneg p s h hsrc k hk f)]

theorem raw_total_of (p : Params K nf) (s : Cell K nf) (hnl : 0 < p.nl) (htop : 0 ≤ ∑ f, s.mass 0 f)
    (hlt : 0 < exchMass s.pickup → exchMass s.pickup < ∑ f, s.mass 0 f)
    (hex : exchMass s.pickup ≠ 0 → ∀ j < p.nl, (∑ f, s.mass j f) ≠ 0)
    (hsrc : (∑ f, p.source.raw f) ≠ 0) (k : ℕ) (hk : k < p.nl) :
    ∑ f, rawMass p s k f = ∑ f, s.mass k f := by
  have hsum : ∑ f, s.pickup f = -exchMass s.pickup := by unfold exchMass; ring
  rcases lt_trichotomy (exchMass s.pickup) 0 with hd | hd | hd
  · simp_rw [raw_ero p s hnl htop hd k hk]
    have h1 : ∑ f, (if k + 1 < p.nl then normalize 0 (s.mass (k + 1)) f else p.source.comp f)
        = 1 := by
      split
      · next h2 => exact normalize_sum _ _ (hex hd.ne _ h2)
      · rw [comp_eq]; exact normalize_sum _ _ hsrc
    rw [Finset.sum_add_distrib, Finset.sum_sub_distrib, Finset.sum_sub_distrib, ← Finset.mul_sum,
      h1]
    rcases Nat.eq_zero_or_pos k with h5 | h5
    · subst h5
      simp only [if_true, show ¬ (1 ≤ 0) by omega, if_false, Finset.sum_const_zero, hsum]; ring
    · simp only [show 1 ≤ k by omega, if_true, show ¬ k = 0 by omega, if_false,
        Finset.sum_const_zero, ← Finset.mul_sum, normalize_sum _ _ (hex hd.ne k hk)]; ring
  · simp_rw [raw_none p s htop hd k]
    rw [Finset.sum_sub_distrib]
    split
    · rw [hsum, hd]; ring
    · simp
  · simp_rw [raw_dep p s hnl htop hd (hlt hd) k hk]
    have hs := exch1_spec s
    have ht : ∀ k, ∑ f, (exch1 s).m k f = ∑ f, s.mass k f := by
      intro k
      rcases Nat.eq_zero_or_pos k with h5 | h5
      · subst h5; exact hs.total
      · rw [hs.below k (by omega)]
    have hN : ∀ j < p.nl, ∑ f, normalize 0 ((exch1 s).m j) f = 1 := fun j hj =>
      normalize_sum _ _ (by rw [ht]; exact hex hd.ne' j hj)
    have hp : ∑ f, (exch1 s).pickup f = -exchMass s.pickup := by
      have := hs.pick; unfold exchMass at this ⊢; simp only at this; linarith
    rw [Finset.sum_add_distrib, Finset.sum_sub_distrib, Finset.sum_sub_distrib, ← Finset.mul_sum,
      hN k hk, ht]
    rcases Nat.eq_zero_or_pos k with h5 | h5
    · subst h5
      simp only [if_true, show ¬ (1 ≤ 0) by omega, if_false, Finset.sum_const_zero, hp]; ring
    · simp only [show 1 ≤ k by omega, if_true, show ¬ k = 0 by omega, if_false,
        Finset.sum_const_zero, ← Finset.mul_sum, hN (k - 1) (by omega)]; ring

theorem raw_total (p : Params K nf) (s : Cell K nf) (h : Admissible p.nl s.mass s.pickup)
    (hsrc : (∑ f, p.source.raw f) ≠ 0) (k : ℕ) (hk : k < p.nl) :
    ∑ f, rawMass p s k f = ∑ f, s.mass k f := by
  refine raw_total_of p s h.layers (adm_top h) (adm_lt h) ?_ hsrc k hk
  intro hne j hj h0
  have := adm_exch h j hj
  rw [h0] at this
  exact hne (abs_nonpos_iff.mp this)

theorem sum_range_ite_zero (nl : ℕ) (h : 0 < nl) (x : K) :
    ∑ k ∈ range nl, (if k = 0 then x else 0) = x := by
  rw [Finset.sum_ite_eq' (range nl) 0 (fun _ => x)]
  simp [h]

/-- Telescoping used for the column balance. -/
theorem sum_tel (nl : ℕ) (h : 0 < nl) (g : ℕ → K) :
    ∑ k ∈ range nl, (if 1 ≤ k then g k else 0) = ∑ k ∈ range (nl - 1), g (k + 1) := by
  obtain ⟨n, rfl⟩ : ∃ n, nl = n + 1 := ⟨nl - 1, by omega⟩
  rw [Finset.sum_range_succ']
  simp

theorem raw_column_ero (p : Params K nf) (s : Cell K nf) (h : Admissible p.nl s.mass s.pickup)
    (hd : exchMass s.pickup < 0) (f : Fin nf) :
    ∑ k ∈ range p.nl, rawMass p s k f
      = ∑ k ∈ range p.nl, s.mass k f - s.pickup f - exchMass s.pickup * p.source.comp f := by
  rw [Finset.sum_congr rfl fun k hk =>
    raw_ero p s h.layers (adm_top h) hd k (Finset.mem_range.mp hk) f]
  rw [Finset.sum_add_distrib, Finset.sum_sub_distrib, Finset.sum_sub_distrib,
    sum_range_ite_zero _ h.layers, sum_tel _ h.layers]
  obtain ⟨n, hn⟩ : ∃ n, p.nl = n + 1 := ⟨p.nl - 1, by have := h.layers; omega⟩
  rw [hn, Finset.sum_range_succ (fun k => exchMass s.pickup * _)]
  simp only [lt_irrefl, if_false, Nat.add_sub_cancel]
  have : ∑ x ∈ range n, exchMass s.pickup * (if x + 1 < n + 1 then normalize 0 (s.mass (x + 1)) f
      else p.source.comp f) = ∑ k ∈ range n, exchMass s.pickup * normalize 0 (s.mass (k + 1)) f := by
    apply Finset.sum_congr rfl
    intro x hx
    rw [if_pos (by have := Finset.mem_range.mp hx; omega)]
  rw [this]; ring

theorem raw_column_dep (p : Params K nf) (s : Cell K nf) (h : Admissible p.nl s.mass s.pickup)
    (hd : 0 < exchMass s.pickup) (f : Fin nf) :
    ∑ k ∈ range p.nl, rawMass p s k f
      = ∑ k ∈ range p.nl, s.mass k f - s.pickup f
        - exchMass s.pickup * normalize 0 ((exch1 s).m (p.nl - 1)) f := by
  rw [Finset.sum_congr rfl fun k hk =>
    raw_dep p s h.layers (adm_top h) hd (adm_lt h hd) k (Finset.mem_range.mp hk) f]
  have hs := exch1_spec s
  rw [Finset.sum_add_distrib, Finset.sum_sub_distrib, Finset.sum_sub_distrib,
    sum_range_ite_zero _ h.layers, sum_tel _ h.layers]
  obtain ⟨n, hn⟩ : ∃ n, p.nl = n + 1 := ⟨p.nl - 1, by have := h.layers; omega⟩
  rw [hn, Finset.sum_range_succ (fun k => exchMass s.pickup * _)]
  simp only [Nat.add_sub_cancel]
  have h1 : ∑ k ∈ range (n + 1), (exch1 s).m k f - (exch1 s).pickup f
      = ∑ k ∈ range (n + 1), s.mass k f - s.pickup f := by
    rw [Finset.sum_range_succ', Finset.sum_range_succ' (fun k => s.mass k f)]
    have h2 := hs.diff f
    simp only at h2
    have h3 : ∑ k ∈ range n, (exch1 s).m (k + 1) f = ∑ k ∈ range n, s.mass (k + 1) f := by
      apply Finset.sum_congr rfl; intro k _; rw [hs.below (k + 1) (by omega)]
    rw [h3]; linarith
  linarith [h1]

end Aeolis.Bed

/-! ### Deposition of more than, or exactly, the top layer mass -/

namespace Aeolis.Bed

open Finset Aeolis.Spec

variable {K : Type*} [Field K] [LinearOrder K] [IsStrictOrderedRing K] [FloorRing K] {nf : ℕ}

theorem nGt_zero_of_lt (dm mx : K) (h0 : 0 ≤ mx) (h : mx < dm) : nGt dm mx 0 := by
  unfold nGt
  split
  · exact lt_of_le_of_lt h0 h
  · next hz =>
    have hpos : 0 < mx := lt_of_le_of_ne h0 (Ne.symm hz)
    have : (1 : ℤ) ≤ ⌊dm / mx⌋ := by
      rw [Int.le_floor]; push_cast; rw [le_div_iff₀ hpos]; linarith
    push_cast; omega

theorem case2_large_dm (nl : ℕ) (e : Exch K nf) (h0 : 0 ≤ ∑ f, e.m 0 f)
    (h : ∑ f, e.m 0 f < e.dm) : (case2 nl e).dm = 0 ∧ (case2 nl e).pickup = fun _ => 0 := by
  unfold case2
  simp only
  rw [if_pos (nGt_zero_of_lt _ _ h0 h), if_pos h]
  simp [exchMass]

theorem case2_fold_dm (nl : ℕ) (mx dm : K) (d : Fin nf → K) (l : List ℕ) (e : Exch K nf) :
    (l.foldl (fun acc i => if nGt dm mx i then case2Step nl mx d i acc else acc) e).dm = e.dm := by
  induction l generalizing e with
  | nil => rfl
  | cons i l ih =>
    simp only [List.foldl_cons]
    rw [ih]
    split <;> rfl

theorem case2_fold_inv (nl : ℕ) (mx dm M : K) (d : Fin nf → K) (hd : ∀ f, 0 ≤ d f)
    (hmx : 0 ≤ mx) (hs : mx * ∑ f, d f = M) (l : List ℕ) (e : Exch K nf)
    (h : ∀ k < nl, (∑ f, e.m k f = M) ∧ ∀ f, 0 ≤ e.m k f) :
    ∀ k < nl, (∑ f, (l.foldl (fun acc i => if nGt dm mx i then case2Step nl mx d i acc else acc)
        e).m k f = M) ∧
      ∀ f, 0 ≤ (l.foldl (fun acc i => if nGt dm mx i then case2Step nl mx d i acc else acc)
        e).m k f := by
  induction l generalizing e with
  | nil => exact h
  | cons i l ih =>
    simp only [List.foldl_cons]
    apply ih
    split
    · intro k hk
      unfold case2Step
      simp only
      by_cases h1 : k = i
      · subst h1
        simp only [Function.update_self]
        exact ⟨by rw [← Finset.mul_sum]; exact hs, fun f => mul_nonneg hmx (hd f)⟩
      · rw [Function.update_of_ne h1]
        split
        · exact h (k - 1) (by omega)
        · exact h k hk
    · exact h

theorem update_large (p : Params K nf) (s : Cell K nf) (M : K)
    (hM : 0 ≤ M) (hnl : 0 < p.nl)
    (hn : ∀ k < p.nl, ∀ f, 0 ≤ s.mass k f) (ha : ∀ f, s.pickup f ≤ s.mass 0 f)
    (ht : ∀ k < p.nl, ∑ f, s.mass k f = M) (hd : M < exchMass s.pickup) :
    ∀ k < p.nl, (∑ f, (update p s).mass k f = M) ∧ ∀ f, 0 ≤ (update p s).mass k f := by
  have hs := exch1_spec s
  have hpos : 0 < exchMass s.pickup := lt_of_le_of_lt hM hd
  have h1 : ∀ k < p.nl, (∑ f, (exch1 s).m k f = M) ∧ ∀ f, 0 ≤ (exch1 s).m k f := by
    intro k hk
    rcases Nat.eq_zero_or_pos k with h5 | h5
    · subst h5
      exact ⟨by rw [hs.total]; exact ht 0 hk, hs.nonneg (fun f => hn 0 hk f) ha⟩
    · rw [hs.below k (by omega)]; exact ⟨ht k hk, fun f => hn k hk f⟩
  have hmx : ∑ f, (exch1 s).m 0 f = M := (h1 0 hnl).1
  have hpk : ∑ f, (exch1 s).pickup f = -exchMass s.pickup := by
    have := hs.pick; unfold exchMass at this ⊢; simp only at this; linarith
  have hdn : ∀ f, 0 ≤ normalize 0 (exch1 s).pickup f := by
    intro f
    unfold normalize
    rw [hpk, if_pos (by linarith)]
    exact div_nonneg_of_nonpos (hs.nonpos hpos f) (by linarith)
  have hds : ∑ f, normalize 0 (exch1 s).pickup f = 1 :=
    normalize_sum _ _ (by rw [hpk]; linarith)
  set e := preventNegativeMass p.nl { m := s.mass, dm := exchMass s.pickup, pickup := s.pickup }
    with he
  have he' : e = case2 p.nl (exch1 s) := rfl
  have hlarge := case2_large_dm p.nl (exch1 s) (by rw [hmx]; exact hM)
    (by rw [hmx, hs.dm]; exact hd)
  have hem : ∀ k < p.nl, (∑ f, e.m k f = M) ∧ ∀ f, 0 ≤ e.m k f := by
    rw [he']
    unfold case2
    simp only
    rw [if_pos (nGt_zero_of_lt _ _ (by rw [hmx]; exact hM) (by rw [hmx, hs.dm]; exact hd)),
      if_pos (by rw [hmx, hs.dm]; exact hd)]
    simp only
    exact case2_fold_inv p.nl _ _ M _ hdn (by rw [hmx]; exact hM) (by rw [hmx, hds, mul_one]) _ _ h1
  have hraw : ∀ k f, rawMass p s k f = e.m k f := by
    intro k f
    unfold rawMass
    rw [← he, he', hlarge.1, hlarge.2]
    simp only [hpos, decide_true, not_lt.mpr hpos.le, decide_false]
    unfold arrangeLayers
    simp [addLayer_apply, arrange_fold_dep]
  intro k hk
  have h2 : ∀ f, (update p s).mass k f = e.m k f := by
    intro f
    rw [update_mass, hraw, preventTiny_of_nonneg _ _ ((hem k hk).2 f)]
  exact ⟨by rw [← (hem k hk).1]; exact Finset.sum_congr rfl fun f _ => h2 f,
    fun f => by rw [h2 f]; exact (hem k hk).2 f⟩

theorem case2_fold_rest (nl : ℕ) (mx dm : K) (d : Fin nf → K) (l : List ℕ) (e : Exch K nf)
    (h : ∀ i ∈ l, ¬ nGt dm mx i) :
    l.foldl (fun acc i => if nGt dm mx i then case2Step nl mx d i acc else acc) e = e := by
  induction l generalizing e with
  | nil => rfl
  | cons i l ih =>
    simp only [List.foldl_cons]
    rw [if_neg (h i (by simp))]
    exact ih e fun j hj => h j (by simp [hj])

theorem update_exact (p : Params K nf) (s : Cell K nf) (M : K)
    (hM : 0 < M) (hnl : 0 < p.nl) (ht : ∑ f, s.mass 0 f = M) (hd : exchMass s.pickup = M)
    (f : Fin nf) :
    rawMass p s 0 f = -2 * (exch1 s).pickup f := by
  have hs := exch1_spec s
  have hmx : ∑ f, (exch1 s).m 0 f = M := by rw [hs.total]; exact ht
  have hpk : ∑ f, (exch1 s).pickup f = -M := by
    have := hs.pick; unfold exchMass at this hd; simp only at this; linarith
  have hne : ∑ f, (exch1 s).pickup f ≠ 0 := by rw [hpk]; linarith
  have hmd : ∀ f, M * normalize 0 (exch1 s).pickup f = -(exch1 s).pickup f := by
    intro f
    have := normalize_mul_sum 0 (exch1 s).pickup hne f
    rw [hpk] at this; linarith
  have hdm : (exch1 s).dm = M := by rw [hs.dm]; exact hd
  have hg0 : nGt M M 0 := by unfold nGt; rw [if_neg hM.ne', div_self hM.ne']; simp
  have hgi : ∀ i, 1 ≤ i → ¬ nGt M M i := by
    intro i hi; unfold nGt; rw [if_neg hM.ne', div_self hM.ne']; simp; omega
  obtain ⟨n, hn⟩ : ∃ n, p.nl = n + 1 := ⟨p.nl - 1, by omega⟩
  set e := preventNegativeMass p.nl { m := s.mass, dm := exchMass s.pickup, pickup := s.pickup }
    with he
  have he' : e = case2Step p.nl M (normalize 0 (exch1 s).pickup) 0 (exch1 s) := by
    rw [he]
    show case2 p.nl (exch1 s) = _
    unfold case2
    simp only
    rw [hmx, hdm, if_pos hg0, if_neg (lt_irrefl _), hn, List.range_succ_eq_map]
    simp only [List.foldl_cons]
    rw [if_pos hg0]
    apply case2_fold_rest
    intro i hi
    simp only [List.mem_map] at hi
    obtain ⟨a, _, rfl⟩ := hi
    exact hgi _ (by omega)
  have hem0 : e.m 0 = fun f => -(exch1 s).pickup f := by
    rw [he']; unfold case2Step; simp only [Function.update_self]; funext f; exact hmd f
  have hep : e.pickup = fun f => 2 * (exch1 s).pickup f := by
    rw [he']; unfold case2Step; funext f; simp only; rw [hmd f]; ring
  have hedm : e.dm = M := by rw [he']; unfold case2Step; exact hdm
  have hN : normalize 0 (e.m 0) f * M = -(exch1 s).pickup f := by
    have : ∑ f, e.m 0 f = M := by rw [hem0, Finset.sum_neg_distrib, hpk]; ring
    have h2 := normalize_mul_sum 0 (e.m 0) (by rw [this]; exact hM.ne') f
    rw [this] at h2; rw [h2, hem0]
  unfold rawMass
  rw [← he, hedm, hd, hep]
  simp only [hM, decide_true, not_lt.mpr hM.le, decide_false]
  unfold arrangeLayers
  simp only [Bool.false_eq_true, if_false, if_true, addLayer_apply, arrange_fold_dep]
  rw [if_neg (by omega : ¬ (1 ≤ 0 ∧ 0 ≤ p.nl - 1))]
  by_cases h1 : 0 < p.nl - 1
  · rw [if_pos h1, if_neg (by omega : ¬ 0 = p.nl - 1)]
    rw [mul_comm M, hN, hem0]; ring
  · rw [if_neg h1, if_pos (by omega : 0 = p.nl - 1), show p.nl - 1 = 0 by omega]
    rw [mul_comm M, hN, hem0]; ring

end Aeolis.Bed
