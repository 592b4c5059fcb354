import Verif.Proofs.BedUpdate

/-! Bed update with a deposition above the mass of the top layer: exact result. -/

set_option linter.unusedSectionVars false

namespace Aeolis.Bed

open Finset Aeolis.Spec

variable {K : Type*} [Field K] [LinearOrder K] [IsStrictOrderedRing K] [FloorRing K] {nf : ℕ}

/-- After `n` rounds the upper `n` layers are new and the others have moved down `n` places. -/
theorem case2_fold_exact (nl : ℕ) (mx dm : K) (d : Fin nf → K) (e : Exch K nf) (n : ℕ) (hn : n ≤ nl)
    (hg : ∀ i < n, nGt dm mx i) (k : ℕ) (hk : k < nl) :
    ((List.range n).foldl (fun acc i => if nGt dm mx i then case2Step nl mx d i acc else acc) e).m k =
      if k < n then fun f => mx * d f else e.m (k - n) := by
  induction n generalizing k with
  | zero => simp
  | succ n ih =>
    rw [List.range_succ, List.foldl_append, List.foldl_cons, List.foldl_nil, if_pos (hg n (by omega))]
    have ih' := ih (by omega) fun i hi => hg i (by omega)
    set e' := (List.range n).foldl (fun acc i => if nGt dm mx i then case2Step nl mx d i acc else acc) e
    unfold case2Step
    simp only
    rcases lt_trichotomy k n with h | h | h
    · rw [Function.update_of_ne h.ne, if_neg (by omega), ih' k hk, if_pos h,
        if_pos (by omega)]
    · subst h
      rw [Function.update_self, if_pos (by omega)]
    · rw [Function.update_of_ne h.ne', if_pos ⟨by omega, hk⟩, ih' (k - 1) (by omega),
        if_neg (by omega), if_neg (by omega)]
      congr 1
      omega

/-- Number of layers replaced. -/
theorem nGt_iff (dm mx : K) (h : 0 < mx) (hd : 0 ≤ dm) (i : ℕ) : nGt dm mx i ↔ i < ⌊dm / mx⌋₊ := by
  unfold nGt
  rw [if_neg h.ne', ← Int.natCast_floor_eq_floor (div_nonneg hd h.le)]
  exact Nat.cast_lt

theorem case2_fold_all (nl : ℕ) (mx dm : K) (d : Fin nf → K) (e : Exch K nf) (h : 0 < mx) (hd : 0 ≤ dm) (k : ℕ) (hk : k < nl) :
    ((List.range nl).foldl (fun acc i => if nGt dm mx i then case2Step nl mx d i acc else acc) e).m k =
      if k < ⌊dm / mx⌋₊ then fun f => mx * d f else e.m (k - ⌊dm / mx⌋₊) := by
  rcases le_total nl ⌊dm / mx⌋₊ with hle | hle
  · rw [case2_fold_exact nl mx dm d e nl le_rfl (fun i hi => (nGt_iff dm mx h hd i).mpr (by omega)) k hk, if_pos hk,
      if_pos (by omega)]
  · obtain ⟨r, hr⟩ : ∃ r, nl = ⌊dm / mx⌋₊ + r := ⟨nl - ⌊dm / mx⌋₊, by omega⟩
    have : List.range nl = List.range ⌊dm / mx⌋₊ ++ (List.range r).map (⌊dm / mx⌋₊ + ·) := by
      rw [hr]; exact List.range_add
    conv_lhs => rw [this]
    rw [List.foldl_append, case2_fold_rest]
    · exact case2_fold_exact nl mx dm d e _ hle (fun i hi => (nGt_iff dm mx h hd i).mpr hi) k hk
    · intro i hi
      simp only [List.mem_map] at hi
      obtain ⟨a, _, rfl⟩ := hi
      rw [nGt_iff dm mx h hd]
      omega

/-- The masses after an update that deposits more than the top layer holds. -/
theorem raw_large (p : Params K nf) (s : Cell K nf) (h0 : 0 < ∑ f, s.mass 0 f)
    (hd : ∑ f, s.mass 0 f < exchMass s.pickup) (k : ℕ) (hk : k < p.nl) (f : Fin nf) :
    rawMass p s k f = if k < ⌊exchMass s.pickup / ∑ f, s.mass 0 f⌋₊ then
        (∑ f, s.mass 0 f) * normalize 0 (exch1 s).pickup f
      else (exch1 s).m (k - ⌊exchMass s.pickup / ∑ f, s.mass 0 f⌋₊) f := by
  have hs := exch1_spec s
  have hpos : 0 < exchMass s.pickup := h0.trans hd
  have hmx : ∑ f, (exch1 s).m 0 f = ∑ f, s.mass 0 f := hs.total
  have hdm : (exch1 s).dm = exchMass s.pickup := hs.dm
  set e := preventNegativeMass p.nl { m := s.mass, dm := exchMass s.pickup, pickup := s.pickup } with he
  have he' : e = case2 p.nl (exch1 s) := rfl
  have hlarge := case2_large_dm p.nl (exch1 s) (by rw [hmx]; exact h0.le) (by rw [hmx, hdm]; exact hd)
  have hem : e.m k f = if k < ⌊exchMass s.pickup / ∑ f, s.mass 0 f⌋₊ then
        (∑ f, s.mass 0 f) * normalize 0 (exch1 s).pickup f
      else (exch1 s).m (k - ⌊exchMass s.pickup / ∑ f, s.mass 0 f⌋₊) f := by
    rw [he']
    unfold case2
    simp only
    rw [if_pos (nGt_zero_of_lt _ _ (by rw [hmx]; exact h0.le) (by rw [hmx, hdm]; exact hd)), if_pos (by rw [hmx, hdm]; exact hd)]
    simp only
    rw [case2_fold_all p.nl _ _ _ _ (by rw [hmx]; exact h0) (by rw [hdm]; exact hpos.le) k hk, hmx, hdm]
    split <;> rfl
  rw [← hem]
  unfold rawMass
  rw [← he, he', hlarge.1, hlarge.2]
  simp only [hpos, decide_true, not_lt.mpr hpos.le, decide_false]
  unfold arrangeLayers
  simp [addLayer_apply, arrange_fold_dep]

/-- Without picked-up fractions nothing is done before the layers are replaced. -/
theorem exch1_pure (s : Cell K nf) (h : ∀ f, s.pickup f ≤ 0) :
    exch1 s = { m := s.mass, dm := exchMass s.pickup, pickup := s.pickup } := by
  unfold exch1 case1
  simp only
  rw [if_neg]
  rintro ⟨_, h2⟩
  have : ∑ f, ero s.pickup f = 0 := sum_eq_zero fun f _ => by unfold ero; exact max_eq_left (h f)
  rw [this] at h2
  exact lt_irrefl _ h2

end Aeolis.Bed
