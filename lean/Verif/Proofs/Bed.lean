import Verif.Model.Bed
import Verif.Proofs.Utils

set_option linter.unusedSectionVars false

namespace Aeolis.Bed

open Finset

variable {K : Type*} [Field K] [LinearOrder K] {nf : ℕ}

theorem addLayer_apply (m : Mass K nf) (k : ℕ) (v : Fin nf → K) (j : ℕ) (f : Fin nf) :
    addLayer m k v j f = m j f + if j = k then v f else 0 := by
  unfold addLayer
  by_cases h : j = k
  · subst h; simp
  · simp [h]

theorem arrangeStep_ero (dm : K) (d m : Mass K nf) (n k : ℕ) (f : Fin nf) :
    arrangeStep true false dm d m (1 + n) k f
      = m k f - (if k = n then dm * d (n + 1) f else 0)
          + (if k = n + 1 then dm * d (n + 1) f else 0) := by
  unfold arrangeStep
  simp only [if_true, Bool.false_eq_true, if_false, addLayer_apply]
  rw [show 1 + n - 1 = n by omega, show 1 + n = n + 1 by omega]
  split_ifs <;> ring

theorem arrangeStep_dep (dm : K) (d m : Mass K nf) (n k : ℕ) (f : Fin nf) :
    arrangeStep false true dm d m (1 + n) k f
      = m k f - (if k = n then dm * d n f else 0)
          + (if k = n + 1 then dm * d n f else 0) := by
  unfold arrangeStep
  simp only [if_true, Bool.false_eq_true, if_false, addLayer_apply]
  rw [show 1 + n - 1 = n by omega, show 1 + n = n + 1 by omega]
  split_ifs <;> ring

theorem arrange_fold_ero (dm : K) (d m : Mass K nf) (n : ℕ) (k : ℕ) (f : Fin nf) :
    ((List.range' 1 n).foldl (arrangeStep true false dm d) m) k f
      = m k f - (if k < n then dm * d (k + 1) f else 0)
          + (if 1 ≤ k ∧ k ≤ n then dm * d k f else 0) := by
  induction n with
  | zero =>
    rw [if_neg (by omega), if_neg (by omega)]; simp
  | succ n ih =>
    rw [List.range'_1_concat, List.foldl_append]
    simp only [List.foldl_cons, List.foldl_nil]
    rw [arrangeStep_ero, ih]
    by_cases h1 : k = n
    · subst h1
      simp only [lt_irrefl, if_false, if_true, Nat.lt_succ_self]
      rw [if_neg (by omega : ¬ k = k + 1)]
      have : (1 ≤ k ∧ k ≤ k + 1) ↔ (1 ≤ k ∧ k ≤ k) := by omega
      simp only [this]; ring
    · by_cases h2 : k = n + 1
      · subst h2
        rw [if_neg (by omega), if_neg (by omega), if_neg (by omega), if_pos rfl,
          if_neg (by omega), if_pos (by omega)]
        ring
      · have h3 : (k < n + 1) ↔ (k < n) := by omega
        have h4 : (1 ≤ k ∧ k ≤ n + 1) ↔ (1 ≤ k ∧ k ≤ n) := by omega
        simp only [h1, h2, h3, h4, if_false]; ring

theorem arrange_fold_dep (dm : K) (d m : Mass K nf) (n : ℕ) (k : ℕ) (f : Fin nf) :
    ((List.range' 1 n).foldl (arrangeStep false true dm d) m) k f
      = m k f - (if k < n then dm * d k f else 0)
          + (if 1 ≤ k ∧ k ≤ n then dm * d (k - 1) f else 0) := by
  induction n with
  | zero =>
    rw [if_neg (by omega), if_neg (by omega)]; simp
  | succ n ih =>
    rw [List.range'_1_concat, List.foldl_append]
    simp only [List.foldl_cons, List.foldl_nil]
    rw [arrangeStep_dep, ih]
    by_cases h1 : k = n
    · subst h1
      simp only [lt_irrefl, if_false, if_true, Nat.lt_succ_self]
      rw [if_neg (by omega : ¬ k = k + 1)]
      have : (1 ≤ k ∧ k ≤ k + 1) ↔ (1 ≤ k ∧ k ≤ k) := by omega
      simp only [this]; ring
    · by_cases h2 : k = n + 1
      · subst h2
        rw [if_neg (by omega), if_neg (by omega), if_neg (by omega), if_pos rfl,
          if_neg (by omega), if_pos (by omega)]
        simp
      · have h3 : (k < n + 1) ↔ (k < n) := by omega
        have h4 : (1 ≤ k ∧ k ≤ n + 1) ↔ (1 ≤ k ∧ k ≤ n) := by omega
        simp only [h1, h2, h3, h4, if_false]; ring

theorem arrange_fold_none (dm : K) (d m : Mass K nf) (l : List ℕ) :
    l.foldl (arrangeStep false false dm d) m = m := by
  induction l generalizing m with
  | nil => rfl
  | cons a l ih => simp only [List.foldl_cons]; rw [ih]; simp [arrangeStep]

variable [IsStrictOrderedRing K]

theorem ero_nonneg (pickup : Fin nf → K) (f : Fin nf) : 0 ≤ ero pickup f := le_max_left _ _

theorem dep_nonneg (pickup : Fin nf → K) (f : Fin nf) : 0 ≤ dep pickup f := by
  unfold dep; have := min_le_left (0:K) (pickup f); linarith

theorem pickup_eq (pickup : Fin nf → K) (f : Fin nf) : pickup f = ero pickup f - dep pickup f := by
  unfold ero dep
  rcases le_total 0 (pickup f) with h | h
  · rw [max_eq_right h, min_eq_left h]; ring
  · rw [max_eq_left h, min_eq_right h]; ring

theorem sum_dep (pickup : Fin nf → K) :
    ∑ f, dep pickup f = exchMass pickup + ∑ f, ero pickup f := by
  unfold exchMass
  have : ∑ f, pickup f = ∑ f, ero pickup f - ∑ f, dep pickup f := by
    rw [← Finset.sum_sub_distrib]; exact Finset.sum_congr rfl fun f _ => pickup_eq pickup f
  rw [this]; ring

/-- What case 1 guarantees. -/
structure Case1Spec (e e' : Exch K nf) : Prop where
  dm : e'.dm = e.dm
  pick : exchMass e'.pickup = e.dm
  total : ∑ f, e'.m 0 f = ∑ f, e.m 0 f
  below : ∀ k, k ≠ 0 → e'.m k = e.m k
  diff : ∀ f, e'.m 0 f - e'.pickup f = e.m 0 f - e.pickup f
  nonpos : 0 < e.dm → ∀ f, e'.pickup f ≤ 0
  nonneg : (∀ f, 0 ≤ e.m 0 f) → (∀ f, e.pickup f ≤ e.m 0 f) → ∀ f, 0 ≤ e'.m 0 f

theorem case1_spec (e : Exch K nf) (hdm : e.dm = exchMass e.pickup) :
    Case1Spec e (case1 e) := by
  unfold case1
  simp only
  split
  · next h =>
    obtain ⟨hd, he⟩ := h
    have hS : 0 < ∑ f, dep e.pickup f := by rw [sum_dep, ← hdm]; linarith
    have hN : ∑ f, normalize 0 (dep e.pickup) f = 1 := normalize_sum _ _ hS.ne'
    have hle : ∀ f, (∑ f, ero e.pickup f) * normalize 0 (dep e.pickup) f ≤ dep e.pickup f := by
      intro f
      refine mul_normalize_le _ (dep_nonneg e.pickup) _ ?_ f
      rw [sum_dep, ← hdm]; linarith
    have hsum : exchMass (fun f => -dep e.pickup f
        + (∑ f, ero e.pickup f) * normalize 0 (dep e.pickup) f) = e.dm := by
      unfold exchMass
      rw [Finset.sum_add_distrib, ← Finset.mul_sum, hN, Finset.sum_neg_distrib, sum_dep, ← hdm]
      ring
    refine ⟨hsum, hsum, ?_, ?_, ?_, ?_, ?_⟩
    · simp only [addLayer_apply, if_true]
      rw [Finset.sum_add_distrib, Finset.sum_neg_distrib, Finset.sum_sub_distrib,
        ← Finset.mul_sum, hN]; ring
    · intro k hk; funext f; simp [addLayer_apply, hk]
    · intro f; simp only [addLayer_apply, if_true]; rw [pickup_eq e.pickup f]; ring
    · intro _ f; simp only; have := hle f; linarith
    · intro h0 ha f
      simp only [addLayer_apply, if_true]
      have h1 : ero e.pickup f ≤ e.m 0 f := max_le (h0 f) (ha f)
      have h2 : 0 ≤ (∑ f, ero e.pickup f) * normalize 0 (dep e.pickup) f :=
        mul_nonneg he.le (normalize_nonneg _ (dep_nonneg e.pickup) f)
      linarith
  · next h =>
    refine ⟨rfl, hdm.symm, rfl, fun _ _ => rfl, fun _ => rfl, ?_, fun h0 _ => h0⟩
    intro hd f
    by_contra hp
    push Not at hp
    apply h
    refine ⟨hd, ?_⟩
    apply Finset.sum_pos' (fun f _ => ero_nonneg _ f)
    exact ⟨f, Finset.mem_univ f, lt_max_of_lt_right hp⟩

theorem case2_id [FloorRing K] (nl : ℕ) (e : Exch K nf) (h0 : 0 ≤ ∑ f, e.m 0 f)
    (h : 0 < e.dm → e.dm < ∑ f, e.m 0 f) : case2 nl e = e := by
  unfold case2
  simp only
  rw [if_neg]
  unfold nGt
  split
  · next hz => rw [hz] at h; exact fun hp => absurd (h hp) (not_lt.mpr hp.le)
  · next hz =>
    have hpos : 0 < ∑ f, e.m 0 f := lt_of_le_of_ne h0 (Ne.symm hz)
    rw [not_lt]
    have h1 : e.dm / ∑ f, e.m 0 f < 1 := by
      rw [div_lt_one hpos]
      rcases lt_or_ge 0 e.dm with hp | hp
      · exact h hp
      · exact lt_of_le_of_lt hp hpos
    have : ⌊e.dm / ∑ f, e.m 0 f⌋ < 1 := by rw [Int.floor_lt]; exact_mod_cast h1
    push_cast
    omega


/-! ### Closed form of `update` when case 2 is not entered -/

/-- The mass before removal of tiny negatives. -/
def rawMass [FloorRing K] (p : Params K nf) (s : Cell K nf) : Mass K nf :=
  let dm0 := exchMass s.pickup
  let isEro : Bool := decide (dm0 < 0)
  let isDep : Bool := decide (0 < dm0)
  let e := preventNegativeMass p.nl { m := s.mass, dm := dm0, pickup := s.pickup }
  let d : Mass K nf := fun k => normalize 0 (e.m k)
  let m := addLayer e.m 0 (fun f => -e.pickup f)
  let m := arrangeLayers p.nl isEro isDep e.dm d m
  if isEro then addLayer m (p.nl - 1) (fun f => -(e.dm * p.source.comp f)) else m

theorem update_mass [FloorRing K] (p : Params K nf) (s : Cell K nf) (k : ℕ) (f : Fin nf) :
    (update p s).mass k f = preventTinyNegatives p.maxError 0 (rawMass p s k f) := rfl

/-- The exchange record after case 1. -/
def exch1 (s : Cell K nf) : Exch K nf :=
  case1 { m := s.mass, dm := exchMass s.pickup, pickup := s.pickup }

theorem exch1_spec (s : Cell K nf) :
    Case1Spec { m := s.mass, dm := exchMass s.pickup, pickup := s.pickup } (exch1 s) :=
  case1_spec _ rfl

theorem prevent_eq [FloorRing K] (nl : ℕ) (s : Cell K nf) (h0 : 0 ≤ ∑ f, s.mass 0 f)
    (h : 0 < exchMass s.pickup → exchMass s.pickup < ∑ f, s.mass 0 f) :
    preventNegativeMass nl { m := s.mass, dm := exchMass s.pickup, pickup := s.pickup }
      = exch1 s := by
  unfold preventNegativeMass
  have hs := exch1_spec s
  apply case2_id
  · rw [show case1 _ = exch1 s from rfl, hs.total]; exact h0
  · rw [show case1 _ = exch1 s from rfl, hs.total, hs.dm]; exact h

theorem exch1_of_not_dep (s : Cell K nf) (h : ¬ 0 < exchMass s.pickup) :
    exch1 s = { m := s.mass, dm := exchMass s.pickup, pickup := s.pickup } := by
  unfold exch1 case1
  simp only
  rw [if_neg]; rintro ⟨h1, _⟩; exact h h1

theorem raw_ero [FloorRing K] (p : Params K nf) (s : Cell K nf) (hnl : 0 < p.nl)
    (h0 : 0 ≤ ∑ f, s.mass 0 f) (hero : exchMass s.pickup < 0) (k : ℕ) (hk : k < p.nl)
    (f : Fin nf) :
    rawMass p s k f = s.mass k f - (if k = 0 then s.pickup f else 0)
      - exchMass s.pickup * (if k + 1 < p.nl then normalize 0 (s.mass (k + 1)) f
            else p.source.comp f)
      + (if 1 ≤ k then exchMass s.pickup * normalize 0 (s.mass k) f else 0) := by
  unfold rawMass
  rw [prevent_eq p.nl s h0 (fun h => absurd h (not_lt.mpr hero.le)), exch1_of_not_dep s (not_lt.mpr hero.le)]
  simp only [hero, decide_true, if_true, not_lt.mpr hero.le, decide_false]
  unfold arrangeLayers
  simp only [Bool.false_eq_true, if_false, addLayer_apply, arrange_fold_ero]
  by_cases h1 : k + 1 < p.nl
  · have a1 : k < p.nl - 1 := by omega
    have a2 : ¬ k = p.nl - 1 := by omega
    have a3 : (1 ≤ k ∧ k ≤ p.nl - 1) ↔ 1 ≤ k := by omega
    simp only [h1, a1, a2, a3, if_true, if_false]
    split_ifs <;> ring
  · have a1 : ¬ k < p.nl - 1 := by omega
    have a2 : k = p.nl - 1 := by omega
    have a3 : (1 ≤ k ∧ k ≤ p.nl - 1) ↔ 1 ≤ k := by omega
    simp only [h1, a1, a3, if_false]
    rw [if_pos a2]
    split_ifs <;> ring

theorem raw_dep [FloorRing K] (p : Params K nf) (s : Cell K nf) (hnl : 0 < p.nl)
    (h0 : 0 ≤ ∑ f, s.mass 0 f) (hdep : 0 < exchMass s.pickup)
    (hlt : exchMass s.pickup < ∑ f, s.mass 0 f) (k : ℕ) (hk : k < p.nl) (f : Fin nf) :
    rawMass p s k f = (exch1 s).m k f - (if k = 0 then (exch1 s).pickup f else 0)
      - exchMass s.pickup * normalize 0 ((exch1 s).m k) f
      + (if 1 ≤ k then exchMass s.pickup * normalize 0 ((exch1 s).m (k - 1)) f else 0) := by
  unfold rawMass
  rw [prevent_eq p.nl s h0 (fun _ => hlt)]
  have hd : (exch1 s).dm = exchMass s.pickup := (exch1_spec s).dm
  rw [hd]
  simp only [hdep, decide_true, not_lt.mpr hdep.le, decide_false]
  unfold arrangeLayers
  simp only [Bool.false_eq_true, if_false, if_true, addLayer_apply, arrange_fold_dep]
  by_cases h1 : k + 1 < p.nl
  · have a1 : k < p.nl - 1 := by omega
    have a2 : ¬ k = p.nl - 1 := by omega
    have a3 : (1 ≤ k ∧ k ≤ p.nl - 1) ↔ 1 ≤ k := by omega
    simp only [a1, a2, a3, if_true, if_false]
    split_ifs <;> ring
  · have a1 : ¬ k < p.nl - 1 := by omega
    have a2 : k = p.nl - 1 := by omega
    have a3 : (1 ≤ k ∧ k ≤ p.nl - 1) ↔ 1 ≤ k := by omega
    simp only [a1, a3, if_false]
    rw [if_pos a2, ← a2]
    split_ifs <;> ring

theorem raw_none [FloorRing K] (p : Params K nf) (s : Cell K nf)
    (h0 : 0 ≤ ∑ f, s.mass 0 f) (hz : exchMass s.pickup = 0) (k : ℕ) (f : Fin nf) :
    rawMass p s k f = s.mass k f - (if k = 0 then s.pickup f else 0) := by
  unfold rawMass
  rw [prevent_eq p.nl s h0 (fun h => absurd h (by rw [hz]; exact lt_irrefl _)),
    exch1_of_not_dep s (by rw [hz]; exact lt_irrefl _)]
  simp only [hz, lt_irrefl, decide_false]
  unfold arrangeLayers
  simp only [Bool.false_eq_true, if_false, addLayer_apply, arrange_fold_none]
  split_ifs <;> ring

end Aeolis.Bed
