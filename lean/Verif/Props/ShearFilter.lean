import Verif.Props.Shear
import Mathlib.Tactic.IntervalCases

/-! Property theorems on the two-dimensional shear model: filtered separation bubbles, C112. -/

set_option linter.unusedSectionVars false

namespace Aeolis.Props

open Aeolis.Spec Aeolis.Resample Aeolis.Shear

noncomputable section

open Classical

/-- The next surface over a row: the old one and the cubic that is fitted to the old one, multiplied by `γ`.  The cubic begins at the drop `h` of
the damped surface above datum and descends to datum. -/
def Refitted (n : ℕ) (dx : ℝ) (x z : ℕ → ℝ) (c γ : ℝ) (i : ℕ) (old new : ℕ → ℝ) : Prop :=
  ∃ h s len, IsDrop (bedAngle n dx z) n (fun m => γ * old m) i h ∧
    s = γ * (old i - old (if 3 ≤ i then i - 3 else n + i - 3)) / (3 * dx) ∧
    len = min (max (3 * h / (2 * c) * (1 + s / c / 4 + (s / c) ^ 2 / 8)) 0.1) 200 ∧
    ∀ m, new m = max (old m) (if i ≤ m ∧ m < min (i + ⌊len / dx⌋₊) (n - 1) then hermite h s h len (x m - x i) else 0)

theorem filter_row (S : SepInput) (k j i : ℕ) (st : SepState) (old new : ℕ → ℝ) (hz : ∀ m, st.zsep j m = old m) (hb : ∀ m, S.z j m ≤ old m)
    (hr : Refitted S.cols S.dx S.x (S.z j) S.c (Real.exp (-(2 * Real.pi / S.xmax * k * S.dx) ^ 2 / 4.5)) i old new) :
    (∀ m, (S.filter k j i st).zsep j m = new m) ∧ (∀ m, S.z j m ≤ new m) ∧
      ∀ j', j' ≠ j → ∀ m, (S.filter k j i st).zsep j' m = st.zsep j' m ∧ (S.filter k j i st).znew j' m = 0 := by
  obtain ⟨h, s, len, hh, hs, hlen, hnew⟩ := hr
  have hγ : Real.exp (-(2 * Real.pi / S.xmax * k * S.dx) ^ 2 / (2 * 1.5 ^ 2)) = Real.exp (-(2 * Real.pi / S.xmax * k * S.dx) ^ 2 / 4.5) := by
    norm_num
  have hzf : (fun m => Real.exp (-(2 * Real.pi / S.xmax * k * S.dx) ^ 2 / (2 * 1.5 ^ 2)) * st.zsep j m) =
      fun m => Real.exp (-(2 * Real.pi / S.xmax * k * S.dx) ^ 2 / 4.5) * old m := by funext m; rw [hγ, hz]
  have hh' := (isDrop_iff _ _ _ _ _).mp hh
  rw [← slopeAngle_eq] at hh'
  refine ⟨fun m => ?_, fun m => ?_, fun j' hj m => ?_⟩
  · rw [hnew m]
    unfold SepInput.filter SepInput.raise SepInput.fit
    dsimp only
    rw [if_pos rfl, max_eq_right ((hb m).trans_eq (hz m).symm), hz m]
    congr 1
    simp only [hγ, hz, ← hh']
    have hs' : (Real.exp (-(2 * Real.pi / S.xmax * k * S.dx) ^ 2 / 4.5) * old i -
        Real.exp (-(2 * Real.pi / S.xmax * k * S.dx) ^ 2 / 4.5) * old (threeBack S.cols i)) / (3 * S.dx) = s := by
      rw [hs]; unfold threeBack; ring
    rw [hs', show bubbleLength S.c h s = len from hlen.symm]
    by_cases hc : i ≤ m ∧ m < min (i + ⌊len / S.dx⌋₊) (S.cols - 1)
    · rw [if_pos hc, if_pos ⟨trivial, hc⟩]
      exact streamline_hermite _ _ _ _ _ (by rw [hlen]; exact (bubbleLength_pos S.c h s).ne')
    · rw [if_neg hc, if_neg (fun h => hc h.2)]
  · rw [hnew m]; exact (hb m).trans (le_max_left _ _)
  · refine ⟨raise_row S j _ j' m hj, ?_⟩
    unfold SepInput.filter SepInput.raise SepInput.fit
    dsimp only
    rw [if_neg (fun h => hj h.1)]

theorem filter_rows (S : SepInput) (k j i it : ℕ) (st : SepState) (surf : ℕ → ℕ → ℝ) (hz : ∀ m, st.zsep j m = surf 0 m)
    (hb : ∀ m, S.z j m ≤ surf 0 m)
    (hr : ∀ n < it, Refitted S.cols S.dx S.x (S.z j) S.c (Real.exp (-(2 * Real.pi / S.xmax * k * S.dx) ^ 2 / 4.5)) i (surf n) (surf (n + 1))) :
    (∀ m, ((S.filter k j i)^[it] st).zsep j m = surf it m) ∧ (∀ m, S.z j m ≤ surf it m) ∧
      ∀ j', j' ≠ j → ∀ m, ((S.filter k j i)^[it] st).zsep j' m = st.zsep j' m ∧ (st.znew j' m = 0 → ((S.filter k j i)^[it] st).znew j' m = 0) := by
  induction it with
  | zero => exact ⟨hz, hb, fun j' _ m => ⟨rfl, id⟩⟩
  | succ it ih =>
    obtain ⟨h1, h2, h3⟩ := ih fun n hn => hr n (by omega)
    rw [Function.iterate_succ_apply']
    obtain ⟨g1, g2, g3⟩ := filter_row S k j i _ _ _ h1 h2 (hr it (by omega))
    exact ⟨g1, g2, fun j' hj m => ⟨(g3 j' hj m).1.trans (h3 j' hj m).1, fun _ => (g3 j' hj m).2⟩⟩

/-- The bubbles of a grid with one bubble in every row. -/
theorem one_each (S : SepInput) (hmu : 0 ≤ S.mu) (rows : ℕ) (b : ℕ → ℕ)
    (h1 : ∀ j < rows, ∀ i, StartsAt S.cols S.dx (S.z j) S.mu i ↔ i = b j) : S.bubbles rows = (List.range rows).map fun j => (j, b j) := by
  unfold SepInput.bubbles
  rw [List.map_eq_flatMap]
  refine List.flatMap_congr fun j hj => ?_
  have hj := List.mem_range.mp hj
  have hmem : ∀ i, brink S.cols S.mu (slopeAngle S.cols S.dx (S.z j)) i ↔ i = b j := fun i =>
    (startsAt_iff S.cols S.dx (S.z j) S.mu hmu i).symm.trans (h1 j hj i)
  have hlt : b j < S.cols := by have := ((h1 j hj _).mpr rfl).1; omega
  have hf : (List.range S.cols).filter (fun i => decide (brink S.cols S.mu (slopeAngle S.cols S.dx (S.z j)) i)) = [b j] := by
    have hnd : ((List.range S.cols).filter (fun i => decide (brink S.cols S.mu (slopeAngle S.cols S.dx (S.z j)) i))).Nodup :=
      List.Nodup.filter _ List.nodup_range
    exact List.perm_singleton.mp (List.perm_of_nodup_nodup_toFinset_eq hnd (List.nodup_singleton _) (by
      ext i
      simp only [List.mem_toFinset, List.mem_filter, List.mem_range, decide_eq_true_eq, List.mem_singleton, hmem]
      exact ⟨fun h => h.2, fun h => ⟨h ▸ hlt, h⟩⟩))
  rw [hf]
  rfl

/-- **C112** The filtered surface over a grid with a bubble in every row: in row `j` the bed, filled up to datum, and the separating streamline are
refitted as many times as asked for, damped each time with a Gaussian factor of the number of the row, not of the
wave number; the first row is not damped at all. -/
theorem C112_filtered (S : SepInput) (hmu : 0 ≤ S.mu) (rows it : ℕ) (hrows : rows ≤ S.cols) (b : ℕ → ℕ)
    (h1 : ∀ j < rows, ∀ i, StartsAt S.cols S.dx (S.z j) S.mu i ↔ i = b j) :
    ∃ zs, S.surface rows it none = .ok zs ∧ ∀ j < rows, ∀ stop line, IsBubble S.cols S.dx S.x (S.z j) S.c S.mu (b j) stop line →
      ∀ surf : ℕ → ℕ → ℝ, (∀ m, surf 0 m = max (max (S.z j m) 0) (if b j ≤ m ∧ m < stop then line m else 0)) →
        (∀ n < it, Refitted S.cols S.dx S.x (S.z j) S.c (Real.exp (-(2 * Real.pi / S.xmax * j * S.dx) ^ 2 / 4.5)) (b j) (surf n) (surf (n + 1))) →
        ∀ m, zs j m = surf it m := by
  have hbub := one_each S hmu rows b h1
  have hok : it = 0 ∨ ∀ x ∈ S.bubbles rows, x.1 < S.cols := Or.inr fun x hx => by
    have := (mem_bubbles S rows x.1 x.2).mp hx; omega
  obtain ⟨st, hst⟩ := walk_ok S it _ hok 0 ⟨fun _ _ => 0, fun _ _ => 0⟩
  refine ⟨fun j i => if st.zsep j i < S.z j i then S.z j i else st.zsep j i, ?_, fun j hj stop line hb surf h0 hr m => ?_⟩
  · unfold SepInput.surface; rw [hst]
  -- the rows one by one
  have split : S.bubbles rows = ((List.range j).map fun j => (j, b j)) ++ (j, b j) :: ((List.range' (j + 1) (rows - (j + 1))).map fun j => (j, b j)) := by
    rw [hbub, List.range_eq_range', List.range_eq_range']
    have : rows = j + (rows - (j + 1) + 1) := by omega
    conv_lhs => rw [this, ← List.range'_append_1]
    rw [List.map_append, List.range'_succ, List.map_cons]
    simp
  have before : ∀ (l : List (ℕ × ℕ)) (k : ℕ) (s : SepState), (∀ x ∈ l, x.1 ≠ j) → (∀ m, s.zsep j m = 0 ∧ s.znew j m = 0) → ∀ r s',
      S.walk it k (l ++ r) s = .ok s' → ∃ s1, S.walk it (k + l.length) r s1 = .ok s' ∧ ∀ m, s1.zsep j m = 0 ∧ s1.znew j m = 0 := by
    intro l
    induction l with
    | nil => exact fun k s _ hs r s' h => ⟨s, h, hs⟩
    | cons x l ih =>
      intro k s hne hs r s' h
      rw [List.cons_append] at h
      unfold SepInput.walk at h
      cases hx : S.bubble it k x s with
      | error e => rw [hx] at h; exact absurd h (by simp)
      | ok s1 =>
        rw [hx] at h
        have hz1 : ∀ m, s1.zsep j m = 0 ∧ s1.znew j m = 0 := by
          intro m
          have hxj : j ≠ x.1 := (hne x List.mem_cons_self).symm
          refine ⟨(bubble_row S it k x s s1 hx j m hxj).trans (hs m).1, ?_⟩
          have hfirst : (S.first x.1 x.2 s).znew j m = 0 := by
            unfold SepInput.first SepInput.raise SepInput.fit
            dsimp only
            rw [if_neg (fun h => hxj h.1)]
            exact (hs m).2
          unfold SepInput.bubble at hx
          dsimp only at hx
          split_ifs at hx
          · rw [← Except.ok.inj hx]; exact hfirst
          · rw [← Except.ok.inj hx]
            have : ∀ n, ((S.filter k x.1 x.2)^[n] (S.first x.1 x.2 s)).znew j m = 0 := by
              intro n
              cases n with
              | zero => exact hfirst
              | succ n =>
                rw [Function.iterate_succ_apply']
                unfold SepInput.filter SepInput.raise SepInput.fit
                dsimp only
                rw [if_neg (fun h => hxj h.1)]
            exact this it
        obtain ⟨s2, h2, h3⟩ := ih (k + 1) s1 (fun y hy => hne y (List.mem_cons_of_mem _ hy)) hz1 r s' h
        exact ⟨s2, by rw [List.length_cons, show k + (l.length + 1) = k + 1 + l.length by omega]; exact h2, h3⟩
  rw [split] at hst
  obtain ⟨s1, hw, hzero⟩ := before _ 0 _ (fun x hx => by
    obtain ⟨i, hi, rfl⟩ := List.mem_map.mp hx
    have := List.mem_range.mp hi
    exact (show i ≠ j by omega)) (fun m => ⟨rfl, rfl⟩) _ _ hst
  rw [List.length_map, List.length_range, Nat.zero_add] at hw
  unfold SepInput.walk at hw
  have hb' := hb
  obtain ⟨_, h, s, len, hd, hs', hl, hstop, hline⟩ := hb
  have hfirst : ∀ m, (S.first j (b j) s1).zsep j m = surf 0 m := by
    intro m
    have hh := (isDrop_iff _ _ _ _ _).mp hd
    rw [h0 m]
    unfold SepInput.first SepInput.raise SepInput.fit
    dsimp only
    rw [if_pos rfl, (hzero m).1, (hzero m).2, slopeAngle_eq, ← hh, show (S.z j (b j) - S.z j (threeBack S.cols (b j))) / (3 * S.dx) = s from hs'.symm,
      show bubbleLength S.c h s = len from hl.symm, ← hstop]
    congr 1
    by_cases hc : b j ≤ m ∧ m < stop
    · rw [if_pos hc, if_pos ⟨rfl, hc⟩, hline]
      exact streamline_hermite _ _ _ _ _ (by rw [hl]; exact (bubbleLength_pos S.c h s).ne')
    · rw [if_neg hc, if_neg (fun h => hc h.2)]
  have hbed : ∀ m, S.z j m ≤ surf 0 m := fun m => by rw [h0 m]; exact (le_max_left _ _).trans (le_max_left _ _)
  obtain ⟨g1, g2, -⟩ := filter_rows S j j (b j) it (S.first j (b j) s1) surf hfirst hbed hr
  have hbubble : S.bubble it j (j, b j) s1 = .ok ((S.filter j j (b j))^[it] (S.first j (b j) s1)) := by
    unfold SepInput.bubble
    dsimp only
    by_cases hit : it = 0
    · rw [if_pos hit, hit]; rfl
    · rw [if_neg hit, if_neg (by omega)]
  rw [hbubble] at hw
  dsimp only at hw
  have hafter := walk_row S it _ _ _ _ hw j m (fun x hx => by
    obtain ⟨i, hi, rfl⟩ := List.mem_map.mp hx
    have := (List.mem_range'_1.mp hi).1
    exact (show i ≠ j by omega))
  beta_reduce
  rw [hafter, g1 m, if_neg (not_lt.mpr (g2 m))]

/-- A scarp of 10 m across the wind begins a bubble in the fourth column of every row, so the conditions are met. -/
example : let z : ℕ → ℝ := fun i => if i < 5 then 10 else 0
    (∀ i, StartsAt 20 1 z 30 i ↔ i = 3) ∧ IsDrop (bedAngle 20 1 z) 20 z 3 10 := by
  intro z
  have hpi := Real.pi_pos
  have hang : ∀ i, bedAngle 20 1 z i = if i = 3 ∨ i = 4 then Real.arctan (-5) * 180 / Real.pi else 0 := by
    intro i
    unfold bedAngle
    rcases Nat.lt_or_ge i 17 with h | h
    · rw [min_eq_left (by omega)]
      interval_cases i <;> norm_num [z]
    · rw [min_eq_right (by omega), if_neg (by omega)]
      norm_num [z]
  have hsteep : ∀ i, bedAngle 20 1 z i < -30 ↔ i = 3 ∨ i = 4 := by
    intro i
    rw [hang]
    split_ifs with h
    · refine ⟨fun _ => h, fun _ => ?_⟩
      have h1 : Real.pi / 4 < Real.arctan 5 := by
        rw [← Real.arctan_one]; exact Real.arctan_strictMono (by norm_num)
      rw [Real.arctan_neg, div_lt_iff₀ hpi]
      linarith
    · exact ⟨fun h' => by norm_num at h', fun h' => absurd h' h⟩
  refine ⟨fun i => ?_, Or.inl ⟨8, by norm_num, by norm_num, ?_, fun k h1 h2 => by omega, by norm_num [z]⟩⟩
  · unfold StartsAt
    simp only [hsteep]
    split_ifs <;> omega
  · rw [hang, if_neg (by norm_num)]

end

end Aeolis.Props
