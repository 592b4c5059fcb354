import Verif.Proofs.ShearFourier
import Verif.Proofs.ShearGrid
import Verif.Spec.Shear
import Mathlib.Analysis.Calculus.Deriv.Pow
import Mathlib.Analysis.Calculus.Deriv.Mul
import Mathlib.Analysis.Calculus.Deriv.Add
import Mathlib.Tactic.LinearCombination

/-! Helper lemmas on the stress perturbation, the stress on the output grid and flow separation. -/

set_option linter.unusedSectionVars false

namespace Aeolis.Shear

open Aeolis.Resample Aeolis.Spec

noncomputable section

open Classical

/-! ### Rotations -/

theorem rotatePt_cancel (φ : ℝ) (o p : ℝ × ℝ) : rotatePt φ o (rotatePt (-φ) o p) = p := by
  have h := Real.cos_sq_add_sin_sq (φ / 180 * Real.pi)
  have hn : -φ / 180 * Real.pi = -(φ / 180 * Real.pi) := by ring
  ext
  · rw [rotatePt_fst, rotatePt_fst, rotatePt_snd, hn, Real.cos_neg, Real.sin_neg]
    linear_combination (p.1 - o.1) * h
  · rw [rotatePt_snd, rotatePt_fst, rotatePt_snd, hn, Real.cos_neg, Real.sin_neg]
    linear_combination (p.2 - o.2) * h

theorem rotatePt_cancel' (φ : ℝ) (o p : ℝ × ℝ) : rotatePt (-φ) o (rotatePt φ o p) = p := by
  have := rotatePt_cancel (-φ) o p
  rwa [neg_neg] at this

theorem rotatePt_smul (φ k : ℝ) (p : ℝ × ℝ) : rotatePt φ (0, 0) (k * p.1, k * p.2) =
    (k * (rotatePt φ (0, 0) p).1, k * (rotatePt φ (0, 0) p).2) := by
  ext
  · rw [rotatePt_fst, rotatePt_fst]; ring
  · rw [rotatePt_snd, rotatePt_snd]; ring

/-- The computational grid, turned into the wind, is a rectangular grid. -/
theorem node_rect (c : CGrid) (φ : ℝ) (q p : ℕ) :
    rotatePt (-φ) c.origin (c.node q p) =
      rect (rotatePt (-φ) c.origin (c.node 0 0)).1 (rotatePt (-φ) c.origin (c.node 0 0)).2 (φ / 180 * Real.pi) c.dx c.dy q p := by
  have hn : -φ / 180 * Real.pi = -(φ / 180 * Real.pi) := by ring
  unfold rect CGrid.node axisNode
  ext
  · rw [rotatePt_fst, rotatePt_fst, hn, Real.cos_neg, Real.sin_neg]
    push_cast
    ring
  · rw [rotatePt_snd, rotatePt_snd, hn, Real.cos_neg, Real.sin_neg]
    push_cast
    ring

/-! ### Stress in a cell -/

theorem addShear_zero (tau : ℝ × ℝ) : addShear tau (0, 0) = tau := by
  unfold addShear
  dsimp only
  split_ifs with h
  · ext
    · dsimp only; field_simp; ring
    · dsimp only; field_simp; ring
  · rfl

theorem addShear_eq (tau d : ℝ × ℝ) :
    addShear tau d = (tau.1 + Real.sqrt (tau.1 ^ 2 + tau.2 ^ 2) * d.1, tau.2 + Real.sqrt (tau.1 ^ 2 + tau.2 ^ 2) * d.2) := by
  unfold addShear
  dsimp only
  split_ifs with h
  · ext
    · dsimp only; field_simp
    · dsimp only; field_simp
  · push Not at h
    simp [h]

theorem addShear_smul (k : ℝ) (hk : 0 ≤ k) (tau d : ℝ × ℝ) :
    addShear (k * tau.1, k * tau.2) d = (k * (addShear tau d).1, k * (addShear tau d).2) := by
  simp only [addShear_eq]
  rw [show (k * tau.1) ^ 2 + (k * tau.2) ^ 2 = k ^ 2 * (tau.1 ^ 2 + tau.2 ^ 2) by ring, Real.sqrt_mul (sq_nonneg k),
    Real.sqrt_sq hk]
  ext <;> dsimp only <;> ring

theorem sepFactor_range (h : ℝ) : 0 ≤ sepFactor h ∧ sepFactor h ≤ 1 := by
  unfold sepFactor
  exact ⟨le_min (le_max_right _ _) (by norm_num), min_le_right _ _⟩

theorem stressField_nonneg (z : ℕ → ℕ → ℝ) (sep : Option (ℕ → ℕ → ℝ)) (pert : (ℕ → ℕ → ℝ) → ℕ → ℕ → ℝ × ℝ) (tau : ℝ × ℝ) (q p : ℕ) :
    0 ≤ (stressField z sep pert tau q p).1 := by
  unfold stressField
  cases sep with
  | none => exact le_max_right _ _
  | some zs => exact mul_nonneg (le_max_right _ _) (sepFactor_range _).1

theorem stressField_smul (z : ℕ → ℕ → ℝ) (sep : Option (ℕ → ℕ → ℝ)) (pert : (ℕ → ℕ → ℝ) → ℕ → ℕ → ℝ × ℝ) (tau : ℝ × ℝ) (k : ℝ)
    (hk : 0 ≤ k) (q p : ℕ) : stressField z sep pert (k * tau.1, k * tau.2) q p =
      (k * (stressField z sep pert tau q p).1, k * (stressField z sep pert tau q p).2) := by
  have hm : ∀ a : ℝ, max (k * a) 0 = k * max a 0 := fun a => by rw [mul_max_of_nonneg _ _ hk, mul_zero]
  unfold stressField
  cases sep with
  | none => dsimp only; rw [addShear_smul k hk, hm]
  | some zs =>
    dsimp only
    rw [addShear_smul k hk, hm]
    ext <;> dsimp only <;> ring

/-! ### Interpolation of a scaled or rotated field -/

theorem interpolate_smul (R C : ℕ) (o : ℝ × ℝ) (g : ℕ → ℕ → ℝ × ℝ) (z : ℕ → ℕ → ℝ) (fill k : ℝ) (pt : ℝ × ℝ) :
    interpolate R C o g (fun j i => k * z j i) (k * fill) pt = k * interpolate R C o g z fill pt := by
  have := interpolate_linear R C o g z z fill fill k 0 pt
  simpa using this

/-! ### Flow separation -/

/-- Lower bound kept by the work on all bubbles. -/
theorem raise_row (S : SepInput) (j : ℕ) (st : SepState) (j' i : ℕ) (h : j' ≠ j) : (S.raise j st).zsep j' i = st.zsep j' i := by
  unfold SepInput.raise
  simp [h]

theorem raise_ge (S : SepInput) (j : ℕ) (st : SepState) (j' i : ℕ) : st.zsep j' i ≤ (S.raise j st).zsep j' i := by
  unfold SepInput.raise
  dsimp only
  split_ifs with h
  · subst h
    exact (le_max_right _ _).trans (le_max_left _ _)
  · exact le_rfl

theorem bubble_row (S : SepInput) (it k : ℕ) (b : ℕ × ℕ) (st st' : SepState) (h : S.bubble it k b st = .ok st') (j i : ℕ)
    (hj : j ≠ b.1) : st'.zsep j i = st.zsep j i := by
  unfold SepInput.bubble at h
  dsimp only at h
  have h1 : (S.first b.1 b.2 st).zsep j i = st.zsep j i := by
    unfold SepInput.first
    rw [raise_row _ _ _ _ _ hj]
  have h2 : ∀ (n : ℕ) (st : SepState), ((S.filter k b.1 b.2)^[n] st).zsep j i = st.zsep j i := by
    intro n
    induction n with
    | zero => intro st; rfl
    | succ n ih =>
      intro st
      rw [Function.iterate_succ_apply, ih]
      unfold SepInput.filter
      rw [raise_row _ _ _ _ _ hj]
  split_ifs at h
  · injection h with h; rw [← h, h1]
  · injection h with h; rw [← h, h2, h1]

theorem bubble_ge (S : SepInput) (it k : ℕ) (b : ℕ × ℕ) (st st' : SepState) (h : S.bubble it k b st = .ok st') (j i : ℕ) :
    st.zsep j i ≤ st'.zsep j i := by
  unfold SepInput.bubble at h
  dsimp only at h
  have h1 : st.zsep j i ≤ (S.first b.1 b.2 st).zsep j i := by
    unfold SepInput.first
    dsimp only
    refine le_trans ?_ (raise_ge S b.1 _ j i)
    exact le_rfl
  have h2 : ∀ (n : ℕ) (st : SepState), st.zsep j i ≤ ((S.filter k b.1 b.2)^[n] st).zsep j i := by
    intro n
    induction n with
    | zero => intro st; exact le_rfl
    | succ n ih =>
      intro st
      rw [Function.iterate_succ_apply]
      refine le_trans ?_ (ih _)
      unfold SepInput.filter
      dsimp only
      refine le_trans ?_ (raise_ge S b.1 _ j i)
      exact le_rfl
  split_ifs at h
  · injection h with h; rw [← h]; exact h1
  · injection h with h; rw [← h]; exact h1.trans (h2 _ _)

theorem walk_row (S : SepInput) (it : ℕ) (bs : List (ℕ × ℕ)) (k : ℕ) (st st' : SepState) (h : S.walk it k bs st = .ok st')
    (j i : ℕ) (hj : ∀ b ∈ bs, b.1 ≠ j) : st'.zsep j i = st.zsep j i := by
  induction bs generalizing k st with
  | nil => injection h with h; rw [h]
  | cons b bs ih =>
    unfold SepInput.walk at h
    cases hb : S.bubble it k b st with
    | error e => rw [hb] at h; exact absurd h (by simp)
    | ok st1 =>
      rw [hb] at h
      rw [ih (k + 1) st1 h fun b hb => hj b (List.mem_cons_of_mem _ hb)]
      exact bubble_row S it k b st st1 hb j i (hj b List.mem_cons_self).symm

theorem walk_ge (S : SepInput) (it : ℕ) (bs : List (ℕ × ℕ)) (k : ℕ) (st st' : SepState) (h : S.walk it k bs st = .ok st')
    (j i : ℕ) : st.zsep j i ≤ st'.zsep j i := by
  induction bs generalizing k st with
  | nil => injection h with h; rw [h]
  | cons b bs ih =>
    unfold SepInput.walk at h
    cases hb : S.bubble it k b st with
    | error e => rw [hb] at h; exact absurd h (by simp)
    | ok st1 =>
      rw [hb] at h
      exact (bubble_ge S it k b st st1 hb j i).trans (ih (k + 1) st1 h)

theorem mem_bubbles (S : SepInput) (rows : ℕ) (j i : ℕ) :
    (j, i) ∈ S.bubbles rows ↔ j < rows ∧ i < S.cols ∧ brink S.cols S.mu (slopeAngle S.cols S.dx (S.z j)) i := by
  unfold SepInput.bubbles
  simp only [List.mem_flatMap, List.mem_range, List.mem_map, List.mem_filter, decide_eq_true_eq, Prod.mk.injEq]
  constructor
  · rintro ⟨j', hj, i', ⟨hi, hb⟩, rfl, rfl⟩
    exact ⟨hj, hi, hb⟩
  · rintro ⟨hj, hi, hb⟩
    exact ⟨j, hj, i, ⟨hi, hb⟩, rfl, rfl⟩

theorem walk_ok (S : SepInput) (it : ℕ) (bs : List (ℕ × ℕ)) (h : it = 0 ∨ ∀ b ∈ bs, b.1 < S.cols) (k : ℕ) (st : SepState) :
    ∃ st', S.walk it k bs st = .ok st' := by
  induction bs generalizing k st with
  | nil => exact ⟨st, rfl⟩
  | cons b bs ih =>
    have hb : ∃ st1, S.bubble it k b st = .ok st1 := by
      unfold SepInput.bubble
      dsimp only
      split_ifs with h1 h2
      · exact ⟨_, rfl⟩
      · rcases h with h | h
        · exact absurd h h1
        · exact absurd (h b List.mem_cons_self) (by omega)
      · exact ⟨_, rfl⟩
    obtain ⟨st1, hb⟩ := hb
    unfold SepInput.walk
    rw [hb]
    exact ih (h.imp id fun h b hb => h b (List.mem_cons_of_mem _ hb)) (k + 1) st1

theorem walk_error (S : SepInput) (it : ℕ) (hit : it ≠ 0) (bs : List (ℕ × ℕ)) (b : ℕ × ℕ) (hb : b ∈ bs) (hc : S.cols ≤ b.1)
    (k : ℕ) (st : SepState) : S.walk it k bs st = .error .indexError := by
  induction bs generalizing k st with
  | nil => simp at hb
  | cons b' bs ih =>
    unfold SepInput.walk
    by_cases h' : S.cols ≤ b'.1
    · have : S.bubble it k b' st = .error .indexError := by
        unfold SepInput.bubble; simp [hit, h']
      rw [this]
    · have : ∃ st1, S.bubble it k b' st = .ok st1 := by
        unfold SepInput.bubble; simp [hit, h']
      obtain ⟨st1, h1⟩ := this
      rw [h1]
      refine ih ?_ _ _
      rcases List.mem_cons.mp hb with rfl | hb
      · exact absurd hc h'
      · exact hb

/-- Columns covered by a bubble and streamline over it, without filtering. -/
def covers0 (S : SepInput) (b : ℕ × ℕ) (j m : ℕ) : Prop :=
  j = b.1 ∧ b.2 ≤ m ∧ m < min (b.2 + ⌊bubbleLength S.c (brinkHeight (S.z b.1) b.2
    (firstRise S.cols (slopeAngle S.cols S.dx (S.z b.1)) b.2))
      ((S.z b.1 b.2 - S.z b.1 (threeBack S.cols b.2)) / (3 * S.dx)) / S.dx⌋₊ + 1) (S.cols - 1)

/-- Height of the streamline of a bubble. -/
def height0 (S : SepInput) (b : ℕ × ℕ) (m : ℕ) : ℝ :=
  streamline (brinkHeight (S.z b.1) b.2 (firstRise S.cols (slopeAngle S.cols S.dx (S.z b.1)) b.2))
    ((S.z b.1 b.2 - S.z b.1 (threeBack S.cols b.2)) / (3 * S.dx))
    (bubbleLength S.c (brinkHeight (S.z b.1) b.2 (firstRise S.cols (slopeAngle S.cols S.dx (S.z b.1)) b.2))
      ((S.z b.1 b.2 - S.z b.1 (threeBack S.cols b.2)) / (3 * S.dx)))
    (S.z b.1 b.2) (S.x m - S.x b.2)

theorem first_facts (S : SepInput) (b : ℕ × ℕ) (st : SepState) (j m : ℕ) :
    ((S.first b.1 b.2 st).znew j m = if covers0 S b j m then height0 S b m else st.znew j m) ∧
    ((S.first b.1 b.2 st).zsep j m = if j = b.1 then
      max (max (S.z j m) (st.zsep j m)) ((S.first b.1 b.2 st).znew j m) else st.zsep j m) := by
  constructor
  · unfold SepInput.first SepInput.raise SepInput.fit covers0 height0
    dsimp only
    congr
  · unfold SepInput.first SepInput.raise
    dsimp only
    by_cases h : j = b.1
    · rw [if_pos h, if_pos h, h]
    · rw [if_neg h, if_neg h]

/-- What holds after some bubbles (without filtering): `done` are the bubbles worked on. -/
structure Envelope (S : SepInput) (done : List (ℕ × ℕ)) (st : SepState) (j m : ℕ) : Prop where
  ge : ∀ b ∈ done, covers0 S b j m → height0 S b m ≤ st.zsep j m
  nonneg : 0 ≤ st.zsep j m
  new : st.znew j m = 0 ∨ ∃ b ∈ done, covers0 S b j m ∧ st.znew j m = height0 S b m
  attained : st.zsep j m = 0 ∨ st.zsep j m = S.z j m ∨ ∃ b ∈ done, covers0 S b j m ∧ st.zsep j m = height0 S b m

theorem envelope_step (S : SepInput) (done : List (ℕ × ℕ)) (st : SepState) (j m : ℕ) (b : ℕ × ℕ) (h : Envelope S done st j m) :
    Envelope S (done ++ [b]) (S.first b.1 b.2 st) j m := by
  obtain ⟨hnew, hsep⟩ := first_facts S b st j m
  have hmono : st.zsep j m ≤ (S.first b.1 b.2 st).zsep j m := by
    rw [hsep]; split_ifs
    · exact (le_max_right _ _).trans (le_max_left _ _)
    · exact le_rfl
  have hn : (S.first b.1 b.2 st).znew j m = 0 ∨
      ∃ b' ∈ done ++ [b], covers0 S b' j m ∧ (S.first b.1 b.2 st).znew j m = height0 S b' m := by
    rw [hnew]
    split_ifs with hc
    · exact Or.inr ⟨b, by simp, hc, rfl⟩
    · exact h.new.imp id fun ⟨b', hb', h1, h2⟩ => ⟨b', by simp [hb'], h1, h2⟩
  refine ⟨fun b' hb' hc => ?_, h.nonneg.trans hmono, hn, ?_⟩
  · rcases List.mem_append.mp hb' with hb' | hb'
    · exact (h.ge b' hb' hc).trans hmono
    · rw [List.mem_singleton] at hb'
      subst hb'
      rw [hsep, if_pos hc.1, hnew, if_pos hc]
      exact le_max_right _ _
  · rw [hsep]
    have hold : st.zsep j m = 0 ∨ st.zsep j m = S.z j m ∨ ∃ b' ∈ done ++ [b], covers0 S b' j m ∧ st.zsep j m = height0 S b' m :=
      h.attained.imp id fun h => h.imp id fun ⟨b', hb', h1, h2⟩ => ⟨b', by simp [hb'], h1, h2⟩
    split_ifs with hj
    · rcases max_choice (max (S.z j m) (st.zsep j m)) ((S.first b.1 b.2 st).znew j m) with e | e
      · rw [e]
        rcases max_choice (S.z j m) (st.zsep j m) with e | e
        · rw [e]; exact Or.inr (Or.inl rfl)
        · rw [e]; exact hold
      · rw [e]
        exact hn.imp id Or.inr
    · exact hold

theorem envelope_walk (S : SepInput) (bs done : List (ℕ × ℕ)) (k : ℕ) (st st' : SepState) (j m : ℕ) (h : Envelope S done st j m)
    (hw : S.walk 0 k bs st = .ok st') : Envelope S (done ++ bs) st' j m := by
  induction bs generalizing done k st with
  | nil => injection hw with hw; rw [← hw, List.append_nil]; exact h
  | cons b bs ih =>
    unfold SepInput.walk SepInput.bubble at hw
    dsimp only at hw
    rw [if_pos rfl] at hw
    have := ih (done ++ [b]) (k + 1) _ (envelope_step S done st j m b h) hw
    rwa [List.append_assoc, List.singleton_append] at this

/-! ### Separating streamline -/

theorem streamline_deriv (h s len start x : ℝ) :
    HasDerivAt (streamline h s len start)
      (3 * (2 * h / len ^ 3 + s / len ^ 2) * x ^ 2 + 2 * (-3 * h / len ^ 2 - 2 * s / len) * x + s) x := by
  unfold streamline
  have h3 : HasDerivAt (fun x : ℝ => x ^ 3) (3 * x ^ 2) x := by simpa using hasDerivAt_pow 3 x
  have h2 : HasDerivAt (fun x : ℝ => x ^ 2) (2 * x) x := by simpa using hasDerivAt_pow 2 x
  have := (((h3.const_mul (2 * h / len ^ 3 + s / len ^ 2)).add (h2.const_mul (-3 * h / len ^ 2 - 2 * s / len))).add
    ((hasDerivAt_id x).const_mul s)).add_const start
  refine this.congr_deriv ?_
  ring

theorem streamline_hermite (h s len start x : ℝ) (hl : len ≠ 0) : streamline h s len start x = hermite start s h len x := by
  unfold streamline hermite
  field_simp
  ring

theorem slopeAngle_eq (n : ℕ) (dx : ℝ) (z : ℕ → ℝ) : slopeAngle n dx z = bedAngle n dx z := rfl

theorem bubbleLength_pos (c h s : ℝ) : 0 < bubbleLength c h s := by
  unfold bubbleLength
  dsimp only
  refine lt_min (lt_of_lt_of_le (by norm_num) (le_max_right _ _)) (by norm_num)

theorem isDrop_iff (a : ℕ → ℝ) (n : ℕ) (z : ℕ → ℝ) (i : ℕ) (h : ℝ) :
    IsDrop a n z i h ↔ h = brinkHeight z i (firstRise n a i) := by
  unfold IsDrop firstRise
  cases hf : (List.range n).find? (fun m => decide (i + 5 ≤ m ∧ 0 ≤ a m)) with
  | none =>
    rw [List.find?_eq_none] at hf
    simp only [List.mem_range, decide_eq_true_eq, not_and, not_le] at hf
    constructor
    · rintro (⟨m, h1, h2, h3, -, -⟩ | ⟨-, h0⟩)
      · exact absurd h3 (not_le.mpr (hf m h2 h1))
      · exact h0
    · intro h0
      exact Or.inr ⟨fun m h1 h2 => hf m h2 h1, h0⟩
  | some m =>
    rw [List.find?_range_eq_some] at hf
    simp only [decide_eq_true_eq, List.mem_range, Bool.not_eq_eq_eq_not, Bool.not_true, decide_eq_false_iff_not, not_and, not_le] at hf
    obtain ⟨⟨h1, h2⟩, h3, h4⟩ := hf
    constructor
    · rintro (⟨m', h1', h2', h3', h4', h0⟩ | ⟨h0, -⟩)
      · have : m' = m := by
          rcases lt_trichotomy m' m with hl | hl | hl
          · exact absurd h3' (not_le.mpr (h4 m' hl h1'))
          · exact hl
          · exact absurd h2 (not_le.mpr (h4' m h1 hl))
        rw [h0, this]; rfl
      · exact absurd h2 (not_le.mpr (h0 m h1 h3))
    · intro h0
      exact Or.inl ⟨m, h1, h3, h2, fun k hk hkm => h4 k hkm hk, h0⟩

theorem steep_iff (mu : ℝ) (hmu : 0 ≤ mu) (a : ℕ → ℝ) (i : ℕ) : steep mu a i ↔ a i < -mu := by
  unfold steep
  constructor
  · rintro ⟨h1, h2⟩
    rw [abs_of_neg h2] at h1
    linarith
  · intro h
    have h2 : a i < 0 := by linarith
    exact ⟨by rw [abs_of_neg h2]; linarith, h2⟩

theorem startsAt_iff (n : ℕ) (dx : ℝ) (z : ℕ → ℝ) (mu : ℝ) (hmu : 0 ≤ mu) (i : ℕ) :
    StartsAt n dx z mu i ↔ brink n mu (slopeAngle n dx z) i := by
  rw [slopeAngle_eq]
  unfold StartsAt brink brink0 stall
  simp only [steep_iff mu hmu]
  rcases i with _ | _ | i
  · simp only [Nat.zero_add, Nat.zero_le, ↓reduceIte]
    constructor
    · rintro ⟨h1, h2, h3⟩; exact ⟨h1, h1, by simp [h2], by simp [h3]⟩
    · rintro ⟨h1, -, h2, h3⟩
      have h2' : ¬ bedAngle n dx z 0 < -mu := fun h => h2 (Or.inl h)
      exact ⟨h1, h2', h3.resolve_right fun h => h2' h.2.2.2⟩
  · simp only [Nat.zero_add, le_refl, ↓reduceIte, Nat.one_ne_zero, Nat.sub_self]
    constructor
    · rintro ⟨h1, h2, h3⟩; exact ⟨h1, by omega, by simp [h2], by simp [h3]⟩
    · rintro ⟨h1, -, h2, h3⟩
      have h2' : ¬ bedAngle n dx z 0 < -mu := fun h => h2 (Or.inl h)
      exact ⟨h1, h2', h3.resolve_right fun h => h2' h.2.2.2⟩
  · have e1 : i + 1 + 1 - 1 = i + 1 := rfl
    have e2 : i + 1 + 1 - 2 = i := rfl
    have e3 : i + 1 - 1 = i := rfl
    have e0 : ¬ i + 1 + 1 ≤ 1 := by omega
    have e4 : i + 1 + 1 ≠ 0 := by omega
    simp only [e0, e4, ↓reduceIte, e1, e2, e3]
    constructor
    · rintro ⟨h1, h2, h3, h4⟩
      exact ⟨h1, by omega, fun h => h.elim h3 fun h => h2 h.2.2.2, Or.inl h4⟩
    · rintro ⟨h1, -, h2, h3⟩
      have h2' : ¬ bedAngle n dx z (i + 1) < -mu := fun h => h2 (Or.inl h)
      refine ⟨h1, fun h => h2 (Or.inr ⟨by omega, by omega, h2', h⟩), h2', h3.resolve_right fun h => h2' h.2.2.2⟩

theorem isBubble_iff (S : SepInput) (hmu : 0 ≤ S.mu) (rows j i : ℕ) (hj : j < rows) (m : ℕ) (y : ℝ) :
    ((j, i) ∈ S.bubbles rows ∧ covers0 S (j, i) j m ∧ y = height0 S (j, i) m) ↔
      ∃ stop line, IsBubble S.cols S.dx S.x (S.z j) S.c S.mu i stop line ∧ i ≤ m ∧ m < stop ∧ y = line m := by
  have hs := startsAt_iff S.cols S.dx (S.z j) S.mu hmu i
  constructor
  · rintro ⟨hb, hc, hy⟩
    refine ⟨_, _, ⟨hs.mpr ((mem_bubbles S rows j i).mp hb).2.2, _, _, _, (isDrop_iff _ _ _ _ _).mpr rfl, rfl, rfl, rfl,
      fun m => rfl⟩, hc.2.1, hc.2.2, ?_⟩
    rw [hy]
    exact streamline_hermite _ _ _ _ _ (bubbleLength_pos _ _ _).ne'
  · rintro ⟨stop, line, ⟨hst, h, s, len, hd, hs', hl, hstop, hline⟩, h1, h2, hy⟩
    have hb := hs.mp hst
    have hh := (isDrop_iff _ _ _ _ _).mp hd
    subst hh hs' hl hstop
    refine ⟨(mem_bubbles S rows j i).mpr ⟨hj, ?_, hb⟩, ⟨rfl, h1, h2⟩, ?_⟩
    · have := hb.1; omega
    · rw [hy, hline]
      exact (streamline_hermite _ _ _ _ _ (bubbleLength_pos _ _ _).ne').symm

/-! ### The call -/

/-- Bed on the computational grid. -/
def bedOn (R C : ℕ) (g : ℕ → ℕ → ℝ × ℝ) (z : ℕ → ℕ → ℝ) (c : CGrid) (udir : ℝ) (q p : ℕ) : ℝ :=
  interpolate R C c.origin g z 0 (rotatePt (-(270 - udir)) c.origin (c.node q p))

/-- Roughness on the computational grid. -/
def roughOn (R C : ℕ) (g : ℕ → ℕ → ℝ × ℝ) (c : CGrid) (udir : ℝ) : Rough → ℕ → ℕ → ℝ
  | .scalar v => fun _ _ => v
  | .field f => fun q p => interpolate R C c.origin (fun j i => rotatePt (270 - udir) c.origin (g j i)) f 0 (c.node q p)

/-- Separation surface on the computational grid. -/
def surfaceOn (R C : ℕ) (g : ℕ → ℕ → ℝ × ℝ) (z : ℕ → ℕ → ℝ) (c : CGrid) (udir : ℝ) : Option SepParams →
    Except PyErr (Option (ℕ → ℕ → ℝ))
  | none => .ok none
  | some s => (SepInput.surface ⟨c.cols, c.dx, fun p => (c.node 0 p).1, (c.node 0 (c.cols - 1)).1, bedOn R C g z c udir, s.c, s.mu⟩
        c.rows s.iterations s.weights).map some

/-- The call with the rotations back and forth removed. -/
theorem call_eq (S : Settings) (R C : ℕ) (g : ℕ → ℕ → ℝ × ℝ) (z : ℕ → ℕ → ℝ) (u0 udir : ℝ) (sep : Option SepParams) (tau0 : ℝ × ℝ) :
    let c := computationalGrid R C g S.dx S.dy S.buffer udir
    call S R C g z u0 udir sep tau0 =
      match surfaceOn R C g z c udir sep with
      | .error e => .error e
      | .ok zs =>
        let field := stressField (bedOn R C g z c udir) zs (computeShear S.params c (roughOn R C g c udir S.rough) u0)
          (rotatePt (270 - udir) (0, 0) tau0)
        let gc := fun q p => rotatePt (-(270 - udir)) c.origin (c.node q p)
        .ok {
          taux := fun j i => interpolate c.rows c.cols c.origin gc
            (fun q p => (rotatePt (-(270 - udir)) (0, 0) (field q p)).1) tau0.1 (g j i)
          tauy := fun j i => interpolate c.rows c.cols c.origin gc
            (fun q p => (rotatePt (-(270 - udir)) (0, 0) (field q p)).2) tau0.2 (g j i)
          hsep := zs.map fun zs => fun j i => interpolate c.rows c.cols c.origin gc
            (fun q p => max (bedOn R C g z c udir q p) (zs q p) - bedOn R C g z c udir q p) 0 (g j i) } := by
  intro c
  unfold call
  dsimp only
  simp only [rotatePt_cancel, rotatePt_cancel']
  cases hr : S.rough <;> cases sep <;> rfl

/-- Component along the wind of the stress on the output grid. -/
theorem along_eq (rows cols : ℕ) (o : ℝ × ℝ) (gc : ℕ → ℕ → ℝ × ℝ) (φ : ℝ) (field : ℕ → ℕ → ℝ × ℝ) (tau0 pt : ℝ × ℝ) :
    rotatePt φ (0, 0) (interpolate rows cols o gc (fun q p => (rotatePt (-φ) (0, 0) (field q p)).1) tau0.1 pt,
      interpolate rows cols o gc (fun q p => (rotatePt (-φ) (0, 0) (field q p)).2) tau0.2 pt) =
    (interpolate rows cols o gc (fun q p => (field q p).1) (rotatePt φ (0, 0) tau0).1 pt,
      interpolate rows cols o gc (fun q p => (field q p).2) (rotatePt φ (0, 0) tau0).2 pt) := by
  have hf := fun q p => rotatePt_cancel φ (0, 0) (field q p)
  have h1 := fun q p => (congrArg Prod.fst (hf q p)).symm
  have h2 := fun q p => (congrArg Prod.snd (hf q p)).symm
  simp only [rotatePt_fst φ, rotatePt_snd φ] at h1 h2
  ext
  · rw [rotatePt_fst]
    dsimp only
    rw [sub_zero, sub_zero, add_zero, mul_comm (interpolate _ _ _ _ _ _ _), mul_comm (interpolate _ _ _ _ _ _ _),
      ← interpolate_linear, rotatePt_fst]
    congr 1
    · funext q p; rw [h1 q p]; ring
    · ring
  · rw [rotatePt_snd]
    dsimp only
    rw [sub_zero, sub_zero, add_zero, mul_comm (interpolate _ _ _ _ _ _ _), mul_comm (interpolate _ _ _ _ _ _ _),
      ← interpolate_linear, rotatePt_snd]
    congr 1
    · funext q p; rw [h2 q p]; ring
    · ring

end

end Aeolis.Shear
