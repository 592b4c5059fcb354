import Verif.Model.Separation1d
import Verif.Proofs.ShearStress

/-! Helper lemmas on the separation surface over a transect. -/

set_option linter.unusedSectionVars false

namespace Aeolis.Wind

open Aeolis.Shear Aeolis.Spec

noncomputable section

open Classical

theorem startsAt1_iff (n : ℕ) (dx : ℝ) (z : ℕ → ℝ) (mu : ℝ) (hmu : 0 ≤ mu) (i : ℕ) :
    StartsAt1 n dx z mu i ↔ bubble1 n mu (forwardAngle n dx z) i := by
  have key : ∀ k, SteepensAt n dx z mu (k + 1) ↔ brink0 n mu (forwardAngle n dx z) k := by
    intro k
    have e : forwardAngle n dx z = stepAngle n dx z := rfl
    rw [e]
    unfold SteepensAt brink0 stall
    simp only [steep_iff mu hmu, Nat.add_sub_cancel]
    constructor
    · rintro ⟨-, h2, h3, h4, h5⟩
      refine ⟨h2, fun h => h.elim h4 fun h => ?_, Or.inl h3⟩
      have := h5 (by omega)
      rw [show k + 1 - 2 = k - 1 by omega] at this
      exact this h.2.2.2
    · rintro ⟨h1, h2, h3⟩
      have h2' : ¬ stepAngle n dx z k < -mu := fun h => h2 (Or.inl h)
      refine ⟨by omega, h1, h3.resolve_right fun h => h2' h.2.2.2, h2', fun hk h => ?_⟩
      rw [show k + 1 - 2 = k - 1 by omega] at h
      exact h2 (Or.inr ⟨by omega, h1, h2', h⟩)
  unfold StartsAt1 bubble1
  rw [key (i + 2), key i]

theorem mem_bubbles1 (S : Sep1In) (i : ℕ) : i ∈ S.bubbles ↔ i < S.n ∧ bubble1 S.n S.mu (forwardAngle S.n S.dx S.z) i := by
  unfold Sep1In.bubbles
  simp

theorem starts_lt (n : ℕ) (dx : ℝ) (z : ℕ → ℝ) (mu : ℝ) (i : ℕ) (h : StartsAt1 n dx z mu i) : i < n := by
  unfold StartsAt1 SteepensAt at h
  split_ifs at h <;> omega

theorem mem_bubbles1' (S : Sep1In) (hmu : 0 ≤ S.mu) (i : ℕ) : i ∈ S.bubbles ↔ StartsAt1 S.n S.dx S.z S.mu i := by
  rw [mem_bubbles1, ← startsAt1_iff _ _ _ _ hmu]
  exact ⟨fun h => h.2, fun h => ⟨starts_lt _ _ _ _ _ h, h⟩⟩

theorem bubbleLength_le (c h s : ℝ) : bubbleLength c h s ≤ 200 := by
  unfold bubbleLength
  exact min_le_right _ _

/-- Nothing changes outside the reach of the bubbles. -/
theorem walk_outside (S : Sep1In) (hdx : 0 < S.dx) (m : ℕ) (l : List ℕ) (k : ℕ) (st : Sep1)
    (h : ∀ i ∈ l, m < i ∨ i + ⌊200 / S.dx⌋₊ ≤ m) : (S.walk k l st).zsep m = st.zsep m := by
  induction l generalizing k st with
  | nil => rfl
  | cons i l ih =>
    unfold Sep1In.walk
    rw [ih _ _ fun i hi => h i (List.mem_cons_of_mem _ hi)]
    unfold Sep1In.work
    dsimp only
    rw [if_neg]
    rintro ⟨h1, h2⟩
    rcases h i List.mem_cons_self with h3 | h3
    · omega
    · have h4 : ⌊bubbleLength S.c (brinkHeight S.z i (firstRise S.n (forwardAngle S.n S.dx S.z) i))
          ((S.z (i - 1) - S.z (i - 2)) / S.dx) / S.dx⌋₊ ≤ ⌊200 / S.dx⌋₊ :=
        Nat.floor_le_floor (div_le_div_of_nonneg_right (bubbleLength_le _ _ _) hdx.le)
      have := lt_min_iff.mp h2
      omega

theorem weights_sum (a : ℝ) :
    let e := Real.exp (-12.5) / (1 + 2 * Real.exp (-12.5))
    e * a + (1 - 2 * e) * a + e * a = a := by
  intro e
  ring

theorem surface_of_rows (S : Sep1In) (m : ℕ) (v : ℝ) (h : ∀ r, S.row r m = v) : S.surface m = max (S.z m) v := by
  unfold Sep1In.surface
  dsimp only
  simp only [h]
  rw [show Real.exp (-12.5) / (1 + 2 * Real.exp (-12.5)) * v + (1 - 2 * (Real.exp (-12.5) / (1 + 2 * Real.exp (-12.5)))) * v +
    Real.exp (-12.5) / (1 + 2 * Real.exp (-12.5)) * v = v by ring]
  split_ifs with h0
  · exact (max_eq_left h0.le).symm
  · exact (max_eq_right (not_lt.mp h0)).symm

/-- Row with one bubble. -/
theorem row_single (S : Sep1In) (i : ℕ) (hi : 2 ≤ i) (hb : S.bubbles = [i]) (r m : ℕ) :
    S.row r m = if i ≤ m ∧ m < min (i + ⌊bubbleLength S.c (brinkHeight S.z i (firstRise S.n (forwardAngle S.n S.dx S.z) i))
        ((S.z (i - 1) - S.z (i - 2)) / S.dx) / S.dx⌋₊) (S.n - 1) then
      max (if i ≤ m ∧ m < min (i + ⌊bubbleLength S.c (S.z i) 0 / S.dx⌋₊) (S.n - 1) then
        streamline (S.z i) 0 (bubbleLength S.c (S.z i) 0) (S.z i) (S.x m - S.x i) else 0) (S.z m) else S.z m := by
  unfold Sep1In.row
  rw [hb]
  unfold Sep1In.walk Sep1In.walk Sep1In.work
  dsimp only
  have h1 : ¬ (i ≤ i - 1) := by omega
  have h2 : ¬ (i ≤ i - 2) := by omega
  simp only [h1, h2, false_and, if_false, mul_zero, sub_zero, zero_div]

theorem oneTurn_spec (u : ℝ) (h1 : -180 < u) (h2 : u < 360) (h0 : u ≠ 0) (h180 : u ≠ 180) :
    (180 < u ∧ oneTurn u = u) ∨ (u < 0 ∧ oneTurn u = u + 360) ∨ (0 < u ∧ u < 180 ∧ oneTurn u = u) := by
  unfold oneTurn
  dsimp only
  rw [if_pos h2]
  rcases lt_trichotomy u 0 with h | h | h
  · rw [if_neg (by linarith)]
    exact Or.inr (Or.inl ⟨h, rfl⟩)
  · exact absurd h h0
  · rw [if_pos (by linarith), add_sub_cancel_right]
    rcases lt_trichotomy u 180 with h' | h' | h'
    · exact Or.inr (Or.inr ⟨h, h', rfl⟩)
    · exact absurd h' h180
    · exact Or.inl ⟨h', rfl⟩

theorem cos_pos_deg (a : ℝ) (h0 : 0 ≤ a) (h : a < 90) : 0 < Real.cos (a * Real.pi / 180) := by
  have := Real.pi_pos
  refine Real.cos_pos_of_mem_Ioo ⟨?_, ?_⟩
  · have : 0 ≤ a * Real.pi / 180 := by positivity
    linarith
  · nlinarith

theorem alongWind_ge (dx u : ℝ) (hdx : 0 < dx) (h1 : -180 < u) (h2 : u < 360) (h0 : u ≠ 0) (h180 : u ≠ 180) :
    dx ≤ (alongWind dx u).1 := by
  have key : ∀ a : ℝ, 0 ≤ a → a < 90 → dx ≤ dx / Real.cos (a * Real.pi / 180) := by
    intro a ha hb
    rw [le_div_iff₀ (cos_pos_deg a ha hb)]
    exact mul_le_of_le_one_right hdx.le (Real.cos_le_one _)
  unfold alongWind
  dsimp only
  rcases oneTurn_spec u h1 h2 h0 h180 with ⟨h, e⟩ | ⟨h, e⟩ | ⟨h, h', e⟩ <;> rw [e]
  · rw [if_pos ⟨h, h2⟩]
    exact key _ (abs_nonneg _) (abs_lt.mpr ⟨by linarith, by linarith⟩)
  · rw [if_pos ⟨by linarith, by linarith⟩]
    exact key _ (abs_nonneg _) (abs_lt.mpr ⟨by linarith, by linarith⟩)
  · rw [if_neg (fun hh => by linarith [hh.1]), if_neg (by rintro (hh | hh) <;> linarith)]
    exact key _ (abs_nonneg _) (abs_lt.mpr ⟨by linarith, by linarith⟩)

end

end Aeolis.Wind
