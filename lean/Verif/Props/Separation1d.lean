import Verif.Proofs.Separation1d

/-! Property theorems on the separation surface over a transect: C113. -/

set_option linter.unusedSectionVars false

namespace Aeolis.Props

open Aeolis.Spec Aeolis.Shear Aeolis.Wind

noncomputable section

open Classical

/-- C113 The separation surface is nowhere below the bed. -/
theorem C113_above_bed (nx : ℕ) (dx : ℝ) (x : ℕ → ℝ) (xmax : ℝ) (z : ℕ → ℝ) (c mu udir : ℝ) (i : ℕ) (hi : i ≤ nx) :
    z i ≤ separation1d nx dx x xmax z c mu udir i := by
  have key : ∀ (S : Sep1In) (m : ℕ), S.z m ≤ S.surface m := by
    intro S m
    unfold Sep1In.surface
    dsimp only
    split_ifs with h
    · exact le_rfl
    · exact not_lt.mp h
  unfold separation1d
  cases h : (alongWind dx udir).2
  · exact key ⟨nx + 1, _, x, xmax, z, c, mu⟩ i
  · refine le_of_eq_of_le ?_ (key ⟨nx + 1, (alongWind dx udir).1, x, xmax, mirror nx z, c, mu⟩ (nx - i))
    show z i = z (nx - (nx - i))
    congr 1
    omega

/-- C113 Where the bed is nowhere steeper than `mu` degrees there is no separation, whatever the direction of the wind (other than
exactly alongshore). -/
theorem C113_gentle (nx : ℕ) (hnx : 2 ≤ nx) (dx : ℝ) (hdx : 0 < dx) (x : ℕ → ℝ) (xmax : ℝ) (z : ℕ → ℝ) (c mu udir : ℝ) (hmu : 0 ≤ mu)
    (hmu' : mu < 90) (hz : ∀ i < nx, |z (i + 1) - z i| ≤ Real.tan (mu / 180 * Real.pi) * dx) (h1 : -180 < udir) (h2 : udir < 360)
    (h0 : udir ≠ 0) (h180 : udir ≠ 180) (i : ℕ) (hi : i ≤ nx) : separation1d nx dx x xmax z c mu udir i = z i := by
  have hpi := Real.pi_pos
  have hD := alongWind_ge dx udir hdx h1 h2 h0 h180
  have key : ∀ w : ℕ → ℝ, (∀ i < nx, |w (i + 1) - w i| ≤ Real.tan (mu / 180 * Real.pi) * dx) → ∀ m,
      Sep1In.surface ⟨nx + 1, (alongWind dx udir).1, x, xmax, w, c, mu⟩ m = w m := by
    intro w hw m
    have hnot : ∀ k, ¬ SteepensAt (nx + 1) (alongWind dx udir).1 w mu k := by
      rintro k ⟨-, hk, hs, -⟩
      refine absurd hs (not_lt.mpr ?_)
      unfold stepAngle
      dsimp only
      obtain ⟨k', hk', hlt⟩ : ∃ k', (if k = 0 then 1 else if k + 1 = nx + 1 then nx + 1 - 2 else k) = k' ∧ k' < nx := by
        refine ⟨_, rfl, ?_⟩
        split_ifs <;> omega
      rw [hk']
      have hDpos : 0 < (alongWind dx udir).1 := hdx.trans_le hD
      have ht : 0 ≤ Real.tan (mu / 180 * Real.pi) :=
        Real.tan_nonneg_of_nonneg_of_le_pi_div_two (by positivity) (by nlinarith)
      have hq : -Real.tan (mu / 180 * Real.pi) ≤ (w (k' + 1) - w k') / (alongWind dx udir).1 := by
        rw [le_div_iff₀ hDpos]
        have := (abs_le.mp (hw k' hlt)).1
        nlinarith [mul_le_mul_of_nonneg_left hD ht]
      have ha := Real.arctan_strictMono.monotone hq
      rw [Real.arctan_neg, Real.arctan_tan (by nlinarith [mul_nonneg hmu hpi.le]) (by nlinarith)] at ha
      rw [le_div_iff₀ hpi]
      nlinarith
    have hb : Sep1In.bubbles ⟨nx + 1, (alongWind dx udir).1, x, xmax, w, c, mu⟩ = [] := by
      rw [List.eq_nil_iff_forall_not_mem]
      intro k hk
      have := (mem_bubbles1' _ hmu k).mp hk
      unfold StartsAt1 at this
      obtain ⟨-, h⟩ := this
      split_ifs at h
      · exact hnot _ h
      · exact hnot _ h
    rw [surface_of_rows _ m (w m)]
    · exact max_self _
    · intro r
      unfold Sep1In.row
      rw [hb]
      rfl
  unfold separation1d
  cases h : (alongWind dx udir).2
  · exact key z hz i
  · show Sep1In.surface _ (nx - i) = z i
    simp only [if_true]
    rw [key (mirror nx z)]
    · unfold mirror
      congr 1
      omega
    · intro k hk
      unfold mirror
      have := hz (nx - (k + 1)) (by omega)
      rw [show nx - (k + 1) + 1 = nx - k by omega, abs_sub_comm] at this
      exact this

/-- C113 A wind from the opposite side over the mirrored bed gives the mirrored surface. -/
theorem C113_mirror (nx : ℕ) (dx : ℝ) (x : ℕ → ℝ) (xmax : ℝ) (z : ℕ → ℝ) (c mu udir : ℝ) (h0 : 0 < udir) (h1 : udir < 180) (i : ℕ)
    (hi : i ≤ nx) :
    separation1d nx dx x xmax (mirror nx z) c mu (360 - udir) i = mirror nx (separation1d nx dx x xmax z c mu udir) i := by
  have e1 : oneTurn udir = udir := by
    unfold oneTurn
    dsimp only
    rw [if_pos (show _ < (360 : ℝ) by linarith), if_pos (by linarith)]
    ring
  have e2 : oneTurn (360 - udir) = 360 - udir := by
    unfold oneTurn
    dsimp only
    rw [if_pos (show _ < (360 : ℝ) by linarith), if_pos (by linarith)]
    ring
  have a1 : alongWind dx udir = (dx / Real.cos (|udir - 90| * Real.pi / 180), true) := by
    unfold alongWind
    rw [e1, if_neg (fun h => by linarith [h.1]), if_neg (by rintro (h | h) <;> linarith)]
  have a2 : alongWind dx (360 - udir) = (dx / Real.cos (|udir - 90| * Real.pi / 180), false) := by
    unfold alongWind
    rw [e2, if_pos ⟨by linarith, by linarith⟩, show 360 - udir - 270 = -(udir - 90) by ring, abs_neg]
  unfold separation1d
  rw [a1, a2]
  dsimp only
  simp only [if_true]
  show _ = Sep1In.surface _ (nx - (nx - i))
  rw [show nx - (nx - i) = i by omega]
  rfl

/-- C113 The surface differs from the bed only downwind of points where a bubble begins, at most 200 m. -/
theorem C113_reach (S : Sep1In) (hmu : 0 ≤ S.mu) (hdx : 0 < S.dx) (m : ℕ)
    (h : ∀ i, StartsAt1 S.n S.dx S.z S.mu i → m < i ∨ i + ⌊200 / S.dx⌋₊ ≤ m) : S.surface m = S.z m := by
  rw [surface_of_rows S m (S.z m)]
  · exact max_self _
  · intro r
    unfold Sep1In.row
    rw [walk_outside S hdx m _ _ _ fun i hi => h i ((mem_bubbles1' S hmu i).mp hi)]

/-- C113 One bubble: the surface is the maximum of the bed and a cubic that leaves the brink horizontally and reaches datum level
(not the foot of the slope) after `len1`; from there to the end of the bubble the bed is filled up to datum. The slope upwind of the
brink and the height above the foot enter the extent of the bubble only. -/
theorem C113_single (S : Sep1In) (hmu : 0 ≤ S.mu) (i : ℕ) (h1 : ∀ k, StartsAt1 S.n S.dx S.z S.mu k ↔ k = i) (h s len len1 : ℝ)
    (hh : IsDrop (stepAngle S.n S.dx S.z) S.n S.z i h) (hs : s = (S.z (i - 1) - S.z (i - 2)) / S.dx)
    (hlen : len = min (max (3 * h / (2 * S.c) * (1 + s / S.c / 4 + (s / S.c) ^ 2 / 8)) 0.1) 200)
    (hlen1 : len1 = min (max (3 * S.z i / (2 * S.c)) 0.1) 200) (m : ℕ) :
    S.surface m =
      if i ≤ m ∧ m < min (i + ⌊len / S.dx⌋₊) (S.n - 1) then
        if m < min (i + ⌊len1 / S.dx⌋₊) (S.n - 1) then max (S.z m) (hermite (S.z i) 0 (S.z i) len1 (S.x m - S.x i))
        else max (S.z m) 0
      else S.z m := by
  have hi : 2 ≤ i := ((h1 i).mpr rfl).1
  have hb : S.bubbles = [i] := by
    have hmem : ∀ k, k ∈ S.bubbles ↔ k = i := fun k => (mem_bubbles1' S hmu k).trans (h1 k)
    have hnd : S.bubbles.Nodup := by
      unfold Sep1In.bubbles
      exact List.Nodup.filter _ List.nodup_range
    have := List.perm_of_nodup_nodup_toFinset_eq hnd (List.nodup_singleton i) (by ext k; simp [hmem k])
    exact List.perm_singleton.mp this
  have hd := (isDrop_iff _ _ _ _ _).mp hh
  have hl : len = bubbleLength S.c h s := hlen
  have hl1 : len1 = bubbleLength S.c (S.z i) 0 := by
    rw [hlen1]; unfold bubbleLength; dsimp only; rw [zero_div, zero_div]; norm_num
  have hrow := fun r => row_single S i hi hb r m
  rw [surface_of_rows S m _ hrow]
  rw [show brinkHeight S.z i (firstRise S.n (forwardAngle S.n S.dx S.z) i) = h from hd.symm, ← hs, ← hl, ← hl1]
  by_cases hc : i ≤ m ∧ m < min (i + ⌊len / S.dx⌋₊) (S.n - 1)
  · rw [if_pos hc, if_pos hc]
    by_cases hc1 : m < min (i + ⌊len1 / S.dx⌋₊) (S.n - 1)
    · rw [if_pos ⟨hc.1, hc1⟩, if_pos hc1, streamline_hermite _ _ _ _ _ (by rw [hl1]; exact (bubbleLength_pos _ _ _).ne')]
      rw [max_comm _ (S.z m), ← max_assoc, max_self]
    · rw [if_neg (fun h => hc1 h.2), if_neg hc1, max_comm 0 (S.z m), ← max_assoc, max_self]
  · rw [if_neg hc, if_neg hc, max_self]

/-- Extent of a bubble from the height `h` and the slope `s` upwind, with slope parameter `c`; between 0.1 and 200 m. -/
def extent1 (c h s : ℝ) : ℝ := min (max (3 * h / (2 * c) * (1 + s / c / 4 + (s / c) ^ 2 / 8)) 0.1) 200

/-- C113 Two bubbles.  Where they do not overlap each is as if it were alone.  The second covers the first where they do; its cubic leaves the brink with the
slope of the streamline of the first one there, damped by two Gaussian factors that depend on the number of the bubble, counted through the three equal rows, and not on
its wave number.  The rows are averaged with the weights of a Gaussian with standard deviation 0.2. -/
theorem C113_two (S : Sep1In) (hmu : 0 ≤ S.mu) (i j : ℕ) (hij : i < j) (h2 : ∀ k, StartsAt1 S.n S.dx S.z S.mu k ↔ k = i ∨ k = j) (hi hj : ℝ)
    (hhi : IsDrop (stepAngle S.n S.dx S.z) S.n S.z i hi) (hhj : IsDrop (stepAngle S.n S.dx S.z) S.n S.z j hj) (m : ℕ) :
    let si := (S.z (i - 1) - S.z (i - 2)) / S.dx
    let leni := extent1 S.c hi si
    let endi := min (i + ⌊leni / S.dx⌋₊) (S.n - 1)
    let endj := min (j + ⌊extent1 S.c hj ((S.z (j - 1) - S.z (j - 2)) / S.dx) / S.dx⌋₊) (S.n - 1)
    let line := fun k => if i ≤ k ∧ k < endi then hermite (S.z i) si hi leni (S.x k - S.x i) else 0
    let damp := fun k : ℕ => Real.exp (-(2 * Real.pi / S.xmax * k * S.dx) ^ 2 / 4.5)
    let slope := fun r : ℕ => damp (2 * r + 1) * damp (2 * r) * (line (j - 1) - line (j - 2)) / S.dx
    let first := if i ≤ m ∧ m < min (i + ⌊extent1 S.c (S.z i) 0 / S.dx⌋₊) (S.n - 1) then
      hermite (S.z i) 0 (S.z i) (extent1 S.c (S.z i) 0) (S.x m - S.x i) else 0
    let row := fun r : ℕ =>
      if j ≤ m ∧ m < endj then
        max (S.z m) (if m < min (j + ⌊extent1 S.c (S.z j) (slope r) / S.dx⌋₊) (S.n - 1) then
          hermite (S.z j) (slope r) (S.z j) (extent1 S.c (S.z j) (slope r)) (S.x m - S.x j) else first)
      else if i ≤ m ∧ m < endi then max (S.z m) first else S.z m
    let e := Real.exp (-12.5) / (1 + 2 * Real.exp (-12.5))
    S.surface m = max (S.z m) (e * row 0 + (1 - 2 * e) * row 1 + e * row 2) := by
  intro si leni endi endj line damp slope first row e
  have hi2 : 2 ≤ i := ((h2 i).mpr (Or.inl rfl)).1
  have hb : S.bubbles = [i, j] := by
    have hmem : ∀ k, k ∈ S.bubbles ↔ k = i ∨ k = j := fun k => (mem_bubbles1' S hmu k).trans (h2 k)
    have hnd : S.bubbles.Nodup := by
      unfold Sep1In.bubbles
      exact List.Nodup.filter _ List.nodup_range
    have hp := List.perm_of_nodup_nodup_toFinset_eq hnd (l' := [i, j]) (by simp [hij.ne]) (by ext k; simp [hmem k])
    refine List.Perm.eq_of_pairwise' (r := (· < ·)) ?_ ?_ hp
    · unfold Sep1In.bubbles
      exact List.Pairwise.filter _ List.pairwise_lt_range
    · simp [hij]
  have hrow : ∀ r, S.row r m = row r := by
    intro r
    have hdi : brinkHeight S.z i (firstRise S.n (forwardAngle S.n S.dx S.z) i) = hi := ((isDrop_iff _ _ _ _ _).mp hhi).symm
    have hdj : brinkHeight S.z j (firstRise S.n (forwardAngle S.n S.dx S.z) j) = hj := ((isDrop_iff _ _ _ _ _).mp hhj).symm
    have a1 : ¬ (i ≤ i - 1) := by omega
    have a2 : ¬ (i ≤ i - 2) := by omega
    have a3 : ¬ (j ≤ j - 1) := by omega
    have a4 : ¬ (j ≤ j - 2) := by omega
    have hbl : ∀ c h s, bubbleLength c h s = extent1 c h s := fun _ _ _ => rfl
    have hst : ∀ c h s k start x, streamline k s (extent1 c h s) start x = hermite start s k (extent1 c h s) x :=
      fun c h s k start x => streamline_hermite _ _ _ _ _ (by rw [← hbl]; exact (bubbleLength_pos _ _ _).ne')
    have hsl : (damp (2 * r + 1) * (damp (2 * r) * line (j - 1)) - damp (2 * r + 1) * (damp (2 * r) * line (j - 2))) / S.dx = slope r := by
      show _ = damp (2 * r + 1) * damp (2 * r) * (line (j - 1) - line (j - 2)) / S.dx
      ring
    have hd : ∀ k : ℕ, Real.exp (-(2 * Real.pi / S.xmax * (k : ℝ) * S.dx) ^ 2 / (2 * 1.5 ^ 2)) = damp k := by
      intro k
      show _ = Real.exp (-(2 * Real.pi / S.xmax * k * S.dx) ^ 2 / 4.5)
      norm_num
    unfold Sep1In.row
    rw [hb]
    unfold Sep1In.walk Sep1In.walk Sep1In.walk Sep1In.work
    dsimp only
    simp only [hdi, hdj, hbl, hst, List.length_cons, List.length_nil, a1, a2, a3, a4, false_and, if_false, mul_zero, sub_zero, zero_div, hd]
    have key : ∀ q, q = slope r → (if j ≤ m ∧ m < endj then
        max (if j ≤ m ∧ m < min (j + ⌊extent1 S.c (S.z j) q / S.dx⌋₊) (S.n - 1) then
          hermite (S.z j) q (S.z j) (extent1 S.c (S.z j) q) (S.x m - S.x j) else first) (S.z m)
        else if i ≤ m ∧ m < endi then max first (S.z m) else S.z m) = row r := by
      rintro q rfl
      show _ = if j ≤ m ∧ m < endj then
        max (S.z m) (if m < min (j + ⌊extent1 S.c (S.z j) (slope r) / S.dx⌋₊) (S.n - 1) then
          hermite (S.z j) (slope r) (S.z j) (extent1 S.c (S.z j) (slope r)) (S.x m - S.x j) else first)
        else if i ≤ m ∧ m < endi then max (S.z m) first else S.z m
      split_ifs with b1 b2 b3 b4 b5
      · exact max_comm _ _
      · exact absurd b2.2 b3
      · exact absurd ⟨b1.1, b4⟩ b2
      · exact max_comm _ _
      · exact max_comm _ _
      · rfl
    refine key _ ?_
    show (damp (r * 2 + 1) * (damp (r * 2) * line (j - 1)) - damp (r * 2 + 1) * (damp (r * 2) * line (j - 2))) / S.dx = slope r
    rw [mul_comm r 2]
    exact hsl
  unfold Sep1In.surface
  dsimp only
  rw [hrow, hrow, hrow]
  show (if e * row 0 + (1 - 2 * e) * row 1 + e * row 2 < S.z m then S.z m else e * row 0 + (1 - 2 * e) * row 1 + e * row 2) = _
  split_ifs with h0
  · exact (max_eq_left h0.le).symm
  · exact (max_eq_right (not_lt.mp h0)).symm

/-- C113 For wind exactly at right angles to the transect the distance between points is ignored: the surface is the same for every cell
size, so that any descent of the bed by more than a fraction of a millimetre from point to point counts as a steep slope. -/
theorem C113_alongshore (nx : ℕ) (dx dx' : ℝ) (x : ℕ → ℝ) (xmax : ℝ) (z : ℕ → ℝ) (c mu udir : ℝ) (hu : udir = 0 ∨ udir = 180) :
    separation1d nx dx x xmax z c mu udir = separation1d nx dx' x xmax z c mu udir := by
  have e : ∀ d, alongWind d udir = (0.0001, false) := by
    intro d
    have ht : oneTurn udir = 360 ∨ oneTurn udir = 180 := by
      unfold oneTurn
      rcases hu with h | h <;> norm_num [h]
    unfold alongWind
    rcases ht with h | h <;> norm_num [h]
  unfold separation1d
  rw [e, e]

/-- A gentle slope meets the conditions of `C113_gentle`. -/
example (c : ℝ) (i : ℕ) (hi : i ≤ 20) :
    separation1d 20 1 (fun i => i) 20 (fun i => 2 - 0.1 * i) c 30 250 i = 2 - 0.1 * i := by
  refine C113_gentle 20 (by norm_num) 1 (by norm_num) _ 20 _ c 30 250 (by norm_num) (by norm_num) ?_ (by norm_num) (by norm_num)
    (by norm_num) (by norm_num) i hi
  intro k _
  have h : (30 : ℝ) / 180 * Real.pi = Real.pi / 6 := by ring
  rw [h, Real.tan_pi_div_six]
  push_cast
  rw [show (2 - 0.1 * ((k : ℝ) + 1) - (2 - 0.1 * (k : ℝ))) = -0.1 by ring, abs_neg, abs_of_pos (by norm_num), mul_one,
    le_div_iff₀ (by positivity)]
  have : Real.sqrt 3 ≤ 2 := by
    rw [Real.sqrt_le_left (by norm_num)]; norm_num
  linarith

/-- A scarp of 5 m eight points from the sea. -/
def scarp (i : ℕ) : ℝ := if i ≤ 7 then 5 else 0

theorem scarp_angle (k : ℕ) : stepAngle 30 1 scarp k = if k = 7 then Real.arctan (-5) * 180 / Real.pi else 0 := by
  unfold stepAngle scarp
  dsimp only
  by_cases h0 : k = 0
  · subst h0; norm_num
  by_cases h1 : k + 1 = 30
  · obtain rfl : k = 29 := by omega
    norm_num
  rw [if_neg h0, if_neg h1]
  rcases lt_trichotomy k 7 with h | h | h
  · rw [if_pos (by omega), if_pos (by omega), if_neg (by omega)]; simp
  · subst h; norm_num
  · rw [if_neg (by omega), if_neg (by omega), if_neg (by omega)]; simp

theorem scarp_steep (k : ℕ) : stepAngle 30 1 scarp k < -30 ↔ k = 7 := by
  rw [scarp_angle]
  split_ifs with h
  · refine ⟨fun _ => h, fun _ => ?_⟩
    have h1 : Real.pi / 4 < Real.arctan 5 := by
      rw [← Real.arctan_one]; exact Real.arctan_strictMono (by norm_num)
    rw [Real.arctan_neg, div_lt_iff₀ Real.pi_pos]
    nlinarith [Real.pi_pos]
  · exact ⟨fun h' => by norm_num at h', fun h' => absurd h' h⟩

/-- It meets the conditions of `C113_single`: one bubble, from the fifth point. -/
example : (∀ k, StartsAt1 30 1 scarp 30 k ↔ k = 4) ∧ IsDrop (stepAngle 30 1 scarp) 30 scarp 4 5 := by
  have hs : ∀ k, SteepensAt 30 1 scarp 30 k ↔ k = 7 := by
    intro k
    unfold SteepensAt
    simp only [scarp_steep]
    omega
  constructor
  · intro k
    unfold StartsAt1
    simp only [hs]
    split_ifs <;> omega
  · left
    refine ⟨9, by norm_num, by norm_num, ?_, ?_, ?_⟩
    · rw [scarp_angle, if_neg (by norm_num)]
    · intro k h1 h2; omega
    · norm_num [scarp]

/-- Two scarps of 5 m. -/
def scarps (i : ℕ) : ℝ := if i ≤ 7 then 10 else if i ≤ 15 then 5 else 0

theorem scarps_angle (k : ℕ) : stepAngle 30 1 scarps k = if k = 7 ∨ k = 15 then Real.arctan (-5) * 180 / Real.pi else 0 := by
  unfold stepAngle scarps
  dsimp only
  by_cases h0 : k = 0
  · subst h0; norm_num
  by_cases h1 : k + 1 = 30
  · obtain rfl : k = 29 := by omega
    norm_num
  rw [if_neg h0, if_neg h1]
  by_cases h7 : k = 7
  · subst h7; norm_num
  by_cases h15 : k = 15
  · subst h15; norm_num
  rw [if_neg (not_or.mpr ⟨h7, h15⟩)]
  have : (if k + 1 ≤ 7 then (10 : ℝ) else if k + 1 ≤ 15 then 5 else 0) = if k ≤ 7 then 10 else if k ≤ 15 then 5 else 0 := by
    split_ifs <;> first | rfl | omega
  rw [this]
  simp

/-- They meet the conditions of `C113_two`: bubbles from the fifth and the thirteenth point. -/
example : (∀ k, StartsAt1 30 1 scarps 30 k ↔ k = 4 ∨ k = 12) ∧ IsDrop (stepAngle 30 1 scarps) 30 scarps 4 5 ∧
    IsDrop (stepAngle 30 1 scarps) 30 scarps 12 5 := by
  have hsteep : ∀ k, stepAngle 30 1 scarps k < -30 ↔ k = 7 ∨ k = 15 := by
    intro k
    rw [scarps_angle]
    split_ifs with h
    · refine ⟨fun _ => h, fun _ => ?_⟩
      have h1 : Real.pi / 4 < Real.arctan 5 := by
        rw [← Real.arctan_one]; exact Real.arctan_strictMono (by norm_num)
      rw [Real.arctan_neg, div_lt_iff₀ Real.pi_pos]
      nlinarith [Real.pi_pos]
    · exact ⟨fun h' => by norm_num at h', fun h' => absurd h' h⟩
  have hs : ∀ k, SteepensAt 30 1 scarps 30 k ↔ k = 7 ∨ k = 15 := by
    intro k
    unfold SteepensAt
    simp only [hsteep]
    omega
  refine ⟨fun k => ?_, Or.inl ⟨9, by norm_num, by norm_num, ?_, fun k h1 h2 => by omega, by norm_num [scarps]⟩,
    Or.inl ⟨17, by norm_num, by norm_num, ?_, fun k h1 h2 => by omega, by norm_num [scarps]⟩⟩
  · unfold StartsAt1
    simp only [hs]
    split_ifs <;> omega
  · rw [scarps_angle, if_neg (by norm_num)]
  · rw [scarps_angle, if_neg (by norm_num)]

end

end Aeolis.Props
