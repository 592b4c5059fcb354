import Verif.Model.Coupled
import Verif.Props.Hydro
import Mathlib.Tactic

/-!
C130: runs coupled to another model for water levels and waves (parameter `external_vars`).
-/

set_option linter.unusedSectionVars false

namespace Aeolis.Props

open Aeolis.Hydro

noncomputable section

open Classical

/-- Square of the distance between two cells in rows and columns. -/
def cellDist (a b : ℕ × ℕ) : ℤ := ((a.1 : ℤ) - b.1) ^ 2 + ((a.2 : ℤ) - b.2) ^ 2

theorem cellDist_self (a : ℕ × ℕ) : cellDist a a = 0 := by simp [cellDist]

theorem cellDist_eq {a b : ℕ × ℕ} (h : cellDist a b ≤ 0) : b = a := by
  unfold cellDist at h
  have h1 := sq_nonneg ((a.1 : ℤ) - b.1)
  have h2 := sq_nonneg ((a.2 : ℤ) - b.2)
  have e1 : ((a.1 : ℤ) - b.1) ^ 2 = 0 := by omega
  have e2 : ((a.2 : ℤ) - b.2) ^ 2 = 0 := by omega
  have e1 := pow_eq_zero_iff (two_ne_zero) |>.mp e1
  have e2 := pow_eq_zero_iff (two_ne_zero) |>.mp e2
  ext <;> omega

/-- What the interpolator of the library does: return one of the nearest cells. -/
def NearestCell (near : (ℕ × ℕ → Prop) → ℕ × ℕ → ℕ × ℕ) : Prop :=
  ∀ S x, (∃ y, S y) → S (near S x) ∧ ∀ y, S y → cellDist x (near S x) ≤ cellDist x y

/-- There is such a function. -/
theorem nearestCell_exists : ∃ near, NearestCell near := by
  have key : ∀ (S : ℕ × ℕ → Prop) (x : ℕ × ℕ), ∃ z, (∃ y, S y) → S z ∧ ∀ y, S y → cellDist x z ≤ cellDist x y := by
    intro S x
    by_cases h : ∃ y, S y
    · have h' : ∃ n : ℕ, ∃ y, S y ∧ (cellDist x y).toNat = n := by
        obtain ⟨y, hy⟩ := h; exact ⟨_, y, hy, rfl⟩
      obtain ⟨z, hz, hn⟩ := Nat.find_spec h'
      refine ⟨z, fun _ => ⟨hz, fun y hy => ?_⟩⟩
      have := Nat.find_min' h' ⟨y, hy, rfl⟩
      have nn : ∀ y, 0 ≤ cellDist x y := fun y => by unfold cellDist; positivity
      have a := nn z; have b := nn y
      omega
    · exact ⟨x, fun h' => absurd h' h⟩
  choose near hnear using key
  exact ⟨near, fun S x h => hnear S x h⟩

/-- Level the other model delivered, after the mask. -/
def deliveredLevel (g : ℕ → Row) (ws : ℕ → Water) (x : ℕ × ℕ) : ℝ :=
  (ws x.1).zs x.2 * ((g x.1).tideMask x.2).1 + ((g x.1).tideMask x.2).2

/-- A cell of the grid under water by more than twice the tolerance. -/
def DeliveredWet (c : CoupledConfig) (g : ℕ → Row) (ws : ℕ → Water) (x : ℕ × ℕ) : Prop :=
  x.1 < c.rows ∧ x.2 < c.cols ∧ 2 * c.eps < deliveredLevel g ws x - (g x.1).zb x.2

theorem extWet_iff (c : CoupledConfig) (g : ℕ → Row) (ws : ℕ → Water) (x : ℕ × ℕ) :
    extWet c g ws x ↔ DeliveredWet c g ws x := Iff.rfl

theorem coupledRow_ok {c : CoupledConfig} {g : ℕ → Row} {t : ℝ} {ws : ℕ → Water} {i : ℕ} {w' : Water}
    (h : coupledRow c g t ws i = some (.ok w')) :
    ∃ SWL Hs Tp Hm, coupledStill c g t ws i = some (.ok SWL) ∧ coupledWaves c (g i) t SWL (ws i) = .ok (Hs, Tp) ∧
      mixing c.water (g i) t (coupledRunup c (g i) { ws i with SWL := SWL, Hs := Hs, Tp := Tp }) = .ok Hm ∧
      w' = { coupledRunup c (g i) { ws i with SWL := SWL, Hs := Hs, Tp := Tp } with
        Hsmix := Hm, zs := fun j => if SWL j < (g i).zb j then (g i).zb j else SWL j } := by
  have hS : ∀ w : Water, (coupledRunup c (g i) w).SWL = w.SWL := by
    intro w; unfold coupledRunup runup; split_ifs <;> rfl
  unfold coupledRow at h
  split at h
  · simp at h
  · simp at h
  · rename_i SWL hs
    split at h
    · simp at h
    · rename_i Hs Tp hw
      simp only at h
      split at h
      · simp at h
      · rename_i Hm hm
        simp only [Option.some.injEq, Except.ok.injEq] at h
        refine ⟨SWL, Hs, Tp, Hm, hs, hw, hm, ?_⟩
        rw [← h]
        simp only [hS]

/-- **Without other model** every row is treated as described for a single row. -/
theorem C130_uncoupled (c : CoupledConfig) (g : ℕ → Row) (t : ℝ) (ws : ℕ → Water) (i : ℕ)
    (h1 : c.extZs = false) (h2 : c.extHs = false) (h3 : c.extTp = false) :
    coupledRow c g t ws i = some (interpolate c.water (g i) t (ws i)) := by
  unfold coupledRow coupledStill coupledWaves coupledRunup interpolate
  simp only [h1, h2, h3, Bool.false_eq_true, and_false, or_self, if_false]
  cases stillWater c.water (g i) t with
  | error e => rfl
  | ok SWL =>
    simp only
    cases waves c.water (g i) t SWL with
    | error e => rfl
    | ok p =>
      obtain ⟨Hs, Tp⟩ := p
      simp only
      cases mixing c.water (g i) t (runup c.water (g i) { ws i with SWL := SWL, Hs := Hs, Tp := Tp }) <;> rfl

/-- **Water levels from another model**: with tides on, the level of each cell is the delivered one (after the mask) of a nearest wet cell;
wet cells keep their own.  It is impossible exactly if no cell is wet. -/
theorem C130_levels (c : CoupledConfig) (hn : NearestCell c.near) (g : ℕ → Row) (t : ℝ) (ws : ℕ → Water) (i : ℕ)
    (htide : c.water.processTide = true) (hz : c.extZs = true) :
    (coupledRow c g t ws i = none ↔ ¬ ∃ x, DeliveredWet c g ws x) ∧
    ∀ w', coupledRow c g t ws i = some (.ok w') → ∀ j,
      (∃ y, DeliveredWet c g ws y ∧ (∀ x, DeliveredWet c g ws x → cellDist (i, j) y ≤ cellDist (i, j) x) ∧
        w'.SWL j = deliveredLevel g ws y) ∧
      (DeliveredWet c g ws (i, j) → w'.SWL j = deliveredLevel g ws (i, j)) ∧
      w'.zs j = max (w'.SWL j) ((g i).zb j) := by
  constructor
  · unfold coupledRow coupledStill extStill
    simp only [htide, hz, and_self, if_true]
    by_cases h : ∃ x, extWet c g ws x
    · simp only [h, if_true]
      constructor
      · intro h'
        exfalso
        split at h'
        · simp at h'
        · split at h' <;> simp at h'
      · intro h'; exact absurd h h'
    · simp only [h, if_false, true_iff]
      exact h
  · intro w' hw j
    obtain ⟨SWL, Hs, Tp, Hm, hs, -, -, rfl⟩ := coupledRow_ok hw
    have hR : (coupledRunup c (g i) { ws i with SWL := SWL, Hs := Hs, Tp := Tp }).SWL = SWL := by
      unfold coupledRunup runup; split_ifs <;> rfl
    unfold coupledStill extStill at hs
    simp only [htide, hz, and_self, if_true] at hs
    by_cases h : ∃ x, extWet c g ws x
    · simp only [h, if_true, Option.some.injEq, Except.ok.injEq] at hs
      obtain ⟨m1, m2⟩ := hn _ (i, j) h
      have hj : SWL j = deliveredLevel g ws (c.near (extWet c g ws) (i, j)) := by rw [← hs]; rfl
      refine ⟨⟨_, m1, m2, ?_⟩, ?_, ?_⟩
      · show (coupledRunup c (g i) _).SWL j = _
        rw [hR]; exact hj
      · intro hself
        have hd := m2 (i, j) hself
        rw [cellDist_self] at hd
        show (coupledRunup c (g i) _).SWL j = _
        rw [hR, hj, cellDist_eq hd]
      · show (if SWL j < (g i).zb j then (g i).zb j else SWL j) = max ((coupledRunup c (g i) _).SWL j) ((g i).zb j)
        rw [hR]
        split_ifs with hlt
        · exact (max_eq_right hlt.le).symm
        · exact (max_eq_left (not_lt.mp hlt)).symm
    · simp [h] at hs

/-- **Dry cells are flooded**: a dry cell whose bed is lower than the level in all wet cells counts as flooded afterwards, however high the
bed between it and the water. -/
theorem C130_floods (c : CoupledConfig) (hn : NearestCell c.near) (g : ℕ → Row) (t : ℝ) (ws : ℕ → Water) (i j : ℕ) (w' : Water)
    (htide : c.water.processTide = true) (hz : c.extZs = true) (h : coupledRow c g t ws i = some (.ok w'))
    (hlow : ∀ x, DeliveredWet c g ws x → (g i).zb j < deliveredLevel g ws x) : (g i).zb j < w'.zs j := by
  obtain ⟨⟨y, hy, -, he⟩, -, hzs⟩ := (C130_levels c hn g t ws i htide hz).2 w' h j
  rw [hzs, he]
  exact lt_of_lt_of_le (hlow y hy) (le_max_left _ _)

/-- **Without tides** the water level of the other model is not used, and is overwritten: the level is that of the datum or the bed. -/
theorem C130_without_tides (c : CoupledConfig) (g : ℕ → Row) (t : ℝ) (ws : ℕ → Water) (i j : ℕ) (w' : Water)
    (htide : c.water.processTide = false) (h : coupledRow c g t ws i = some (.ok w')) :
    w'.SWL j = 0 ∧ w'.zs j = max 0 ((g i).zb j) := by
  obtain ⟨SWL, Hs, Tp, Hm, hs, -, -, rfl⟩ := coupledRow_ok h
  have hR : (coupledRunup c (g i) { ws i with SWL := SWL, Hs := Hs, Tp := Tp }).SWL = SWL := by
    unfold coupledRunup runup; split_ifs <;> rfl
  have h0 : SWL j = 0 := by
    unfold coupledStill stillWater at hs
    simp only [htide, Bool.false_eq_true, false_and, if_false, Option.some.injEq, Except.ok.injEq] at hs
    rw [← hs]; ring
  constructor
  · show (coupledRunup c (g i) _).SWL j = 0
    rw [hR, h0]
  · show (if SWL j < (g i).zb j then (g i).zb j else SWL j) = _
    rw [h0]
    split_ifs with hlt
    · exact (max_eq_right hlt.le).symm
    · exact (max_eq_left (not_lt.mp hlt)).symm

/-- **Wave heights from another model**: runup is that of each cell, the total water level the still water level plus it, the set-up level
the still water level; the setup itself is never computed, only the mask is applied to it again and again. -/
theorem C130_runup (c : CoupledConfig) (g : ℕ → Row) (t : ℝ) (ws : ℕ → Water) (i j : ℕ) (w' : Water)
    (hrun : c.water.processRunup = true) (hH : c.extHs = true) (h : coupledRow c g t ws i = some (.ok w')) :
    w'.TWL j = w'.SWL j + w'.R j ∧ w'.DSWL j = w'.SWL j ∧
    ((g i).runupMask = none → w'.R j = (stockdonArray (w'.Hs j) (w'.Tp j) c.water.beachSlope).2.2 ∧ w'.eta j = (ws i).eta j) ∧
    (∀ m, (g i).runupMask = some m →
      w'.R j = (stockdonArray (w'.Hs j) (w'.Tp j) c.water.beachSlope).2.2 * (m j).1 + (m j).2 ∧
      w'.eta j = (ws i).eta j * (m j).1 + (m j).2) := by
  obtain ⟨SWL, Hs, Tp, Hm, -, -, -, rfl⟩ := coupledRow_ok h
  simp only [coupledRunup, hrun, hH, if_true]
  refine ⟨trivial, trivial, fun hm => ?_, fun m hm => ?_⟩
  · rw [hm]; exact ⟨rfl, rfl⟩
  · rw [hm]; exact ⟨rfl, rfl⟩

/-- `n` times a mask. -/
def maskedTimes (m : ℝ × ℝ) (n : ℕ) (x : ℝ) : ℝ := m.1 ^ n * x + m.2 * ∑ k ∈ Finset.range n, m.1 ^ k

theorem maskedTimes_succ (m : ℝ × ℝ) (n : ℕ) (x : ℝ) : maskedTimes m n (applyMask m x) = maskedTimes m (n + 1) x := by
  unfold maskedTimes applyMask
  rw [Finset.sum_range_succ, pow_succ]
  ring

/-- **The mask acts on waves from another model in every call**: if the other model has written wave heights and periods once, after
interpolating at any times they are those values masked as many times as there were times. -/
theorem C130_masked_again (c : CoupledConfig) (g : ℕ → Row) (hext : c.extHs = true ∨ c.extTp = true) (ts : List ℝ)
    (ws ws' : ℕ → Water) (h : CoupledRun c g ts ws ws') (i j : ℕ) :
    (ws' i).Hs j = maskedTimes ((g i).waveMask j) ts.length ((ws i).Hs j) ∧
    (ws' i).Tp j = maskedTimes ((g i).waveMask j) ts.length ((ws i).Tp j) := by
  induction h with
  | nil ws => simp [maskedTimes]
  | cons t ts ws ws1 ws2 h1 hr ih =>
    obtain ⟨SWL, Hs, Tp, Hm, -, hw, -, he⟩ := coupledRow_ok (h1 i)
    have hR : ∀ w : Water, (coupledRunup c (g i) w).Hs = w.Hs ∧ (coupledRunup c (g i) w).Tp = w.Tp := by
      intro w; unfold coupledRunup runup; split_ifs <;> exact ⟨rfl, rfl⟩
    have e1 : (ws1 i).Hs j = applyMask ((g i).waveMask j) ((ws i).Hs j) ∧
        (ws1 i).Tp j = applyMask ((g i).waveMask j) ((ws i).Tp j) := by
      unfold coupledWaves at hw
      have hext' : (c.extHs = true) ∨ (c.extTp = true) := hext
      simp only [hext', if_true, Except.ok.injEq, Prod.mk.injEq] at hw
      rw [he]
      constructor
      · show (coupledRunup c (g i) _).Hs j = _
        rw [(hR _).1, ← hw.1]
      · show (coupledRunup c (g i) _).Tp j = _
        rw [(hR _).2, ← hw.2]
    rw [ih.1, ih.2, e1.1, e1.2, maskedTimes_succ, maskedTimes_succ, List.length_cons]
    exact ⟨rfl, rfl⟩

/-- Only masks that change nothing, or leave the value as it is, are harmless: a mask of one and zero keeps the waves; a mask of a half
halves them again in every call. -/
theorem C130_masks (n : ℕ) (x : ℝ) : maskedTimes (1, 0) n x = x ∧ maskedTimes (1 / 2, 0) n x = x / 2 ^ n ∧
    maskedTimes (1, 1) n x = x + n := by
  refine ⟨by simp [maskedTimes], ?_, by simp [maskedTimes]⟩
  unfold maskedTimes
  simp only [zero_mul, add_zero, one_div, inv_pow]
  rw [div_eq_inv_mul]

/-! ### Examples -/

/-- A dune between the sea and a low valley: bed -1, 5, 0 m. -/
def valleyRow : Row where
  zb := fun j => if j = 0 then -1 else if j = 1 then 5 else 0
  tideMask := fun _ => (1, 0)
  waveMask := fun _ => (1 / 2, 0)
  runupMask := none

/-- Another model delivers water levels and waves on the row. -/
def valleyConfig (near : (ℕ × ℕ → Prop) → ℕ × ℕ → ℕ × ℕ) : CoupledConfig where
  water := { beachConfig with waveFile := none }
  extZs := true
  extHs := true
  extTp := true
  rows := 1
  cols := 3
  eps := 0.001
  near := near

/-- Water at +1 m in the sea; elsewhere the level is that of the bed. -/
def valleyWater : Water := { calmWater with zs := fun j => if j = 0 then 1 else if j = 1 then 5 else 0, Hs := fun _ => 2, Tp := fun _ => 6 }

theorem valley_wet (near : (ℕ × ℕ → Prop) → ℕ × ℕ → ℕ × ℕ) (x : ℕ × ℕ) :
    DeliveredWet (valleyConfig near) (fun _ => valleyRow) (fun _ => valleyWater) x ↔ x = (0, 0) := by
  obtain ⟨i, j⟩ := x
  unfold DeliveredWet deliveredLevel valleyConfig valleyRow valleyWater
  simp only [Prod.mk.injEq]
  constructor
  · rintro ⟨h1, h2, h3⟩
    refine ⟨by omega, ?_⟩
    by_contra hj
    rcases (show j = 1 ∨ j = 2 by omega) with rfl | rfl <;> norm_num at h3
  · rintro ⟨rfl, rfl⟩
    norm_num

theorem valley_ok (near : (ℕ × ℕ → Prop) → ℕ × ℕ → ℕ × ℕ) (ws : ℕ → Water) (hw : ∃ x, DeliveredWet (valleyConfig near) (fun _ => valleyRow) ws x) (t : ℝ) (i : ℕ) :
    ∃ w', coupledRow (valleyConfig near) (fun _ => valleyRow) t ws i = some (.ok w') := by
  have hw' : ∃ x, extWet (valleyConfig near) (fun _ => valleyRow) ws x := hw
  unfold coupledRow coupledStill extStill coupledWaves
  simp only [hw', if_true]
  simp [valleyConfig, beachConfig, mixing]

/-- The valley behind the dune is flooded to the level of the sea, and with a mask of a half the waves are halved in every step. -/
example : ∃ near, NearestCell near ∧ ∃ w', coupledRow (valleyConfig near) (fun _ => valleyRow) 0 (fun _ => valleyWater) 0 = some (.ok w') ∧
    w'.zs 2 = 1 ∧ valleyRow.zb 1 = 5 := by
  obtain ⟨near, hn⟩ := nearestCell_exists
  obtain ⟨w', hw⟩ := valley_ok near (fun _ => valleyWater) ⟨(0, 0), (valley_wet near _).mpr rfl⟩ 0 0
  refine ⟨near, hn, w', hw, ?_, by simp [valleyRow]⟩
  obtain ⟨⟨y, hy, -, he⟩, -, hz⟩ := (C130_levels _ hn _ 0 _ 0 rfl rfl).2 w' hw 2
  rw [hz, he, (valley_wet near y).mp hy]
  norm_num [deliveredLevel, valleyRow, valleyWater]

example (near : (ℕ × ℕ → Prop) → ℕ × ℕ → ℕ × ℕ) : ∃ ws1, CoupledRun (valleyConfig near) (fun _ => valleyRow) [0] (fun _ => valleyWater) ws1 ∧ (ws1 0).Hs 0 = 1 := by
  choose ws1 h1 using valley_ok near (fun _ => valleyWater) ⟨(0, 0), (valley_wet near _).mpr rfl⟩ 0
  have hrun : CoupledRun (valleyConfig near) (fun _ => valleyRow) [0] (fun _ => valleyWater) ws1 := .cons _ _ _ _ _ h1 (.nil _)
  refine ⟨ws1, hrun, ?_⟩
  rw [(C130_masked_again _ _ (.inl rfl) _ _ _ hrun 0 0).1]
  norm_num [maskedTimes, valleyRow, valleyWater]

end

/-- Without deliveries the step is that of the tables. -/
example (near : (ℕ × ℕ → Prop) → ℕ × ℕ → ℕ × ℕ) :
    coupledRow { valleyConfig near with extZs := false, extHs := false, extTp := false } (fun _ => valleyRow) 0 (fun _ => valleyWater) 0
      = some (interpolate (valleyConfig near).water valleyRow 0 valleyWater) :=
  C130_uncoupled _ _ _ _ _ rfl rfl rfl

/-- The valley lies below the sea: it is flooded, the dune of 5 m in between is not. -/
example : ∃ near, NearestCell near ∧ ∃ w', coupledRow (valleyConfig near) (fun _ => valleyRow) 0 (fun _ => valleyWater) 0 = some (.ok w') ∧
    valleyRow.zb 2 < w'.zs 2 := by
  obtain ⟨near, hn⟩ := nearestCell_exists
  obtain ⟨w', hw⟩ := valley_ok near (fun _ => valleyWater) ⟨(0, 0), (valley_wet near _).mpr rfl⟩ 0 0
  refine ⟨near, hn, w', hw, C130_floods _ hn _ 0 _ 0 2 w' rfl rfl hw fun x hx => ?_⟩
  rw [(valley_wet near x).mp hx]
  norm_num [deliveredLevel, valleyRow, valleyWater]

/-- With a mask of a half the waves of 2 m run up as waves of 1 m. -/
example (near : (ℕ × ℕ → Prop) → ℕ × ℕ → ℕ × ℕ) : ∃ w', coupledRow (valleyConfig near) (fun _ => valleyRow) 0 (fun _ => valleyWater) 0 = some (.ok w') ∧
    ((valleyConfig near).water.processRunup = true → w'.TWL 0 = w'.SWL 0 + w'.R 0) := by
  obtain ⟨w', hw⟩ := valley_ok near (fun _ => valleyWater) ⟨(0, 0), (valley_wet near _).mpr rfl⟩ 0 0
  exact ⟨w', hw, fun hr => (C130_runup _ _ _ _ _ 0 w' hr rfl hw).1⟩

/-- Without tides the level is zero, whatever is delivered. -/
example (near : (ℕ × ℕ → Prop) → ℕ × ℕ → ℕ × ℕ) :
    ∃ w', coupledRow { valleyConfig near with water := { (valleyConfig near).water with processTide := false } } (fun _ => valleyRow) 0 (fun _ => valleyWater) 0 = some (.ok w') ∧
      w'.SWL 2 = 0 ∧ w'.zs 0 = 0 := by
  have hw : ∃ w', coupledRow { valleyConfig near with water := { (valleyConfig near).water with processTide := false } } (fun _ => valleyRow) 0 (fun _ => valleyWater) 0 = some (.ok w') := by
    have hw' : ∃ x, extWet { valleyConfig near with water := { (valleyConfig near).water with processTide := false } } (fun _ => valleyRow) (fun _ => valleyWater) x :=
      ⟨(0, 0), (valley_wet near _).mpr rfl⟩
    unfold coupledRow coupledStill extStill coupledWaves
    simp only [hw', if_true]
    simp [valleyConfig, beachConfig, mixing, stillWater]
  obtain ⟨w', hw⟩ := hw
  refine ⟨w', hw, (C130_without_tides _ _ _ _ _ 2 w' rfl hw).1, ?_⟩
  rw [(C130_without_tides _ _ _ _ _ 0 w' rfl hw).2]
  norm_num [valleyRow]

end Aeolis.Props
