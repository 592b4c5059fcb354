import Verif.Model.Lee
import Verif.Props.Wind
import Mathlib.Algebra.Order.BigOperators.Group.Finset
import Mathlib.Algebra.BigOperators.Fin

/-! Property theorems on plants and fences: C70, C71, C72. -/

set_option linter.unusedSectionVars false

namespace Aeolis.Props

open Aeolis.Wind Aeolis.Lee

noncomputable section

theorem reduction_range (c1 ic h d : ℝ) : 0 ≤ reduction c1 ic h d ∧ reduction c1 ic h d ≤ 1 := by
  unfold reduction
  dsimp only
  generalize (1 - if 0 ≤ d ∧ d / h < 20 then ic + (1 - ic) * (1 - Real.exp (-d * c1 / h)) else 1) = r
  split_ifs <;> constructor <;> norm_num at * <;> linarith

theorem reduction_zero (c1 ic h d : ℝ) (hd : d < 0 ∨ 20 ≤ d / h) : reduction c1 ic h d = 0 := by
  unfold reduction
  rcases hd with hd | hd
  · simp [hd]
  · simp only [not_lt.mpr hd, and_false, if_false]
    norm_num

/-- The loop over the elements, as a sum. -/
theorem loop_eq_sum (P : ℕ → Prop) [DecidablePred P] (f : ℕ → ℝ) (n : ℕ) :
    (List.range n).foldl (fun all i => if P i then all + f i else all) 0 =
      ∑ i ∈ Finset.range n, if P i then f i else 0 := by
  induction n with
  | zero => simp
  | succ n ih =>
    rw [List.range_succ, List.foldl_append, ih, Finset.sum_range_succ, List.foldl_cons, List.foldl_nil]
    split_ifs <;> simp

theorem totalReduction_eq (c1 ic dir : ℝ) (n : ℕ) (x height : ℕ → ℝ) (j : ℕ) :
    totalReduction c1 ic dir n x height j = min 1 (∑ i ∈ Finset.range n,
      if 0 < height i then reduction c1 ic (height i) (distanceBehind dir (x i) (x j)) else 0) := by
  unfold totalReduction
  dsimp only
  rw [loop_eq_sum]
  split_ifs with h
  · rw [min_eq_left h.le]
  · rw [min_eq_right (not_lt.mp h)]

theorem totalReduction_range (c1 ic dir : ℝ) (n : ℕ) (x height : ℕ → ℝ) (j : ℕ) :
    0 ≤ totalReduction c1 ic dir n x height j ∧ totalReduction c1 ic dir n x height j ≤ 1 := by
  rw [totalReduction_eq]
  refine ⟨le_min zero_le_one (Finset.sum_nonneg fun i _ => ?_), min_le_left _ _⟩
  split_ifs
  · exact (reduction_range _ _ _ _).1
  · exact le_rfl

/-- C70 Plants (and fences) on a transect multiply the shear velocity by a factor between 0 and 1, and never leave less
than 0.01 m/s. The factor is 1 in cells that lie upwind of every element or 20 heights and more behind it. -/
theorem C70_reduces (c1 ic dir : ℝ) (n : ℕ) (x height : ℕ → ℝ) (c : ℕ → Shear) (j : ℕ) :
    ∃ f, 0 ≤ f ∧ f ≤ 1 ∧ (okin c1 ic dir n x height c j).ustar = max 0.01 (f * (c j).ustar) ∧
      ((∀ i < n, 0 < height i → distanceBehind dir (x i) (x j) < 0 ∨
        20 * height i ≤ distanceBehind dir (x i) (x j)) → f = 1) := by
  obtain ⟨h0, h1⟩ := totalReduction_range c1 ic dir n x height j
  refine ⟨1 - totalReduction c1 ic dir n x height j, by linarith, by linarith, ?_, ?_⟩
  · unfold okin
    dsimp only
    rw [mul_comm]
    split_ifs with h
    · rw [max_eq_left h.le]
    · rw [max_eq_right (not_lt.mp h)]
  · intro hfar
    rw [totalReduction_eq, Finset.sum_eq_zero]
    · norm_num
    · intro i hi
      rw [Finset.mem_range] at hi
      split_ifs with hp
      · apply reduction_zero
        rcases hfar i hi hp with h | h
        · exact Or.inl h
        · exact Or.inr ((le_div_iff₀ hp).mpr h)
      · rfl

/-- A plant at x = 0 under wind from the west, seen from x = -5 and from x = 100. -/
example : distanceBehind (plantDir (-90)) 0 (-5) < 0 ∧ 20 * (1:ℝ) ≤ distanceBehind (plantDir (-90)) 0 100 := by
  unfold distanceBehind plantDir
  norm_num

/-- C70 The direction of the shear is kept where there is wind, and stress is untouched; a calm cell gets the minimum
shear velocity without direction. -/
theorem C70_direction (c1 ic dir : ℝ) (n : ℕ) (x height : ℕ → ℝ) (c : ℕ → Shear) (j : ℕ) :
    let d := okin c1 ic dir n x height c j
    d.tau = (c j).tau ∧ d.taus = (c j).taus ∧ d.taun = (c j).taun ∧
    ((c j).ustar ≠ 0 → ∃ k, d.ustar = k * (c j).ustar ∧ d.ustars = k * (c j).ustars ∧ d.ustarn = k * (c j).ustarn ∧
      (0 < (c j).ustar → 0 < k)) ∧
    ((c j).ustar = 0 → d.ustar = 0.01 ∧ d.ustars = 0 ∧ d.ustarn = 0) := by
  dsimp only
  refine ⟨rfl, rfl, rfl, ?_, ?_⟩
  · intro h
    unfold okin
    simp only [ne_eq, h, not_false_eq_true, if_true]
    have hp : 0 < (if (c j).ustar * (1 - totalReduction c1 ic dir n x height j) < 0.01 then 0.01
        else (c j).ustar * (1 - totalReduction c1 ic dir n x height j)) := by
      split_ifs with h'
      · norm_num
      · norm_num at h'; linarith
    generalize (if (c j).ustar * (1 - totalReduction c1 ic dir n x height j) < 0.01 then 0.01
        else (c j).ustar * (1 - totalReduction c1 ic dir n x height j)) = u at hp
    refine ⟨u / (c j).ustar, by field_simp, by field_simp, by field_simp, fun h' => by positivity⟩
  · intro h
    unfold okin
    simp [h]
    norm_num

/-- C70 The cell of the plant itself keeps at most the fraction `intercept` of its shear velocity (or the minimum). -/
theorem C70_at_the_plant {c1 ic : ℝ} (hi0 : 0 ≤ ic) (hi1 : ic ≤ 1) (dir : ℝ) (n : ℕ) (x height : ℕ → ℝ)
    (c : ℕ → Shear) (j : ℕ) (hj : j < n) (hh : 0 < height j) (hu : 0 ≤ (c j).ustar) :
    (okin c1 ic dir n x height c j).ustar ≤ max 0.01 ((ic + 0.00001) * (c j).ustar) := by
  have hred : 1 - ic - 0.00001 ≤ totalReduction c1 ic dir n x height j := by
    rw [totalReduction_eq]
    refine le_min (by norm_num; linarith) ?_
    have h1 : (if 0 < height j then reduction c1 ic (height j) (distanceBehind dir (x j) (x j)) else 0) ≤
        ∑ i ∈ Finset.range n, if 0 < height i then reduction c1 ic (height i) (distanceBehind dir (x i) (x j)) else 0 := by
      refine Finset.single_le_sum (f := fun i => if 0 < height i then
        reduction c1 ic (height i) (distanceBehind dir (x i) (x j)) else 0) (fun i _ => ?_) (Finset.mem_range.mpr hj)
      split_ifs
      · exact (reduction_range _ _ _ _).1
      · exact le_rfl
    refine le_trans ?_ h1
    rw [if_pos hh]
    have hd : distanceBehind dir (x j) (x j) = 0 := by unfold distanceBehind; simp
    rw [hd]
    unfold reduction
    simp only [le_refl, zero_div, true_and, neg_zero, zero_mul, Real.exp_zero, sub_self, mul_zero, add_zero, lt_irrefl,
      if_false]
    norm_num
    split_ifs <;> linarith
  unfold okin
  dsimp only
  have : (c j).ustar * (1 - totalReduction c1 ic dir n x height j) ≤ (ic + 0.00001) * (c j).ustar := by nlinarith
  split_ifs with h
  · exact le_max_left _ _
  · exact le_max_of_le_right this

example : (0:ℝ) ≤ 0.32 ∧ (0.32:ℝ) ≤ 1 ∧ (0:ℝ) < 0.5 ∧ (0:ℝ) ≤ breeze.ustar := by
  unfold breeze; norm_num

theorem reduction_mono {c1 ic : ℝ} (hc : 0 ≤ c1) (hi1 : ic ≤ 1) {h h' : ℝ} (h0 : 0 < h) (hh : h ≤ h') (d : ℝ) :
    reduction c1 ic h d ≤ reduction c1 ic h' d := by
  by_cases hd : d < 0
  · rw [reduction_zero _ _ _ _ (Or.inl hd), reduction_zero _ _ _ _ (Or.inl hd)]
  by_cases hfar : 20 ≤ d / h
  · rw [reduction_zero _ _ _ _ (Or.inr hfar)]
    exact (reduction_range _ _ _ _).1
  push Not at hd hfar
  have hnear : d / h' < 20 := lt_of_le_of_lt (div_le_div_of_nonneg_left hd h0 hh) hfar
  have hexp : Real.exp (-d * c1 / h) ≤ Real.exp (-d * c1 / h') := by
    apply Real.exp_le_exp.mpr
    rw [neg_mul, neg_div, neg_div, neg_le_neg_iff]
    exact div_le_div_of_nonneg_left (by positivity) h0 hh
  have key : 1 - (ic + (1 - ic) * (1 - Real.exp (-d * c1 / h))) ≤
      1 - (ic + (1 - ic) * (1 - Real.exp (-d * c1 / h'))) := by nlinarith
  unfold reduction
  simp only [hd, hfar, hnear, and_self, if_true, not_lt.mpr hd, if_false]
  generalize 1 - (ic + (1 - ic) * (1 - Real.exp (-d * c1 / h))) = a at key
  generalize 1 - (ic + (1 - ic) * (1 - Real.exp (-d * c1 / h'))) = b at key
  split_ifs <;> norm_num at * <;> linarith

/-- C70 More or higher plants never give more shear. -/
theorem C70_monotone {c1 ic : ℝ} (hc : 0 ≤ c1) (hi1 : ic ≤ 1) (dir : ℝ) (n : ℕ) (x height height' : ℕ → ℝ)
    (hle : ∀ i, height i ≤ height' i) (c : ℕ → Shear) (j : ℕ) (hu : 0 ≤ (c j).ustar) :
    (okin c1 ic dir n x height' c j).ustar ≤ (okin c1 ic dir n x height c j).ustar := by
  have hred : totalReduction c1 ic dir n x height j ≤ totalReduction c1 ic dir n x height' j := by
    rw [totalReduction_eq, totalReduction_eq]
    refine min_le_min le_rfl (Finset.sum_le_sum fun i _ => ?_)
    split_ifs with h1 h2 h3
    · exact reduction_mono hc hi1 h1 (hle i) _
    · exact absurd (lt_of_lt_of_le h1 (hle i)) h2
    · exact (reduction_range _ _ _ _).1
    · exact le_rfl
  have : (c j).ustar * (1 - totalReduction c1 ic dir n x height' j) ≤
      (c j).ustar * (1 - totalReduction c1 ic dir n x height j) :=
    mul_le_mul_of_nonneg_left (by linarith) hu
  unfold okin
  dsimp only
  split_ifs <;> linarith

example : (0:ℝ) ≤ 0.48 ∧ (0.32:ℝ) ≤ 1 ∧ ∀ i : ℕ, (0:ℝ) ≤ (fun _ => 1 : ℕ → ℝ) i := by
  refine ⟨by norm_num, by norm_num, fun _ => zero_le_one⟩

/-- C70 Which side is sheltered: for wind from between 0 and 180 degrees the side of lower coordinates, otherwise the side
of higher coordinates. Plants and fences agree, except that for a direction of exactly -180 degrees fences shelter the
lower side and plants the higher. The orientation of the grid plays no role. -/
theorem C70_side (udir : ℝ) (h0 : -180 ≤ udir) (h1 : udir ≤ 180) (xi x : ℝ) :
    (0 ≤ udir → distanceBehind (plantDir udir) xi x = xi - x ∧ distanceBehind (fenceDir udir) xi x = xi - x) ∧
    (-180 < udir → udir < 0 → distanceBehind (plantDir udir) xi x = x - xi ∧
      distanceBehind (fenceDir udir) xi x = x - xi) ∧
    (udir = -180 → distanceBehind (plantDir udir) xi x = x - xi ∧ distanceBehind (fenceDir udir) xi x = xi - x) := by
  refine ⟨?_, ?_, ?_⟩
  · intro h
    have e1 : plantDir udir = udir + 180 := by
      have a1 : ¬ udir + 180 < 0 := by linarith
      have a2 : ¬ 360 < udir + 180 := by linarith
      unfold plantDir
      simp only [a1, a2, if_false]
    have e2 : fenceDir udir = udir + 180 := by
      unfold fenceDir
      dsimp only
      by_cases h' : udir + 180 < 360
      · have a2 : 360 < udir + 180 + 360 := by linarith
        simp only [h', a2, if_true]; ring
      · have a2 : ¬ 360 < udir + 180 := by linarith
        simp only [h', a2, if_false]
    unfold distanceBehind
    rw [e1, e2, if_pos ⟨by linarith, by linarith⟩]
    constructor <;> ring
  · intro ha hb
    have e1 : plantDir udir = udir + 180 := by
      have a1 : ¬ udir + 180 < 0 := by linarith
      have a2 : ¬ 360 < udir + 180 := by linarith
      unfold plantDir
      simp only [a1, a2, if_false]
    have e2 : fenceDir udir = udir + 180 := by
      have a1 : udir + 180 < 360 := by linarith
      have a2 : 360 < udir + 180 + 360 := by linarith
      unfold fenceDir
      simp only [a1, a2, if_true]
      ring
    unfold distanceBehind
    rw [e1, e2, if_neg (by rintro ⟨h, -⟩; linarith)]
    exact ⟨rfl, rfl⟩
  · rintro rfl
    unfold distanceBehind plantDir fenceDir
    norm_num

example : (-180:ℝ) ≤ -90 ∧ (-90:ℝ) ≤ 180 ∧ (-90:ℝ) < 0 := by norm_num

/-- C70 Directions beyond half a turn, for which the direction the wind goes to is brought back to one turn: plants and fences shelter the
same side, that of higher coordinates up to a full turn and again the lower from there on. -/
theorem C70_side_beyond (udir : ℝ) (h0 : 180 < udir) (h1 : udir ≤ 540) (xi x : ℝ) :
    (udir < 360 → distanceBehind (plantDir udir) xi x = x - xi ∧ distanceBehind (fenceDir udir) xi x = x - xi) ∧
    (360 ≤ udir → distanceBehind (plantDir udir) xi x = xi - x ∧ distanceBehind (fenceDir udir) xi x = xi - x) := by
  have a1 : ¬ udir + 180 < 0 := by linarith
  have a2 : 360 < udir + 180 := by linarith
  have a3 : ¬ udir + 180 < 360 := by linarith
  have e1 : plantDir udir = udir - 180 := by
    unfold plantDir
    simp only [a1, a2, if_false, if_true]; ring
  have e2 : fenceDir udir = udir - 180 := by
    unfold fenceDir
    simp only [a3, a2, if_false, if_true]; ring
  unfold distanceBehind
  rw [e1, e2]
  constructor
  · intro h
    rw [if_neg (by rintro ⟨h, -⟩; linarith)]
    exact ⟨rfl, rfl⟩
  · intro h
    rw [if_pos ⟨by linarith, by linarith⟩]
    constructor <;> ring

example : (180:ℝ) < 270 ∧ (270:ℝ) ≤ 540 ∧ (270:ℝ) < 360 := by norm_num

theorem raupachFactor_range {g r : ℝ} (hg : 0 ≤ g) (hr : 0 ≤ r) : 0 < raupachFactor g r ∧ raupachFactor g r ≤ 1 := by
  have h1 : 1 ≤ Real.sqrt (1 + g * r) := by
    rw [show (1:ℝ) = Real.sqrt 1 from Real.sqrt_one.symm]
    apply Real.sqrt_le_sqrt
    rw [Real.sqrt_one]
    nlinarith
  unfold raupachFactor
  exact ⟨by positivity, by rw [div_le_one (by linarith)]; exact h1⟩

/-- C71 Vegetation multiplies the shear velocity and its components by a factor between 0 (excluded) and 1, for every
smoothing by weights that add up to one; the factor is 1 without vegetation. -/
theorem C71_factor {N : ℕ} {g : ℝ} (hg : 0 ≤ g) (w : Fin N → Fin N → ℝ) (hw : ∀ i k, 0 ≤ w i k)
    (hw1 : ∀ i, ∑ k, w i k = 1) (rho : Fin N → ℝ) (hrho : ∀ k, 0 ≤ rho k) (c : Fin N → Shear)
    (hc : ∀ i, (c i).ustar = hypot (c i).ustars (c i).ustarn) (i : Fin N) :
    ∃ f, 0 < f ∧ f ≤ 1 ∧ (raupach g w rho c i).ustar = f * (c i).ustar ∧
      (raupach g w rho c i).ustars = f * (c i).ustars ∧ (raupach g w rho c i).ustarn = f * (c i).ustarn ∧
      ((∀ k, rho k = 0) → f = 1) := by
  refine ⟨∑ k, w i k * raupachFactor g (rho k), ?_, ?_, ?_, ?_, ?_, ?_⟩
  · obtain ⟨k, -, hk⟩ : ∃ k ∈ Finset.univ, 0 < w i k := by
      by_contra hno
      push Not at hno
      have : ∑ k, w i k ≤ 0 := Finset.sum_nonpos fun k hk => hno k hk
      rw [hw1 i] at this
      linarith
    refine Finset.sum_pos' (fun k _ => mul_nonneg (hw i k) (raupachFactor_range hg (hrho k)).1.le)
      ⟨k, Finset.mem_univ _, mul_pos hk (raupachFactor_range hg (hrho k)).1⟩
  · calc ∑ k, w i k * raupachFactor g (rho k) ≤ ∑ k, w i k * 1 :=
        Finset.sum_le_sum fun k _ => mul_le_mul_of_nonneg_left (raupachFactor_range hg (hrho k)).2 (hw i k)
      _ = 1 := by simp only [mul_one]; exact hw1 i
  · unfold raupach; dsimp only; ring
  · unfold raupach
    dsimp only
    by_cases h : (c i).ustar = 0
    · have := hypot_zero (a := (c i).ustars) (b := (c i).ustarn) (by rw [← hc, h])
      simp [h, this.1]
    · simp only [ne_eq, h, not_false_eq_true, if_true]; field_simp
  · unfold raupach
    dsimp only
    by_cases h : (c i).ustar = 0
    · have := hypot_zero (a := (c i).ustars) (b := (c i).ustarn) (by rw [← hc, h])
      simp [h, this.2]
    · simp only [ne_eq, h, not_false_eq_true, if_true]; field_simp
  · intro h0
    have : ∀ k, w i k * raupachFactor g (rho k) = w i k := by
      intro k; rw [h0 k]; unfold raupachFactor; simp
    simp only [this]
    exact hw1 i

/-- C71 Denser vegetation never gives more shear. -/
theorem C71_monotone {N : ℕ} {g : ℝ} (hg : 0 ≤ g) (w : Fin N → Fin N → ℝ) (hw : ∀ i k, 0 ≤ w i k)
    (rho rho' : Fin N → ℝ) (hrho : ∀ k, 0 ≤ rho k) (hle : ∀ k, rho k ≤ rho' k) (c : Fin N → Shear) (i : Fin N)
    (hu : 0 ≤ (c i).ustar) : (raupach g w rho' c i).ustar ≤ (raupach g w rho c i).ustar := by
  unfold raupach
  dsimp only
  refine mul_le_mul_of_nonneg_left (Finset.sum_le_sum fun k _ => mul_le_mul_of_nonneg_left ?_ (hw i k)) hu
  unfold raupachFactor
  have h0 := hrho k
  have h1 := hle k
  apply one_div_le_one_div_of_le (Real.sqrt_pos.mpr (by nlinarith))
  apply Real.sqrt_le_sqrt
  nlinarith

example : (∀ i k : Fin 2, (0:ℝ) ≤ (fun _ _ => 1 / 2 : Fin 2 → Fin 2 → ℝ) i k) ∧
    ∑ _k : Fin 2, (1 / 2 : ℝ) = 1 ∧ breeze.ustar = hypot breeze.ustars breeze.ustarn := by
  refine ⟨fun _ _ => by norm_num, by norm_num, ?_⟩
  unfold breeze hypot
  dsimp only
  rw [show (0.3:ℝ) ^ 2 + 0.4 ^ 2 = 0.5 ^ 2 by norm_num, Real.sqrt_sq (by norm_num)]

/-- C72 After every update the fence height is 0 or between 0.1 and 1.5 m, for every history of bed levels. -/
theorem C72_height (file zb0 : ℝ) (beds : List ℝ) (zb : ℝ) :
    let f := fenceRun file zb0 (beds ++ [zb])
    f.height = 0 ∨ 0.1 ≤ f.height ∧ f.height ≤ 1.5 ∧ f.height = zb0 + file - zb := by
  have htop : ∀ beds : List ℝ, (fenceRun file zb0 beds).top = zb0 + file := by
    intro beds
    induction beds using List.reverseRecOn with
    | nil => rfl
    | append_singleton l a ih =>
      have : fenceRun file zb0 (l ++ [a]) = fenceUpdate a (fenceRun file zb0 l) := by simp [fenceRun]
      rw [this, ← ih]
      unfold fenceUpdate
      dsimp only
      split_ifs <;> rfl
  have hrun : fenceRun file zb0 (beds ++ [zb]) = fenceUpdate zb (fenceRun file zb0 beds) := by simp [fenceRun]
  dsimp only
  rw [hrun]
  have ht := htop beds
  generalize fenceRun file zb0 beds = f at ht
  unfold fenceUpdate
  dsimp only
  rw [ht]
  split_ifs <;> first
    | exact Or.inl rfl
    | (right; refine ⟨?_, ?_, rfl⟩ <;> linarith)
    | (right; norm_num at *)

/-- C72 A fence that has been undermined (more than 1.5 m above the bed) never returns, whatever the bed does later. -/
theorem C72_undermined_is_gone (file zb0 : ℝ) (before after : List ℝ) (zb zb' : ℝ)
    (hactive : 0.1 ≤ (fenceRun file zb0 before).init) (htop : 0.1 ≤ zb0 + file) (hunder : 1.5 < zb0 + file - zb) :
    (fenceRun file zb0 (before ++ [zb] ++ after ++ [zb'])).height = 0 := by
  have htop' : ∀ beds : List ℝ, (fenceRun file zb0 beds).top = zb0 + file := by
    intro beds
    induction beds using List.reverseRecOn with
    | nil => rfl
    | append_singleton l a ih =>
      have : fenceRun file zb0 (l ++ [a]) = fenceUpdate a (fenceRun file zb0 l) := by simp [fenceRun]
      rw [this, ← ih]
      unfold fenceUpdate
      dsimp only
      split_ifs <;> rfl
  have hstep : ∀ (l : List ℝ) a, fenceRun file zb0 (l ++ [a]) = fenceUpdate a (fenceRun file zb0 l) := by
    intro l a; simp [fenceRun]
  have hgone : (fenceRun file zb0 (before ++ [zb] ++ after)).init = 0 := by
    induction after using List.reverseRecOn with
    | nil =>
      rw [List.append_nil, hstep]
      have ht := htop' before
      generalize fenceRun file zb0 before = f at ht hactive
      have a1 : ¬ zb0 + file - zb < 0.1 := by norm_num at *; linarith
      unfold fenceUpdate
      simp only [ht, not_lt.mpr hactive, not_lt.mpr htop, a1, hunder, if_true, if_false]
    | append_singleton l a ih =>
      rw [← List.append_assoc, hstep]
      generalize fenceRun file zb0 (before ++ [zb] ++ l) = f at ih
      unfold fenceUpdate
      dsimp only
      split_ifs <;> first | rfl | exact ih
  rw [hstep]
  generalize fenceRun file zb0 (before ++ [zb] ++ after) = f at hgone
  unfold fenceUpdate
  simp only [hgone]
  norm_num

example : (0.1:ℝ) ≤ (fenceRun 1 2 []).init ∧ (0.1:ℝ) ≤ 2 + 1 ∧ (1.5:ℝ) < 2 + 1 - 1 := by
  unfold fenceRun fenceInit
  norm_num

/-- C72 A buried fence comes back when the bed falls again. -/
theorem C72_buried_returns (file zb0 : ℝ) (h0 : 0.1 ≤ file) (h1 : file ≤ 1.5) (htop : 0.1 ≤ zb0 + file)
    (beds : List ℝ) (hb : ∀ z ∈ beds, zb0 + file - z ≤ 1.5) :
    (fenceRun file zb0 (beds ++ [zb0])).height = file := by
  have hstep : ∀ (l : List ℝ) a, fenceRun file zb0 (l ++ [a]) = fenceUpdate a (fenceRun file zb0 l) := by
    intro l a; simp [fenceRun]
  have hinv : (fenceRun file zb0 beds).top = zb0 + file ∧ (fenceRun file zb0 beds).init = file := by
    induction beds using List.reverseRecOn with
    | nil => exact ⟨rfl, rfl⟩
    | append_singleton l a ih =>
      obtain ⟨e1, e2⟩ := ih fun z hz => hb z (by simp [hz])
      have hba := hb a (by simp)
      rw [hstep]
      generalize fenceRun file zb0 l = f at e1 e2
      unfold fenceUpdate
      simp only [e1, e2, not_lt.mpr h0, not_lt.mpr htop, if_false]
      by_cases a1 : zb0 + file - a < 0.1
      · have a2 : ¬ (1.5:ℝ) < 0 := by norm_num
        simp only [a1, a2, if_true, if_false, and_self]
      · simp only [a1, not_lt.mpr hba, if_false, and_self]
  rw [hstep]
  obtain ⟨e1, e2⟩ := hinv
  generalize fenceRun file zb0 beds = f at e1 e2
  have a1 : ¬ file < 0.1 := not_lt.mpr h0
  unfold fenceUpdate
  simp only [e1, e2, add_sub_cancel_left, not_lt.mpr h1, a1, not_lt.mpr htop, if_false]

example : (0.1:ℝ) ≤ 1 ∧ (1:ℝ) ≤ 1.5 ∧ (0.1:ℝ) ≤ 2 + 1 ∧ ∀ z ∈ [(3:ℝ), 4], (2:ℝ) + 1 - z ≤ 1.5 := by
  refine ⟨by norm_num, by norm_num, by norm_num, ?_⟩
  intro z hz
  simp at hz
  rcases hz with rfl | rfl <;> norm_num

/-- C72 A fence whose top lies below the 0.1 m level of the datum never acts, however high it stands above the bed. -/
theorem C72_low_fence_inactive (file zb0 : ℝ) (hlow : zb0 + file < 0.1) (beds : List ℝ) (zb : ℝ) :
    (fenceRun file zb0 (beds ++ [zb])).height = 0 := by
  have hstep : ∀ (l : List ℝ) a, fenceRun file zb0 (l ++ [a]) = fenceUpdate a (fenceRun file zb0 l) := by
    intro l a; simp [fenceRun]
  have htop : (fenceRun file zb0 beds).top = zb0 + file := by
    induction beds using List.reverseRecOn with
    | nil => rfl
    | append_singleton l a ih =>
      rw [hstep, ← ih]
      unfold fenceUpdate
      dsimp only
      split_ifs <;> rfl
  rw [hstep]
  generalize fenceRun file zb0 beds = f at htop
  unfold fenceUpdate
  simp only [htop, hlow, if_true]
  norm_num

/-- A one metre fence on a bed at -1.5 m. -/
example : (-1.5:ℝ) + 1 < 0.1 := by norm_num

end

/-- Two plants that shelter each other equally. -/
example : ∃ f, 0 < f ∧ f ≤ 1 ∧
    (raupach 16 (fun _ _ => 1 / 2 : Fin 2 → Fin 2 → ℝ) (fun k => if k = 0 then 1 else 0) (fun _ => breeze) 0).ustar = f * breeze.ustar := by
  obtain ⟨f, h1, h2, h3, -⟩ := C71_factor (g := 16) (by norm_num) (fun _ _ => 1 / 2 : Fin 2 → Fin 2 → ℝ) (fun _ _ => by norm_num)
    (fun _ => by norm_num) (fun k => if k = 0 then 1 else 0) (fun k => by split_ifs <;> norm_num) (fun _ => breeze) (fun _ => by
      unfold breeze hypot
      dsimp only
      rw [show (0.3:ℝ) ^ 2 + 0.4 ^ 2 = 0.5 ^ 2 by norm_num, Real.sqrt_sq (by norm_num)]) 0
  exact ⟨f, h1, h2, h3⟩

/-- A calm cell and a windy one in the lee of plants. -/
example (c1 ic dir : ℝ) (x height : ℕ → ℝ) :
    (okin c1 ic dir 3 x height (fun _ => { breeze with ustar := 0 }) 1).ustar = 0.01 ∧
    ∃ k, 0 < k ∧ (okin c1 ic dir 3 x height (fun _ => breeze) 1).ustar = k * breeze.ustar := by
  refine ⟨((C70_direction c1 ic dir 3 x height (fun _ => { breeze with ustar := 0 }) 1).2.2.2.2 rfl).1, ?_⟩
  obtain ⟨k, h1, -, -, h2⟩ := (C70_direction c1 ic dir 3 x height (fun _ => breeze) 1).2.2.2.1 (by norm_num [breeze])
  exact ⟨k, h2 (by norm_num [breeze]), h1⟩

end Aeolis.Props
