import Verif.Props.Avalanche

/-!
C80, continued: how far a whole call of the avalanching can undercut the non-erodible layer.
-/

namespace Aeolis.Props

open Aeolis.Ava

theorem qIn_nonneg (p : Ava.Params) (zb : Grid) (i j : ℕ) : 0 ≤ qIn p zb i j := by
  rw [qIn_eq]
  split
  · have h1 := parts_nonneg p zb
    split
    · linarith [(h1 i (j - 1)).1, (h1 i (j + 1)).2.1]
    · linarith [(h1 i (j - 1)).1, (h1 i (j + 1)).2.1, (h1 (i - 1) j).2.2.1, (h1 (i + 1) j).2.2.2]
  · exact le_rfl

/-- A cell below the layer loses at most its depth divided by the cell size, and at most one, times `0.2 √2`. -/
theorem slide_below (p : Ava.Params) (zb : Grid) (i j : ℕ) (hds : 0 < p.ds i j) (z : ℝ) (hz : p.zne i j = some z) (hlow : zb i j ≤ z) :
    zb i j - 0.2 * Real.sqrt 2 * ((z - zb i j) / p.ds i j) ≤ slide p zb i j ∧ zb i j - 0.2 * Real.sqrt 2 ≤ slide p zb i j := by
  have h2 : (0 : ℝ) < Real.sqrt 2 := Real.sqrt_pos.mpr (by norm_num)
  have hq := qOut_le p zb i j
  have hin := qIn_nonneg p zb i j
  have hn : (zb i j - z) / p.ds i j ≤ 0 := div_nonpos_of_nonpos_of_nonneg (by linarith) hds.le
  have e : (z - zb i j) / p.ds i j = -((zb i j - z) / p.ds i j) := by ring
  have hs : |slopeDiff p zb i j| ≤ (z - zb i j) / p.ds i j ∧ |slopeDiff p zb i j| ≤ 1 := by
    have h0 : |(0 : ℝ)| ≤ (z - zb i j) / p.ds i j ∧ |(0 : ℝ)| ≤ 1 := by
      rw [abs_zero, e]
      exact ⟨by linarith, zero_le_one⟩
    unfold slopeDiff
    simp only [hz]
    split
    · have h1 := tanh_sub_le hn
      rw [Real.tanh_zero] at h1
      have h3 : Real.tanh ((zb i j - z) / p.ds i j) ≤ 0 := by
        have := tanh_strictMono.monotone hn
        rwa [Real.tanh_zero] at this
      rw [abs_of_nonpos h3, e]
      refine ⟨by linarith, ?_⟩
      have := Real.neg_one_lt_tanh ((zb i j - z) / p.ds i j)
      linarith
    · rw [if_neg (fun h => absurd h.2 (not_lt.mpr hn))]
      exact h0
  unfold slide
  constructor <;> nlinarith [hs.1, hs.2]

/-- **C80** (the part that holds for a whole call): starting from a bed nowhere below the non-erodible layer, the `n`-th redistribution leaves a cell at most
`0.02 √2 tan(theta_dyn) (1 + 0.2 √2 / ds)^n` below the layer, and at most `0.02 √2 tan(theta_dyn) + 0.2 √2 n`. Missing from the full claim (the layer is never
undercut): it is false (`C80_below_layer_loses`). -/
theorem C80_undercut_iterations_partial (p : Ava.Params) (i j : ℕ) (hd : 0 ≤ repose p.thetaDyn) (hds : 0.2 * Real.sqrt 2 ≤ p.ds i j) (z : ℝ)
    (hz : p.zne i j = some z) (n : ℕ) (zb : Grid) (hne : z ≤ zb i j) :
    z - 0.02 * Real.sqrt 2 * repose p.thetaDyn * (1 + 0.2 * Real.sqrt 2 / p.ds i j) ^ n ≤ iterate p n zb i j ∧
      z - (0.02 * Real.sqrt 2 * repose p.thetaDyn + 0.2 * Real.sqrt 2 * n) ≤ iterate p n zb i j := by
  have h2 : (0 : ℝ) < Real.sqrt 2 := Real.sqrt_pos.mpr (by norm_num)
  have hdpos : 0 < p.ds i j := by linarith
  set e := 0.02 * Real.sqrt 2 * repose p.thetaDyn with he
  have he0 : 0 ≤ e := by positivity
  set r := 0.2 * Real.sqrt 2 / p.ds i j with hr
  have hr0 : 0 ≤ r := by positivity
  -- the depth after further redistributions, from any bed
  have key : ∀ n zb D, e ≤ D → z - D ≤ zb i j → z - D * (1 + r) ^ n ≤ iterate p n zb i j ∧ z - (D + 0.2 * Real.sqrt 2 * n) ≤ iterate p n zb i j := by
    intro n
    induction n with
    | zero => intro zb D hD h; simpa [iterate] using h
    | succ n ih =>
      intro zb D hD h
      have hD0 : 0 ≤ D := he0.trans hD
      have hp : 1 ≤ (1 + r) ^ (n + 1) := one_le_pow₀ (by linarith)
      unfold iterate
      split
      · refine ⟨?_, ?_⟩
        · nlinarith
        · have : (0 : ℝ) ≤ 0.2 * Real.sqrt 2 * ((n + 1 : ℕ) : ℝ) := by positivity
          linarith
      · have hstep : z - D * (1 + r) ≤ slide p zb i j ∧ z - (D + 0.2 * Real.sqrt 2) ≤ slide p zb i j := by
          rcases le_total z (zb i j) with hup | hlow
          · have := C80_undercut_bounded_partial p zb i j hd hds z hz hup
            rw [← he] at this
            constructor <;> nlinarith
          · obtain ⟨h3, h4⟩ := slide_below p zb i j hdpos z hz hlow
            have e1 : 0.2 * Real.sqrt 2 * ((z - zb i j) / p.ds i j) = (z - zb i j) * r := by rw [hr]; ring
            rw [e1] at h3
            constructor <;> nlinarith
        refine ⟨?_, ?_⟩
        · have := (ih (slide p zb) (D * (1 + r)) (by nlinarith) hstep.1).1
          rw [pow_succ]
          linarith [this, mul_assoc D (1 + r) ((1 + r) ^ n), mul_comm ((1 + r) ^ n) (1 + r)]
        · have := (ih (slide p zb) (D + 0.2 * Real.sqrt 2) (by linarith) hstep.2).2
          push_cast
          linarith
  exact key n zb e le_rfl (by linarith)

/-- **C80** … and so does a whole call of the avalanching, with the largest number of iterations for `n`. -/
theorem C80_undercut_call_partial (p : Ava.Params) (i j : ℕ) (hd : 0 ≤ repose p.thetaDyn) (hds : 0.2 * Real.sqrt 2 ≤ p.ds i j) (z : ℝ)
    (hz : p.zne i j = some z) (zb : Grid) (hne : z ≤ zb i j) :
    z - (0.02 * Real.sqrt 2 * repose p.thetaDyn + 0.2 * Real.sqrt 2 * p.maxIter) ≤ avalanche p zb i j ∧
      z - 0.02 * Real.sqrt 2 * repose p.thetaDyn * (1 + 0.2 * Real.sqrt 2 / p.ds i j) ^ p.maxIter ≤ avalanche p zb i j := by
  have h := C80_undercut_iterations_partial p i j hd hds z hz p.maxIter zb hne
  have h2 : (0 : ℝ) < Real.sqrt 2 := Real.sqrt_pos.mpr (by norm_num)
  have hr0 : 0 ≤ 0.2 * Real.sqrt 2 / p.ds i j := div_nonneg (by positivity) (by linarith)
  have hp : (0 : ℝ) ≤ (1 + 0.2 * Real.sqrt 2 / p.ds i j) ^ p.maxIter := by positivity
  have h0 : 0 ≤ 0.02 * Real.sqrt 2 * repose p.thetaDyn := by positivity
  have hz' : z - (0.02 * Real.sqrt 2 * repose p.thetaDyn + 0.2 * Real.sqrt 2 * p.maxIter) ≤ zb i j ∧
      z - 0.02 * Real.sqrt 2 * repose p.thetaDyn * (1 + 0.2 * Real.sqrt 2 / p.ds i j) ^ p.maxIter ≤ zb i j :=
    ⟨by have : 0 ≤ 0.2 * Real.sqrt 2 * (p.maxIter : ℝ) := by positivity
        linarith, by nlinarith [mul_nonneg h0 hp]⟩
  unfold avalanche
  split
  · split
    · exact ⟨h.2, h.1⟩
    · exact hz'
  · exact hz'

/-- The example of `C80_undercut_bounded_partial`: a layer at -10 m, cells of one metre, at most fifty iterations. -/
example : -10 - (0.02 * Real.sqrt 2 * repose exAva.thetaDyn + 0.2 * Real.sqrt 2 * exAva.maxIter) ≤
    avalanche exAva (fun _ j => if j = 2 then 5 else 0) 0 2 :=
  (C80_undercut_call_partial exAva 0 2 exAva_tanDyn (by
    have : Real.sqrt 2 ≤ 2 := by rw [Real.sqrt_le_left (by norm_num)]; norm_num
    simp only [exAva]; linarith) (-10) rfl _ (by norm_num)).1

end Aeolis.Props
