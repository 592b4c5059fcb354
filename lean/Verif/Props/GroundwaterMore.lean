import Verif.Props.Groundwater
import Mathlib.Algebra.Module.LinearMap.Basic
import Mathlib.Tactic.LinearCombination

/-! C65 (values prescribed at the ends and on the seepage face) and C87 (order of the time integration). -/

set_option linter.unusedSectionVars false

namespace Aeolis.Props

open Aeolis.Ground

variable {K : Type*} [Field K] [LinearOrder K] [IsStrictOrderedRing K] [FloorRing K]

/-- C65: the level passed to the groundwater equation: the set-up level at the shoreline; in the last three cells
the level of the fourth last cell (`no_flow`) or the static level; unchanged in all other cells (but for the cell
of the previous row's shoreline). -/
theorem C65_ends (c : Config K) (bound n shl shl' : ℕ) (dswl GW : ℕ → K) (hs : shl + 4 ≤ n) (hs' : shl' + 4 ≤ n)
    (j : ℕ) (hj : j < n) :
    bounds c bound n shl shl' dswl GW shl = dswl shl ∧
    (bound = 0 → n ≤ j + 3 → bounds c bound n shl shl' dswl GW j = bounds c bound n shl shl' dswl GW (n - 4)) ∧
    (bound = 1 → n ≤ j + 3 → bounds c bound n shl shl' dswl GW j = c.gwStat) ∧
    (j + 3 < n → j ≠ shl → j ≠ shl' → bounds c bound n shl shl' dswl GW j = GW j) := by
  unfold bounds
  have h1 : ¬ (n - 3 ≤ shl ∧ shl < n) := by omega
  have h2 : ¬ (n - 3 ≤ n - 4 ∧ n - 4 < n) := by omega
  refine ⟨?_, fun hb h => ?_, fun hb h => ?_, fun h hn hn' => ?_⟩
  · simp only [h1, if_false]
    by_cases he : shl = shl'
    · subst he; simp
    · rw [Function.update_of_ne he]; simp
  · have h3 : n - 3 ≤ j ∧ j < n := by omega
    simp only [h2, h3, if_false, hb, if_true, and_self]
  · have h3 : n - 3 ≤ j ∧ j < n := by omega
    simp only [h3, and_self, if_true, hb, one_ne_zero, if_false]
  · have h3 : ¬ (n - 3 ≤ j ∧ j < n) := by omega
    simp only [h3, if_false]
    rw [Function.update_of_ne hn', Function.update_of_ne hn]

/-- C65: with the seepage face on, the level is the bed level from the shoreline up to two cells before the
first cell where it is more than 5 cm below the bed, and unchanged elsewhere; with it off nothing changes.  `e` is
that first cell. -/
theorem C65_seepage (c : Config K) (n shl : ℕ) (zb GW : ℕ → K) (e : ℕ) (he : e < n)
    (hdry : GW e + 0.05 < zb e) (hwet : ∀ i < e, zb i ≤ GW i + 0.05) (j : ℕ) :
    (c.seepage = true → shl ≤ j → j + 1 < e → seepageFace c n shl zb GW j = zb j) ∧
    (c.seepage = false ∨ j < shl ∨ e ≤ j + 1 → seepageFace c n shl zb GW j = GW j) := by
  have hx : exitPoint n zb GW = e := by
    unfold exitPoint
    have : (List.range n).find? (fun j => decide (¬ zb j ≤ GW j + 0.05)) = some e := by
      rw [List.find?_range_eq_some]
      refine ⟨by simpa using hdry, List.mem_range.mpr he, fun i hi => ?_⟩
      simpa using hwet i hi
    rw [this]
  unfold seepageFace
  rw [hx]
  refine ⟨fun h h1 h2 => ?_, fun h => ?_⟩
  · rw [if_pos h]
    exact if_pos (by omega)
  · by_cases hs : c.seepage = true
    · rw [if_pos hs]
      have : j < shl ∨ e ≤ j + 1 := h.resolve_left (by simp [hs])
      exact if_neg (by omega)
    · rw [if_neg hs]

/-- C65: if the level is nowhere more than 5 cm below the bed there is no seepage face at all (`argmin` of a row of
equal values is zero). -/
theorem C65_seepage_all_wet (c : Config K) (n shl : ℕ) (zb GW : ℕ → K) (hwet : ∀ i < n, zb i ≤ GW i + 0.05) :
    seepageFace c n shl zb GW = GW := by
  have hx : exitPoint n zb GW = 0 := by
    unfold exitPoint
    have : (List.range n).find? (fun j => decide (¬ zb j ≤ GW j + 0.05)) = none := by
      rw [List.find?_eq_none]
      intro i hi
      simpa using hwet i (List.mem_range.mp hi)
    rw [this]
  unfold seepageFace
  rw [hx]
  split
  · funext j
    exact if_neg (by omega)
  · rfl

/-- C87: where the rate of change responds linearly to changes of the level in the cells computed, a groundwater step
gives the Taylor polynomial of degree four of the exact solution. -/
theorem C87_fourth_order (c : Config K) (b n shl shl' : ℕ) (dt : K) (dswl ds zb gw G r : ℕ → K)
    (L : (ℕ → K) →ₗ[K] (ℕ → K)) (hG : G = conditioned c b n shl shl' dswl zb gw)
    (hL : ∀ v : ℕ → K, (∀ j, ¬ (shl + 1 ≤ j ∧ j + 3 < n) → v j = 0) →
      rate c n shl ds (conditioned c b n shl shl' dswl zb (G + v)) = r + L v)
    (hG0 : rate c n shl ds G = r) :
    rungeKutta c b n shl shl' dt dswl ds zb gw =
      G + dt • r + (dt ^ 2 / 2) • L r + (dt ^ 3 / 6) • L (L r) + (dt ^ 4 / 24) • L (L (L r)) := by
  have hout : ∀ w : ℕ → K, ∀ j, ¬ (shl + 1 ≤ j ∧ j + 3 < n) → rate c n shl ds w j = 0 := by
    intro w j hj
    unfold rate
    rw [if_neg (by omega)]
  have hr : ∀ j, ¬ (shl + 1 ≤ j ∧ j + 3 < n) → r j = 0 := by
    intro j hj; rw [← hG0]; exact hout _ j hj
  have hLv : ∀ v : ℕ → K, (∀ j, ¬ (shl + 1 ≤ j ∧ j + 3 < n) → v j = 0) →
      ∀ j, ¬ (shl + 1 ≤ j ∧ j + 3 < n) → L v j = 0 := by
    intro v hv j hj
    have h := congrFun (hL v hv) j
    rw [hout _ j hj, Pi.add_apply, hr j hj, zero_add] at h
    exact h.symm
  have hsm : ∀ (q : K) (v : ℕ → K), (∀ j, ¬ (shl + 1 ≤ j ∧ j + 3 < n) → v j = 0) →
      ∀ j, ¬ (shl + 1 ≤ j ∧ j + 3 < n) → (q • v) j = 0 := by
    intro q v hv j hj
    rw [Pi.smul_apply, hv j hj, smul_zero]
  have hadd : ∀ (v w : ℕ → K), (∀ j, ¬ (shl + 1 ≤ j ∧ j + 3 < n) → v j = 0) →
      (∀ j, ¬ (shl + 1 ≤ j ∧ j + 3 < n) → w j = 0) → ∀ j, ¬ (shl + 1 ≤ j ∧ j + 3 < n) → (v + w) j = 0 := by
    intro v w hv hw j hj
    rw [Pi.add_apply, hv j hj, hw j hj, add_zero]
  have s1 := hLv r hr
  have s2 := hLv _ s1
  have f2 := hL ((dt / 2) • r) (hsm _ _ hr)
  have e2 : r + L ((dt / 2) • r) = r + (dt / 2) • L r := by rw [map_smul]
  rw [e2] at f2
  have f3 := hL ((dt / 2) • (r + (dt / 2) • L r)) (hsm _ _ (hadd _ _ hr (hsm _ _ s1)))
  have e3 : r + L ((dt / 2) • (r + (dt / 2) • L r)) = r + (dt / 2) • L r + (dt ^ 2 / 4) • L (L r) := by
    rw [map_smul, map_add, map_smul]
    funext j
    simp only [Pi.add_apply, Pi.smul_apply, smul_eq_mul]
    ring
  rw [e3] at f3
  have f4 := hL (dt • (r + (dt / 2) • L r + (dt ^ 2 / 4) • L (L r)))
    (hsm _ _ (hadd _ _ (hadd _ _ hr (hsm _ _ s1)) (hsm _ _ s2)))
  have e4 : r + L (dt • (r + (dt / 2) • L r + (dt ^ 2 / 4) • L (L r))) =
      r + dt • L r + (dt ^ 2 / 2) • L (L r) + (dt ^ 3 / 4) • L (L (L r)) := by
    rw [map_smul, map_add, map_add, map_smul, map_smul]
    funext j
    simp only [Pi.add_apply, Pi.smul_apply, smul_eq_mul]
    ring
  rw [e4] at f4
  have key : rungeKutta c b n shl shl' dt dswl ds zb gw = fun j => G j + dt / 6 * (r j
      + 2 * (r + (dt / 2) • L r) j + 2 * (r + (dt / 2) • L r + (dt ^ 2 / 4) • L (L r)) j
      + (r + dt • L r + (dt ^ 2 / 2) • L (L r) + (dt ^ 3 / 4) • L (L (L r))) j) := by
    rw [← f4, ← e3, ← e3.symm, ← f3, ← f2]
    unfold rungeKutta boussinesq
    simp only
    rw [← hG, hG0]
    rw [show (fun j => G j + dt / 2 * r j) = G + (dt / 2) • r from rfl, f2,
      show (fun j => G j + dt / 2 * (r + (dt / 2) • L r) j) = G + (dt / 2) • (r + (dt / 2) • L r) from rfl, f3]
    rfl
  rw [key]
  funext j
  simp only [Pi.add_apply, Pi.smul_apply, smul_eq_mul]
  ring

/-- C87: in particular, a rate that does not change along the step raises the level by the rate times the length of
the step. -/
theorem C87_constant_rate (c : Config K) (b n shl shl' : ℕ) (dt : K) (dswl ds zb gw G r : ℕ → K)
    (hG : G = conditioned c b n shl shl' dswl zb gw) (hG0 : rate c n shl ds G = r)
    (hr : ∀ v : ℕ → K, (∀ j, ¬ (shl + 1 ≤ j ∧ j + 3 < n) → v j = 0) →
      rate c n shl ds (conditioned c b n shl shl' dswl zb (G + v)) = r) :
    rungeKutta c b n shl shl' dt dswl ds zb gw = G + dt • r := by
  rw [C87_fourth_order c b n shl shl' dt dswl ds zb gw G r 0 hG (fun v hv => by rw [hr v hv]; simp) hG0]
  simp

/-! Concrete cases. -/

/-- Six cells of size one with levels 1, 2, 5, 4, 4, 4 (static boundary at 4): one cell is computed. -/
def sixLevels : ℕ → ℚ := fun j => if j = 0 then 1 else if j = 1 then 2 else if j = 2 then 5 else 4

theorem sixLevels_rate (v : ℕ → ℚ) (hv : ∀ j, ¬ (1 + 1 ≤ j ∧ j + 3 < 6) → v j = 0) :
    rate ⟨4, 1, 1, 1, 0, false⟩ 6 1 (fun _ => 1)
      (conditioned ⟨4, 1, 1, 1, 0, false⟩ 1 6 1 1 (fun _ => 2) (fun _ => 9) (sixLevels + v)) =
    (fun j => if j = 2 then 20 else 0 : ℕ → ℚ) := by
  have hc : conditioned ⟨4, 1, 1, 1, 0, false⟩ 1 6 1 1 (fun _ => 2) (fun _ => 9) (sixLevels + v) =
      fun j => if j = 2 then 5 + v 2 else sixLevels j := by
    funext j
    unfold conditioned seepageFace bounds
    simp only [Function.update_apply, Bool.false_eq_true, if_false, one_ne_zero, if_true, Pi.add_apply]
    by_cases h2 : j = 2
    · subst h2; simp [sixLevels]
    · have hvj : v j = 0 := hv j (by omega)
      by_cases h3 : 3 ≤ j ∧ j < 6
      · rw [if_pos (by omega), if_neg h2]
        unfold sixLevels
        rw [if_neg (by omega), if_neg (by omega), if_neg (by omega)]
      · rw [if_neg (by omega), if_neg h2, hvj]
        by_cases h1 : j = 1
        · subst h1; simp [sixLevels]
        · simp [h1]
  rw [hc]
  funext j
  unfold rate flux
  by_cases h2 : j = 2
  · subst h2
    simp [sixLevels]
    ring
  · rw [if_neg (by omega), if_neg h2]

example (dt : ℚ) : rungeKutta ⟨4, 1, 1, 1, 0, false⟩ 1 6 1 1 dt (fun _ => 2) (fun _ => 1) (fun _ => 9)
    sixLevels 2 = 5 + dt * 20 := by
  have hG : sixLevels = conditioned ⟨4, 1, 1, 1, 0, false⟩ 1 6 1 1 (fun _ => (2 : ℚ)) (fun _ => 9) sixLevels := by
    funext j
    unfold conditioned seepageFace bounds
    simp only [Function.update_apply, Bool.false_eq_true, if_false, one_ne_zero, if_true]
    split_ifs with h1 h2
    · unfold sixLevels; rw [if_neg (by omega), if_neg (by omega), if_neg (by omega)]
    · subst h2; simp [sixLevels]
    · rfl
  have h0 := sixLevels_rate 0 (fun _ _ => rfl)
  rw [add_zero, ← hG] at h0
  rw [C87_constant_rate _ _ _ _ _ _ _ _ _ _ _ _ hG h0 sixLevels_rate]
  simp [sixLevels]

example : seepageFace ⟨0, 1, 1, 1, 0, true⟩ 10 2 (fun j => (j : ℚ)) (fun _ => 5) 3 = 3 :=
  (C65_seepage ⟨0, 1, 1, 1, 0, true⟩ 10 2 (fun j => (j : ℚ)) (fun _ => 5) 6 (by norm_num) (by norm_num)
    (fun i hi => by
      have : (i : ℚ) ≤ 5 := by exact_mod_cast (by omega : i ≤ 5)
      linarith) 3).1 rfl (by norm_num) (by norm_num)

/-- The shoreline takes the level of the sea; with a static boundary the last three cells take the configured level. -/
example : bounds gwConfig 1 20 5 5 (fun _ => (1 / 2 : ℚ)) (fun _ => 3) 5 = 1 / 2 ∧
    bounds gwConfig 1 20 5 5 (fun _ => (1 / 2 : ℚ)) (fun _ => 3) 18 = gwConfig.gwStat ∧
    bounds gwConfig 1 20 5 5 (fun _ => (1 / 2 : ℚ)) (fun _ => 3) 10 = 3 :=
  ⟨(C65_ends gwConfig 1 20 5 5 _ _ (by norm_num) (by norm_num) 5 (by norm_num)).1,
    (C65_ends gwConfig 1 20 5 5 _ _ (by norm_num) (by norm_num) 18 (by norm_num)).2.2.1 rfl (by norm_num),
    (C65_ends gwConfig 1 20 5 5 _ _ (by norm_num) (by norm_num) 10 (by norm_num)).2.2.2 (by norm_num) (by norm_num) (by norm_num)⟩

example : seepageFace ⟨0, 1, 1, 1, 0, true⟩ 10 2 (fun j => (j : ℚ)) (fun _ => 9) = fun _ => 9 :=
  C65_seepage_all_wet _ _ _ _ _ (fun i hi => by
    have : (i : ℚ) ≤ 9 := by exact_mod_cast (by omega : i ≤ 9)
    linarith)

/-- The levels of the example before: a rate that does not depend on the level of the cells in between. -/
example (dt : ℚ) : rungeKutta ⟨4, 1, 1, 1, 0, false⟩ 1 6 1 1 dt (fun _ => 2) (fun _ => 1) (fun _ => 9) sixLevels
    = sixLevels + dt • rate ⟨4, 1, 1, 1, 0, false⟩ 6 1 (fun _ => 1) sixLevels := by
  have hG : sixLevels = conditioned ⟨4, 1, 1, 1, 0, false⟩ 1 6 1 1 (fun _ => (2 : ℚ)) (fun _ => 9) sixLevels := by
    funext j
    unfold conditioned seepageFace bounds
    simp only [Function.update_apply, Bool.false_eq_true, if_false, one_ne_zero, if_true]
    split_ifs with h1 h2
    · unfold sixLevels; rw [if_neg (by omega), if_neg (by omega), if_neg (by omega)]
    · subst h2; simp [sixLevels]
    · rfl
  have h0 := sixLevels_rate 0 (fun _ _ => rfl)
  rw [add_zero, ← hG] at h0
  have h := C87_fourth_order ⟨4, 1, 1, 1, 0, false⟩ 1 6 1 1 dt (fun _ => 2) (fun _ => 1) (fun _ => 9) sixLevels sixLevels _ 0 hG
    (fun v hv => by rw [sixLevels_rate v hv]; simp) h0
  rw [h, h0]
  simp

end Aeolis.Props
