import Verif.Model.Groundwater
import Mathlib.Tactic.Linarith
import Mathlib.Tactic.Positivity
import Mathlib.Tactic.NormNum
import Mathlib.Tactic.FieldSimp
import Mathlib.Tactic.Ring
import Mathlib.Tactic.SplitIfs
import Mathlib.Data.Rat.Floor

/-! C65 (limits on the groundwater), C86 (groundwater steps), C87 (groundwater at rest), C90 (overheight). -/

set_option linter.unusedSectionVars false

namespace Aeolis.Props

open Aeolis.Ground

variable {K : Type*} [Field K] [LinearOrder K] [IsStrictOrderedRing K] [FloorRing K]

/-- C86: a time step shorter than `tfac_gw` seconds makes the groundwater computation divide by zero. -/
theorem C86_short_steps_fail (dt tfac : K) (hdt : 0 ≤ dt) (hlt : dt < tfac) :
    substeps dt tfac = .error .zeroDivision := by
  have ht : 0 < tfac := lt_of_le_of_lt hdt hlt
  have h0 : 0 ≤ dt / tfac := div_nonneg hdt ht.le
  have h1 : ⌊dt / tfac⌋ = 0 := Int.floor_eq_zero_iff.mpr ⟨h0, (div_lt_one ht).mpr hlt⟩
  unfold substeps pyInt
  rw [if_neg ht.ne', if_pos h0, h1]
  rfl

/-- C86: otherwise the groundwater steps are whole seconds, at most `dt / tfac`, there is at least one of them if
`tfac` is at least one, and together they cover the time step up to a rest shorter than one groundwater step, which
is lost. -/
theorem C86_coverage (dt tfac : K) (ht : 0 < tfac) (hle : tfac ≤ dt) :
    ∃ (d : ℤ) (n : ℕ), substeps dt tfac = .ok (d, n) ∧ 1 ≤ d ∧ (d : K) ≤ dt / tfac ∧
      (n : K) * d ≤ dt ∧ dt < ((n : K) + 1) * d ∧ (1 ≤ tfac → 1 ≤ n) := by
  have hdt : 0 < dt := lt_of_lt_of_le ht hle
  have h1 : 1 ≤ dt / tfac := (one_le_div ht).mpr hle
  have hd1 : 1 ≤ ⌊dt / tfac⌋ := Int.le_floor.mpr (by simpa using h1)
  have hdK : (1 : K) ≤ (⌊dt / tfac⌋ : K) := by exact_mod_cast hd1
  have hdp : (0 : K) < (⌊dt / tfac⌋ : K) := lt_of_lt_of_le one_pos hdK
  have hq : 0 ≤ dt / (⌊dt / tfac⌋ : K) := div_nonneg hdt.le hdp.le
  have hfl : 0 ≤ ⌊dt / (⌊dt / tfac⌋ : K)⌋ := Int.floor_nonneg.mpr hq
  have hn : ((⌊dt / (⌊dt / tfac⌋ : K)⌋.toNat : ℕ) : K) = (⌊dt / (⌊dt / tfac⌋ : K)⌋ : K) := by
    rw [← Int.cast_natCast, Int.toNat_of_nonneg hfl]
  refine ⟨⌊dt / tfac⌋, ⌊dt / (⌊dt / tfac⌋ : K)⌋.toNat, ?_, hd1, Int.floor_le _, ?_, ?_, ?_⟩
  · unfold substeps pyInt
    rw [if_neg ht.ne', if_pos (zero_le_one.trans h1)]
    dsimp only
    rw [if_neg (by omega), if_pos hq]
  · rw [hn]; exact (le_div_iff₀ hdp).mp (Int.floor_le _)
  · rw [hn]; exact (div_lt_iff₀ hdp).mp (Int.lt_floor_add_one _)
  · intro h
    have h2 : (⌊dt / tfac⌋ : K) ≤ dt := (Int.floor_le _).trans (div_le_self hdt.le h)
    have h3 : 1 ≤ ⌊dt / (⌊dt / tfac⌋ : K)⌋ := Int.le_floor.mpr (by
      rw [Int.cast_one]; exact (one_le_div hdp).mpr h2)
    omega

/-- C86: an unknown landward boundary is reported as `TypeError`, not as the intended `ValueError`. -/
theorem C86_unknown_boundary (c : Config K) (name : String) (n : ℕ) (dt tfac : K) (ds zb : ℕ → K) (mask : ℕ → K × K)
    (forcing : ℕ → Forcing K) (gw : ℕ → K) (h1 : lower name ≠ "no_flow") (h2 : lower name ≠ "static")
    (ht : 1 ≤ tfac) (hle : tfac ≤ dt) :
    gwUpdate c name n dt tfac ds zb mask forcing gw = .error .typeError := by
  obtain ⟨d, m, hs, _, _, _, _, hm⟩ := C86_coverage dt tfac (lt_of_lt_of_le one_pos ht) hle
  have hm := hm ht
  unfold gwUpdate
  simp only [hs]
  obtain ⟨k, rfl⟩ : ∃ k, m = k + 1 := ⟨m - 1, by omega⟩
  rw [List.range_succ_eq_map, List.foldlM_cons]
  simp only [gwTry, boundary, if_neg h1, if_neg h2]
  rfl

/-- C65: after a time step the groundwater is at most the bed level in every cell whose bed is not below the set-up
level, and equal to the set-up level in every other cell (set-up level at the last groundwater step). -/
theorem C65_limits (c : Config K) (name : String) (n : ℕ) (dt tfac : K) (ds zb : ℕ → K) (mask : ℕ → K × K)
    (forcing : ℕ → Forcing K) (gw gw' : ℕ → K) (ht : 1 ≤ tfac) (hle : tfac ≤ dt)
    (h : gwUpdate c name n dt tfac ds zb mask forcing gw = .ok gw') :
    ∃ d last, substeps dt tfac = .ok (d, last + 1) ∧ ∀ j,
        (zb j < (forcing last).dswl j → gw' j = (forcing last).dswl j) ∧
        ((forcing last).dswl j ≤ zb j → gw' j ≤ zb j) := by
  obtain ⟨d, m', hs, _, _, _, _, hm⟩ := C86_coverage dt tfac (lt_of_lt_of_le one_pos ht) hle
  have hm := hm ht
  obtain ⟨m, rfl⟩ : ∃ k, m' = k + 1 := ⟨m' - 1, by omega⟩
  unfold gwUpdate at h
  simp only [hs] at h
  refine ⟨d, m, hs, fun j => ?_⟩
  rw [List.range_succ, List.foldlM_append] at h
  match hf : (List.range m).foldlM (m := Except PyErr)
      (gwTry c name n (d : K) ds zb mask forcing) gw with
  | .error e => rw [hf] at h; cases h
  | .ok g =>
    rw [hf] at h
    change List.foldlM (m := Except PyErr) (gwTry c name n (d : K) ds zb mask forcing) g [m] = _ at h
    rw [List.foldlM_cons] at h
    unfold gwTry at h
    match hb : boundary name with
    | .error e => simp only [hb] at h; cases h
    | .ok b =>
      simp only [hb] at h
      have h : gwStep c b n (d : K) ds zb mask (forcing m) g = gw' := Except.ok.inj h
      rw [← h]
      unfold gwStep limit
      constructor
      · intro hlt; rw [if_pos hlt]
      · intro hle; rw [if_neg (not_lt.mpr hle)]; exact min_le_right _ _

/-- C87: on a grid with equal cell sizes a flat groundwater table has no rate of change. -/
theorem C87_flat_is_steady (c : Config K) (n shl : ℕ) (ds GW : ℕ → K) (G d : K)
    (hds : ∀ j, ds j = d) (hflat : ∀ j, GW j = G) (j : ℕ) : rate c n shl ds GW j = 0 := by
  unfold rate flux
  simp only [hds, hflat]
  split_ifs
  · ring
  · rfl

/-- C87: on a grid with unequal cell sizes a flat table does change: exactly where the cell sizes on both sides
differ (the code adds the neighbouring levels where it should subtract them). -/
theorem C87_flat_not_steady (c : Config K) (n shl : ℕ) (ds GW : ℕ → K) (G : K) (hG : G ≠ 0)
    (hc : c.K_gw ≠ 0) (hne : c.ne ≠ 0) (hds : ∀ j, ds j ≠ 0) (hflat : ∀ j, GW j = G) (j : ℕ)
    (hj1 : shl + 1 ≤ j) (hj2 : j + 3 < n) :
    rate c n shl ds GW j ≠ 0 ↔ ds (j + 1) ≠ ds (j - 1) := by
  unfold rate flux
  simp only [hflat]
  rw [if_pos ⟨by omega, hj1, hj2⟩]
  have e : c.K_gw / c.ne * (c.D * ((G - 2 * G + G) / ds j ^ 2) +
      (G * (G + G) / ds (j + 1) - G * (G + G) / ds (j - 1)) / ds j) =
      c.K_gw / c.ne * (2 * G ^ 2) / ds j * ((ds (j - 1) - ds (j + 1)) / (ds (j + 1) * ds (j - 1))) := by
    have := hds j; have := hds (j + 1); have := hds (j - 1)
    field_simp
    ring
  rw [e]
  have h1 : c.K_gw / c.ne * (2 * G ^ 2) / ds j ≠ 0 := by
    have := hds j
    have h2 : (2 : K) ≠ 0 := two_ne_zero
    positivity
  have h2 : ds (j + 1) * ds (j - 1) ≠ 0 := mul_ne_zero (hds _) (hds _)
  constructor
  · intro h h'
    apply h; rw [h', sub_self, zero_div, mul_zero]
  · intro h
    refine mul_ne_zero h1 (div_ne_zero (sub_ne_zero.mpr (Ne.symm h)) h2)

/-- C87: a flat groundwater table at the set-up level below the bed stays as it is through any number of
groundwater steps (equal cell sizes, no infiltration, no mask, no seepage face). -/
theorem C87_rest (c : Config K) (b n : ℕ) (dt d G : K) (ds zb : ℕ → K) (mask : ℕ → K × K)
    (hseep : c.seepage = false) (hstat : b = 1 → c.gwStat = G) (hds : ∀ j, ds j = d)
    (hmask : ∀ j, mask j = (1, 0)) (hzb : ∀ j, G ≤ zb j) (fs : List (Forcing K))
    (hf : ∀ f ∈ fs, (∀ j, f.dswl j = G) ∧ ∀ j, f.fx j = 0) :
    fs.foldl (fun gw f => gwStep c b n dt ds zb mask f gw) (fun _ => G) = fun _ => G := by
  induction fs with
  | nil => rfl
  | cons f fs ih =>
    have hcond : ∀ GW : ℕ → K, (∀ j, GW j = G) → ∀ j, conditioned c b n f.shl f.shl' f.dswl zb GW j = G := by
      intro GW hGW j
      have hd := (hf f (by simp)).1
      have hu : ∀ i, Function.update (Function.update GW f.shl (f.dswl f.shl)) f.shl' (f.dswl f.shl') i = G := by
        intro i
        simp only [Function.update_apply, hd, hGW]
        split_ifs <;> rfl
      unfold conditioned seepageFace
      rw [hseep]
      simp only [Bool.false_eq_true, if_false]
      unfold bounds
      split_ifs with h1 h2 h3
      · exact hu _
      · exact hstat h3
      · exact hu _
      · exact hu _
    have hB : ∀ GW : ℕ → K, (∀ j, GW j = G) →
        (∀ j, (boussinesq c b n f.shl f.shl' f.dswl ds zb GW).1 j = 0) ∧
        (∀ j, (boussinesq c b n f.shl f.shl' f.dswl ds zb GW).2 j = G) := by
      intro GW hGW
      exact ⟨fun j => C87_flat_is_steady _ _ _ _ _ G d hds (hcond GW hGW) j, hcond GW hGW⟩
    have hstep : gwStep c b n dt ds zb mask f (fun _ => G) = fun _ => G := by
      funext j
      have hRK : rungeKutta c b n f.shl f.shl' dt f.dswl ds zb (fun _ => G) j = G := by
        unfold rungeKutta
        have h1 := hB (fun _ => G) (fun _ => rfl)
        have h2 := hB (fun j => (boussinesq c b n f.shl f.shl' f.dswl ds zb fun _ => G).2 j + dt / 2 *
          (boussinesq c b n f.shl f.shl' f.dswl ds zb fun _ => G).1 j)
          (fun j => by rw [h1.1, h1.2, mul_zero, add_zero])
        have h3 := hB (fun j => (boussinesq c b n f.shl f.shl' f.dswl ds zb fun _ => G).2 j + dt / 2 *
          (boussinesq c b n f.shl f.shl' f.dswl ds zb (fun j =>
            (boussinesq c b n f.shl f.shl' f.dswl ds zb fun _ => G).2 j + dt / 2 *
            (boussinesq c b n f.shl f.shl' f.dswl ds zb fun _ => G).1 j)).1 j)
          (fun j => by rw [h2.1, h1.2, mul_zero, add_zero])
        rw [h1.1, h1.2, h2.1, h3.1, (hB _ (fun j => by rw [h3.1, h1.2, mul_zero, add_zero])).1]
        ring
      unfold gwStep limit
      rw [hRK, (hf f (by simp)).1, (hf f (by simp)).2, hmask, if_neg (not_lt.mpr (hzb j))]
      simp [hzb j]
    rw [List.foldl_cons, hstep]
    exact ih (fun f' hf' => hf f' (by simp [hf']))

/-- C90: on a grid with equal cell sizes the distribution of the infiltrated water is between zero and one, one at its
peak and zero outside the stretch from the shoreline to the runup limit. -/
theorem C90_overheight (x : ℕ → K) (x0 d : K) (hd : 0 < d) (hx : ∀ j, x j = x0 + j * d) (shl ru : ℕ)
    (hlt : shl < ru) (j : ℕ) :
    0 ≤ overheight x shl (shl + 2 * (ru - shl) / 3) ru j ∧
    overheight x shl (shl + 2 * (ru - shl) / 3) ru j ≤ 1 ∧
    overheight x shl (shl + 2 * (ru - shl) / 3) ru (shl + 2 * (ru - shl) / 3) = 1 ∧
    (j < shl ∨ ru ≤ j → overheight x shl (shl + 2 * (ru - shl) / 3) ru j = 0) := by
  obtain ⟨w, rfl⟩ : ∃ w, ru = shl + w := ⟨ru - shl, by omega⟩
  have hw : 0 < w := by omega
  rw [show shl + w - shl = w by omega]
  have hpk : 2 * w / 3 < w := by omega
  have hwK : (0 : K) < w := by exact_mod_cast hw
  have hdist : x (shl + w) - x shl = w * d := by rw [hx, hx]; push_cast; ring
  have hpeak : overheight x shl (shl + 2 * w / 3) (shl + w) (shl + 2 * w / 3) = 1 := by
    unfold overheight; rw [if_pos rfl]
  have hval : 0 ≤ overheight x shl (shl + 2 * w / 3) (shl + w) j ∧
      overheight x shl (shl + 2 * w / 3) (shl + w) j ≤ 1 := by
    unfold overheight
    split_ifs with h1 h2 h3
    · exact ⟨zero_le_one, le_rfl⟩
    · obtain ⟨k, rfl⟩ : ∃ k, j = shl + k := ⟨j - shl, by omega⟩
      have hk1 : (2 * w : ℕ) ≤ 3 * k := by omega
      have hk2 : k ≤ w := by omega
      have hk1' : (2 : K) * w ≤ 3 * k := by exact_mod_cast hk1
      have hk2' : (k : K) ≤ w := by exact_mod_cast hk2
      have e : 3 - (x (shl + k) - x shl) / (1 / 3 * (x (shl + w) - x shl)) = 3 - 3 * k / w := by
        rw [hdist, hx, hx]; push_cast; field_simp; ring
      rw [e]
      have h4 : 3 * (k : K) / w ≤ 3 := by rw [div_le_iff₀ hwK]; linarith
      have h5 : 2 ≤ 3 * (k : K) / w := by rw [le_div_iff₀ hwK]; linarith
      constructor <;> linarith
    · obtain ⟨k, rfl⟩ : ∃ k, j = shl + k := ⟨j - shl, by omega⟩
      have hk1 : 3 * k ≤ 2 * w := by omega
      have hk1' : (3 : K) * k ≤ 2 * w := by exact_mod_cast hk1
      have e : (x (shl + k) - x shl) / (2 / 3 * (x (shl + w) - x shl)) = 3 * k / (2 * w) := by
        rw [hdist, hx, hx]; push_cast; field_simp; ring
      rw [e]
      exact ⟨by positivity, (div_le_one (by positivity)).mpr hk1'⟩
    · exact ⟨le_rfl, zero_le_one⟩
  refine ⟨hval.1, hval.2, hpeak, fun h => ?_⟩
  unfold overheight
  rw [if_neg (by omega), if_neg (by omega), if_neg (by omega)]

/-! Concrete cases. -/

/-- With the default factor 10 a step of 5 s fails; a step of 37 s is done in 12 steps of 3 s, one second is lost. -/
example : substeps (5 : ℚ) 10 = .error .zeroDivision := C86_short_steps_fail _ _ (by norm_num) (by norm_num)

example : substeps (37 : ℚ) 10 = .ok (3, 12) := by
  have h1 : ⌊(37 : ℚ) / 10⌋ = 3 := by rw [Int.floor_eq_iff]; norm_num
  have h2 : ⌊(37 : ℚ) / ((3 : ℤ) : ℚ)⌋ = 12 := by rw [Int.floor_eq_iff]; norm_num
  unfold substeps pyInt
  rw [if_neg (by norm_num), if_pos (by norm_num : (0 : ℚ) ≤ 37 / 10), h1]
  dsimp only
  rw [if_neg (by norm_num), if_pos (by norm_num), h2]
  rfl

/-- Groundwater parameters. -/
def gwConfig : Config ℚ := ⟨0, 78 / 100000, 3 / 10, 12, 7 / 10, false⟩

/-- A flat table of 1 m on a grid with a cell of 2 m among cells of 1 m changes next to that cell. -/
example : rate gwConfig 20 3 (fun j => if j = 9 then 2 else 1) (fun _ => 1) 8 ≠ 0 :=
  (C87_flat_not_steady gwConfig 20 3 _ _ 1 (by norm_num) (by norm_num [gwConfig]) (by norm_num [gwConfig])
    (by intro j; split_ifs <;> norm_num) (fun _ => rfl) 8 (by norm_num) (by norm_num)).mpr (by norm_num)

/-- A step with known boundary succeeds, so that the limits hold. -/
example : ∃ gw', gwUpdate gwConfig "No_Flow" 20 (37 : ℚ) 10 (fun _ => 1) (fun j => j / 10) (fun _ => (1, 0))
    (fun _ => ⟨fun _ => 1 / 2, 5, 5, fun _ => 0⟩) (fun _ => 3) = .ok gw' ∧ gw' 2 = 1 / 2 ∧ gw' 10 ≤ 1 := by
  have hb : boundary "No_Flow" = .ok 0 := by
    unfold boundary; rw [if_pos (by decide)]
  obtain ⟨d, m, hs, _, _, _, _, hm⟩ := C86_coverage (37 : ℚ) 10 (by norm_num) (by norm_num)
  have hm := hm (by norm_num)
  have h : ∃ gw', gwUpdate gwConfig "No_Flow" 20 (37 : ℚ) 10 (fun _ => 1) (fun j => j / 10) (fun _ => (1, 0))
      (fun _ => ⟨fun _ => 1 / 2, 5, 5, fun _ => 0⟩) (fun _ => 3) = .ok gw' := by
    unfold gwUpdate
    simp only [hs]
    have : ∀ (l : List ℕ) (g : ℕ → ℚ), ∃ gw', l.foldlM (m := Except PyErr)
        (gwTry gwConfig "No_Flow" 20 (d : ℚ) (fun _ => 1) (fun j => (j : ℚ) / 10) (fun _ => (1, 0))
          (fun _ => ⟨fun _ => 1 / 2, 5, 5, fun _ => 0⟩)) g = .ok gw' := by
      intro l
      induction l with
      | nil => intro g; exact ⟨g, rfl⟩
      | cons a l ih => intro g; rw [List.foldlM_cons]; unfold gwTry; simp only [hb]; exact ih _
    exact this _ _
  obtain ⟨gw', h⟩ := h
  obtain ⟨_, last, _, hl⟩ := C65_limits _ _ _ _ _ _ _ _ _ _ _ (by norm_num) (by norm_num) h
  refine ⟨gw', h, (hl 2).1 (by norm_num), ?_⟩
  have := (hl 10).2 (by norm_num)
  norm_num at this
  exact this

example : gwUpdate gwConfig "open" 20 (37 : ℚ) 10 (fun _ => 1) (fun j => j / 10) (fun _ => (1, 0))
    (fun _ => ⟨fun _ => 1 / 2, 5, 5, fun _ => 0⟩) (fun _ => 3) = .error .typeError :=
  C86_unknown_boundary _ _ _ _ _ _ _ _ _ _ (by decide) (by decide) (by norm_num) (by norm_num)

example (j : ℕ) : rate gwConfig 20 3 (fun _ => 1) (fun _ => 1) j = 0 := C87_flat_is_steady _ _ _ _ _ 1 1 (fun _ => rfl) (fun _ => rfl) j

/-- Three steps at rest at the level of the sea. -/
example : [(⟨fun _ => 1 / 2, 5, 5, fun _ => 0⟩ : Ground.Forcing ℚ), ⟨fun _ => 1 / 2, 6, 6, fun _ => 0⟩, ⟨fun _ => 1 / 2, 5, 5, fun _ => 0⟩].foldl
      (fun gw f => gwStep gwConfig 0 20 3 (fun _ => 1) (fun j => 1 + j / 10) (fun _ => (1, 0)) f gw) (fun _ => 1 / 2)
    = fun _ => 1 / 2 :=
  C87_rest gwConfig 0 20 3 1 (1 / 2) _ _ _ rfl (by norm_num) (fun _ => rfl) (fun _ => rfl)
    (fun j => by have := Nat.cast_nonneg (α := ℚ) j; linarith) _ (by simp)

end Aeolis.Props
