import Verif.Props.Vegetation

/-! Property theorems on the density-based growth model and on germination: C69, C91. -/

set_option linter.unusedSectionVars false

namespace Aeolis.Props

open Aeolis.Veg

noncomputable section

theorem trunc_le_max (x : ℝ) : ((trunc x : ℤ) : ℝ) ≤ max x 0 := by
  unfold trunc
  split_ifs with h
  · exact (Int.floor_le x).trans (le_max_left _ _)
  · have : ⌈x⌉ ≤ 0 := Int.ceil_le.mpr (by push_cast; linarith [not_le.mp h])
    exact (by exact_mod_cast this : ((⌈x⌉ : ℤ) : ℝ) ≤ 0).trans (le_max_right _ _)

theorem trunc_eq_zero (x : ℝ) (h : |x| < 1) : trunc x = 0 := by
  have := abs_lt.mp h
  unfold trunc
  split_ifs with h0
  · exact Int.floor_eq_zero_iff.mpr ⟨h0, this.2⟩
  · refine Int.ceil_eq_zero_iff.mpr ⟨this.1, (not_le.mp h0).le⟩

/-- A cell with vegetation counts as germinated. -/
theorem germ_of_rho (c : Config) (dx : ℝ) (e : Env) (k : ℕ) (r : ℝ) (s : Cell) (h : 0 < s.rho) :
    (germinateCell c dx e k r s).germ = 1 := by
  unfold germinateCell
  simp only [h, if_true]
  split_ifs <;> norm_num

/-- One step of the density-based growth model. -/
theorem grow_density {c : Config} (horig : c.orig = false) (hmax : 0 < c.hmax) (hV : 0 < c.Vver) (ht : 0 < c.tVeg)
    (hg : 0 ≤ c.gamma) (hv : 0 ≤ c.vGam) (hr : 0 ≤ c.rhoMax)
    (hdt0 : 0 ≤ c.dt * c.accfac) (hdt : c.dt * c.accfac / year ≤ c.tVeg / 365) (dx : ℝ) (e : Env) (k : ℕ) (r : ℝ) (s : Cell)
    (h0 : 0 ≤ s.rho) (h1 : s.rho ≤ c.rhoMax) :
    let s' := grow c e (germinateCell c dx e k r s)
    0 ≤ s'.rho ∧ s'.rho ≤ c.rhoMax ∧ s'.h = c.hmax * Real.sqrt s'.rho := by
  dsimp only
  have hy : (0:ℝ) < year := by unfold year; norm_num
  have hgr : 0 < s.rho → (germinateCell c dx e k r s).germ = 1 := germ_of_rho c dx e k r s
  have e1 : (germinateCell c dx e k r s).rho = s.rho := rfl
  generalize germinateCell c dx e k r s = t at hgr e1
  rw [← e1] at h0 h1 hgr
  have hG : 0 ≤ (growth c e t).rho ∧ (growth c e t).rho ≤ c.rhoMax ∧
      (growth c e t).h = c.hmax * Real.sqrt (growth c e t).rho := by
    unfold growth
    simp only [horig, Bool.false_eq_true, if_false]
    have ht' : (if (t.germ ≠ 0 ∨ t.lat ≠ 0) ∧ 0 < c.Vver then
      { t with dh := c.Vver * (1 - t.h / c.hmax) - |e.dzb - c.dzbOpt| * c.gamma } else t).rho = t.rho := by
      split_ifs <;> rfl
    simp only [ht', not_lt.mpr h1, if_false]
    refine ⟨?_, ?_, trivial⟩
    · split_ifs with a b <;> first | exact le_rfl | exact not_lt.mp ‹_›
    · rcases h0.lt_or_eq with hpos | hz
      · have ix : (t.germ ≠ 0 ∨ t.lat ≠ 0) ∧ 0 < c.Vver := ⟨Or.inl (by rw [hgr hpos]; norm_num), hV⟩
        simp only [ix, hV, ne_eq, and_self, if_true, not_le.mpr hpos, if_false]
        split_ifs
        · exact hr
        · set x := (c.rhoMax - t.rho) / (c.tVeg / 365) - c.vGam / c.hmax * |e.dzb - c.dzbOpt| * c.gamma with hx
          have hx1 : max x 0 ≤ (c.rhoMax - t.rho) / (c.tVeg / 365) := by
            refine max_le ?_ (div_nonneg (by linarith) (by positivity))
            have : 0 ≤ c.vGam / c.hmax * |e.dzb - c.dzbOpt| * c.gamma := by positivity
            linarith
          have hq : 0 ≤ c.dt * c.accfac / year := div_nonneg hdt0 hy.le
          have h2 : (trunc x : ℝ) * (c.dt * c.accfac / year) ≤ (c.rhoMax - t.rho) / (c.tVeg / 365) * (c.tVeg / 365) :=
            calc (trunc x : ℝ) * (c.dt * c.accfac / year)
                ≤ (c.rhoMax - t.rho) / (c.tVeg / 365) * (c.dt * c.accfac / year) :=
                  mul_le_mul_of_nonneg_right ((trunc_le_max x).trans hx1) hq
              _ ≤ _ := mul_le_mul_of_nonneg_left hdt (div_nonneg (by linarith) (by positivity))
          rw [div_mul_cancel₀ _ (by positivity : c.tVeg / 365 ≠ 0)] at h2
          rw [mul_div_assoc]
          linarith
      · simp only [← hz, le_refl, if_true]
        exact hr
  obtain ⟨hd, -, -⟩ := dying_cases c e (growth c e t)
  unfold grow
  rcases hd with ⟨a, b⟩ | ⟨a, b⟩ <;> rw [a, b]
  · exact hG
  · exact ⟨le_rfl, hr, by simp⟩

/-- C69 With the density-based growth model, active growth and a configured step not longer than the characteristic time,
the density stays between 0 and the maximum density and the height is that of the density, after every history. -/
theorem C69_range {c : Config} (horig : c.orig = false) (hmax : 0 < c.hmax) (hV : 0 < c.Vver) (ht : 0 < c.tVeg)
    (hg : 0 ≤ c.gamma) (hv : 0 ≤ c.vGam) (hr : 0 ≤ c.rhoMax)
    (hdt0 : 0 ≤ c.dt * c.accfac) (hdt : c.dt * c.accfac / year ≤ c.tVeg / 365) (ny nx : ℕ) (dx : ℝ)
    (ds dn file : ℕ → ℕ → ℝ) (hfile : ∀ i j, file i j ≤ c.rhoMax) (inputs : List VegInput) (i j : ℕ) :
    let s := vegRun c ny nx dx ds dn file inputs i j
    0 ≤ s.rho ∧ s.rho ≤ c.rhoMax ∧ s.h = c.hmax * Real.sqrt s.rho := by
  dsimp only
  refine vegRun_invariant (fun s => 0 ≤ s.rho ∧ s.rho ≤ c.rhoMax ∧ s.h = c.hmax * Real.sqrt s.rho) ?_ ?_ inputs i j
  · intro i j
    unfold initCell
    dsimp only
    refine ⟨?_, ?_, rfl⟩ <;> split_ifs with h
    · simp
    · exact not_lt.mp h
    · simpa using hr
    · exact hfile i j
  · exact fun e k r s h => grow_density horig hmax hV ht hg hv hr hdt0 hdt dx e k r s h.1 h.2.1

/-- Density-based growth with the default parameters and steps of one hour. -/
def duranMoore : Config :=
  { orig := false, processTide := true, Vver := 1, hmax := 1, dzbOpt := 0, gamma := 1, dtOpt := 3600, dt := 3600,
    accfac := 1, tVeg := 3, vGam := 1, rhoMax := 1 / 2, zmin := 0, pGerm := 0, pLat := 0 }

example : duranMoore.orig = false ∧ 0 < duranMoore.hmax ∧ 0 < duranMoore.Vver ∧ 0 < duranMoore.tVeg ∧
    duranMoore.dt * duranMoore.accfac / year ≤ duranMoore.tVeg / 365 ∧ (1 / 5 : ℝ) ≤ duranMoore.rhoMax := by
  unfold duranMoore year
  norm_num

/-- C69 Under the density-based model vegetation appears nowhere: a bare cell stays bare in every step, whatever
germinates or expands. -/
theorem C69_no_new_vegetation {c : Config} (horig : c.orig = false) (hr : 0 ≤ c.rhoMax) (dx : ℝ) (e : Env) (k : ℕ)
    (r : ℝ) (s : Cell) (h0 : s.rho = 0) :
    (grow c e (germinateCell c dx e k r s)).rho = 0 ∧ (grow c e (germinateCell c dx e k r s)).h = 0 := by
  have e1 : (germinateCell c dx e k r s).rho = 0 := h0
  generalize germinateCell c dx e k r s = t at e1
  have hG : (growth c e t).rho = 0 ∧ (growth c e t).h = 0 := by
    unfold growth
    simp only [horig, Bool.false_eq_true, if_false]
    have ht' : (if (t.germ ≠ 0 ∨ t.lat ≠ 0) ∧ 0 < c.Vver then
      { t with dh := c.Vver * (1 - t.h / c.hmax) - |e.dzb - c.dzbOpt| * c.gamma } else t).rho = 0 := by
      split_ifs <;> exact e1
    simp only [ht', not_lt.mpr hr, if_false, le_refl, if_true, Real.sqrt_zero, mul_zero, and_self]
  obtain ⟨hd, -, -⟩ := dying_cases c e (growth c e t)
  unfold grow
  rcases hd with ⟨a, b⟩ | ⟨a, b⟩ <;> rw [a, b]
  · exact hG
  · exact ⟨rfl, rfl⟩

/-- A bare cell that germinates: its flag is set, yet it stays bare. -/
example : (germinateCell { duranMoore with pGerm := 1 } 1 ⟨3, 0, 0⟩ 0 0 ⟨0, 0, 0, 0, 0, 0⟩).germ = 1 := by
  have : (0:ℝ) ≤ stepProb 1 (stepsPerYear { duranMoore with pGerm := 1 }) := by
    unfold stepProb stepsPerYear duranMoore year
    rw [sub_self, Real.zero_rpow (by norm_num)]
    norm_num
  unfold germinateCell
  simp [this]

/-- C69 Growth rates below one per year are lost: the rate is stored as an integer, so the density does not change. -/
theorem C69_slow_growth_is_lost {c : Config} (horig : c.orig = false) (hV : 0 < c.Vver) (dx : ℝ) (e : Env) (k : ℕ)
    (r : ℝ) (s : Cell) (h0 : 0 < s.rho) (h1 : s.rho ≤ c.rhoMax) (hdry : e.zs ≤ e.zb + 0.01) (hz : c.zmin ≤ e.zb)
    (hslow : |(c.rhoMax - s.rho) / (c.tVeg / 365) - c.vGam / c.hmax * |e.dzb - c.dzbOpt| * c.gamma| < 1) :
    (grow c e (germinateCell c dx e k r s)).rho = s.rho := by
  rw [(C68_survives c e _ (fun _ => hdry) hz).1]
  have e1 : (germinateCell c dx e k r s).rho = s.rho := rfl
  have hgr := germ_of_rho c dx e k r s h0
  generalize germinateCell c dx e k r s = t at hgr e1
  have ix : (t.germ ≠ 0 ∨ t.lat ≠ 0) ∧ 0 < c.Vver := ⟨Or.inl (by rw [hgr]; norm_num), hV⟩
  unfold growth
  simp only [horig, Bool.false_eq_true, if_false, ix, hV, ne_eq, and_self, if_true, e1]
  rw [if_neg (not_lt.mpr h1), trunc_eq_zero _ hslow]
  simp [not_lt.mpr h0.le, not_le.mpr h0]

/-- The default parameters: growth towards the maximum density 0.5 stops at 0.492. -/
example : |((1:ℝ)/2 - 0.492) / (3 / 365) - 1 / 1 * |(0:ℝ) - 0| * 1| < 1 := by norm_num

/-- C69 With growth switched off (`V_ver = 0`) the density-based model makes vegetation grow, by the number of denser
neighbours per year. -/
theorem C69_grows_without_growth : ∃ c : Config, c.orig = false ∧ c.Vver = 0 ∧
    ∀ s : Cell, s.rho = 1 / 4 → (grow c ⟨3, 0, 0⟩ (germinateCell c 1 ⟨3, 0, 0⟩ 1 (1/2) s)).rho =
      1 / 4 + 1 * 3600 / year := by
  refine ⟨{ duranMoore with Vver := 0 }, rfl, rfl, ?_⟩
  intro s hs
  rw [(C68_survives _ _ _ (fun _ => by norm_num) (by unfold duranMoore; norm_num)).1]
  have e1 : (germinateCell { duranMoore with Vver := 0 } 1 ⟨3, 0, 0⟩ 1 (1/2) s).rho = 1 / 4 := hs
  have e2 : (germinateCell { duranMoore with Vver := 0 } 1 ⟨3, 0, 0⟩ 1 (1/2) s).drho = 1 := rfl
  generalize germinateCell { duranMoore with Vver := 0 } 1 ⟨3, 0, 0⟩ 1 (1/2) s = t at e1 e2
  have hy : (0:ℝ) < year := by unfold year; norm_num
  have hp : (0:ℝ) < 1 / 4 + 1 * 3600 / year := by positivity
  unfold growth duranMoore
  simp only [lt_irrefl, and_false, if_false, Bool.false_eq_true, e1, e2]
  have a1 : ¬ (1/2 : ℝ) < 1/4 := by norm_num
  have a2 : ¬ (1/4 : ℝ) ≤ 0 := by norm_num
  simp only [a1, a2, if_false]
  have a3 : (1:ℝ)/4 + ((1:ℤ):ℝ) * (3600 * 1) / year = 1 / 4 + 1 * 3600 / year := by push_cast; ring
  rw [a3, if_neg (not_lt.mpr hp.le)]

/-- C91 The probability per step is a probability, and drawing it once in every step of a year amounts to the probability
per year. -/
theorem C91_probability (p n : ℝ) (h0 : 0 ≤ p) (h1 : p ≤ 1) (hn : 0 < n) :
    0 ≤ stepProb p n ∧ stepProb p n ≤ 1 ∧ (1 - stepProb p n) ^ n = 1 - p := by
  have hb : 0 ≤ 1 - p := by linarith
  have a : 0 ≤ (1 - p) ^ (1 / n) := Real.rpow_nonneg hb _
  have b : (1 - p) ^ (1 / n) ≤ 1 := Real.rpow_le_one hb (by linarith) (by positivity)
  refine ⟨by unfold stepProb; linarith, by unfold stepProb; linarith, ?_⟩
  unfold stepProb
  rw [sub_sub_cancel, ← Real.rpow_mul hb, one_div_mul_cancel hn.ne', Real.rpow_one]

example : (0:ℝ) ≤ 0.05 ∧ (0.05:ℝ) ≤ 1 ∧ 0 < stepsPerYear duranMoore := by
  unfold stepsPerYear duranMoore year
  norm_num

/-- C91 After germination the flag is 1 exactly where there is vegetation, or where the bed does not erode and the random
number does not exceed the probability per step; elsewhere it is 0. -/
theorem C91_germination (c : Config) (dx : ℝ) (e : Env) (k : ℕ) (r : ℝ) (s : Cell) :
    ((germinateCell c dx e k r s).germ = 1 ↔ 0 < s.rho ∨ 0 ≤ e.dzb ∧ r ≤ stepProb c.pGerm (stepsPerYear c)) ∧
    ((germinateCell c dx e k r s).germ = 0 ↔ ¬ (0 < s.rho ∨ 0 ≤ e.dzb ∧ r ≤ stepProb c.pGerm (stepsPerYear c))) := by
  unfold germinateCell
  dsimp only
  by_cases a : 0 < s.rho <;> by_cases b : 0 ≤ e.dzb ∧ r ≤ stepProb c.pGerm (stepsPerYear c) <;> simp [a, b]

/-- C91 An eroding bare cell does not germinate. -/
example : (germinateCell duranMoore 1 ⟨3, 0, -1⟩ 0 0 ⟨0, 0, 0, 0, 0, 0⟩).germ = 0 :=
  (C91_germination _ _ _ _ _ _).2.mpr (by norm_num)

/-- Cells of the grid that share a side with a cell. -/
def adjacent (ny nx : ℕ) (i j i' j' : ℕ) : Prop :=
  i' ≤ ny ∧ j' ≤ nx ∧ (i' = i ∧ (j' + 1 = j ∨ j' = j + 1) ∨ j' = j ∧ (i' + 1 = i ∨ i' = i + 1))

/-- C91 The number that drives lateral expansion is at most four, and positive exactly when a cell sharing a side has a
higher density. -/
theorem C91_denser_neighbours (ny nx : ℕ) (rho ds dn : ℕ → ℕ → ℝ) (hds : ∀ i j, 0 < ds i j) (hdn : ∀ i j, 0 < dn i j)
    (i j : ℕ) (hi : i ≤ ny) (hj : j ≤ nx) :
    denserNeighbours ny nx rho ds dn i j ≤ 4 ∧
    (0 < denserNeighbours ny nx rho ds dn i j ↔ ∃ i' j', adjacent ny nx i j i' j' ∧ rho i j < rho i' j') := by
  have key : ∀ a b d : ℝ, 0 < d → (0 < max ((a - b) / d) 0 ↔ b < a) := by
    intro a b d hd
    rw [lt_max_iff, or_iff_left (lt_irrefl _), div_pos_iff_of_pos_right hd, sub_pos]
  unfold denserNeighbours
  simp only [key _ _ _ (hds i j), key _ _ _ (hdn i j)]
  constructor
  · split_ifs <;> norm_num
  constructor
  · intro h
    by_cases h1 : 1 ≤ j ∧ rho i j < rho i (j - 1)
    · exact ⟨i, j - 1, ⟨hi, by omega, Or.inl ⟨rfl, Or.inl (by omega)⟩⟩, h1.2⟩
    by_cases h2 : j < nx ∧ rho i j < rho i (j + 1)
    · exact ⟨i, j + 1, ⟨hi, by omega, Or.inl ⟨rfl, Or.inr rfl⟩⟩, h2.2⟩
    by_cases h3 : 1 ≤ i ∧ rho i j < rho (i - 1) j
    · exact ⟨i - 1, j, ⟨by omega, hj, Or.inr ⟨rfl, Or.inl (by omega)⟩⟩, h3.2⟩
    by_cases h4 : i < ny ∧ rho i j < rho (i + 1) j
    · exact ⟨i + 1, j, ⟨by omega, hj, Or.inr ⟨rfl, Or.inr rfl⟩⟩, h4.2⟩
    simp [h1, h2, h3, h4] at h
  · rintro ⟨i', j', ⟨hi', hj', h⟩, hr⟩
    rcases h with ⟨rfl, h | h⟩ | ⟨rfl, h | h⟩
    · subst h
      simp [hr]
    · subst h
      have : j < nx := by omega
      simp [hr, this]
    · subst h
      simp [hr]
    · subst h
      have : i < ny := by omega
      simp [hr, this]

example : (0:ℕ) < denserNeighbours 0 1 (fun _ j => (j : ℝ)) (fun _ _ => 1) (fun _ _ => 1) 0 0 :=
  (C91_denser_neighbours 0 1 _ _ _ (fun _ _ => one_pos) (fun _ _ => one_pos) 0 0 le_rfl (by norm_num)).2.mpr
    ⟨0, 1, ⟨le_rfl, le_rfl, Or.inl ⟨rfl, Or.inr rfl⟩⟩, by norm_num⟩

/-- C91 Without a denser cell next to it, a cell is not reached by lateral expansion (random numbers being positive). -/
theorem C91_lateral_needs_neighbour (c : Config) (ny nx : ℕ) (dx : ℝ) (ds dn : ℕ → ℕ → ℝ) (hds : ∀ i j, 0 < ds i j)
    (hdn : ∀ i j, 0 < dn i j) (e : ℕ → ℕ → Env) (r : ℕ → ℕ → ℝ) (s : ℕ → ℕ → Cell) (i j : ℕ) (hi : i ≤ ny)
    (hj : j ≤ nx) (hr : 0 < r i j) (hl : (s i j).lat = 0)
    (hn : ∀ i' j', adjacent ny nx i j i' j' → (s i' j').rho ≤ (s i j).rho) :
    (germinate c ny nx dx ds dn e r s i j).lat = 0 := by
  have h0 : denserNeighbours ny nx (fun i j => (s i j).rho) ds dn i j = 0 := by
    by_contra h
    obtain ⟨i', j', ha, hlt⟩ := (C91_denser_neighbours ny nx (fun i j => (s i j).rho) ds dn hds hdn i j hi hj).2.mp
      (Nat.pos_of_ne_zero h)
    exact absurd (hn i' j' ha) (not_le.mpr hlt)
  unfold germinate
  rw [h0]
  unfold germinateCell
  simp [hl, not_le.mpr hr]

example : ∀ i' j' : ℕ, adjacent 0 1 0 1 i' j' → (fun _ j => (j : ℝ) : ℕ → ℕ → ℝ) i' j' ≤ 1 := by
  rintro i' j' ⟨-, h, -⟩
  show (j' : ℝ) ≤ 1
  exact_mod_cast h

end

/-- C91 The probability per step: `1 - (1 - p)^(step / year)` for the probability `p` per year of 31557600 s, the step being `dt_opt` times the
acceleration factor. -/
theorem C91_germination_probability (c : Config) (dx : ℝ) (e : Env) (k : ℕ) (r : ℝ) (s : Cell) (hbare : s.rho ≤ 0) (hdep : 0 ≤ e.dzb) :
    (germinateCell c dx e k r s).germ = 1 ↔ r ≤ 1 - (1 - c.pGerm) ^ (c.dtOpt * c.accfac / 31557600) := by
  rw [(C91_germination c dx e k r s).1, or_iff_right (not_lt.mpr hbare), and_iff_right hdep]
  unfold stepProb stepsPerYear year
  rw [one_div_div]
  norm_num

/-- C67 A step of growth of vegetation that survives: the height grows by the rate per year, less the burial, times the step (`dt_opt` times the
acceleration factor) over 31557600 s, between zero and the maximum. -/
theorem C67_growth {c : Config} (horig : c.orig = true) (hV : 0 < c.Vver) (dx : ℝ) (e : Env) (k : ℕ) (r : ℝ) (s : Cell) (h0 : 0 < s.rho)
    (hdry : c.processTide = true → e.zs ≤ e.zb + 0.01) (hz : c.zmin ≤ e.zb) :
    (grow c e (germinateCell c dx e k r s)).h =
      max (min (s.h + (c.Vver * (1 - s.h / c.hmax) - |e.dzb - c.dzbOpt| * c.gamma) * (c.dtOpt * c.accfac) / 31557600) c.hmax) 0 ∧
    (grow c e (germinateCell c dx e k r s)).rho = ((grow c e (germinateCell c dx e k r s)).h / c.hmax) ^ 2 := by
  obtain ⟨h1, h2⟩ := C68_survives c e (germinateCell c dx e k r s) hdry hz
  have hg := germ_of_rho c dx e k r s h0
  have hh : (germinateCell c dx e k r s).h = s.h := rfl
  rw [h1, h2]
  generalize germinateCell c dx e k r s = t at hg hh
  have ix : (t.germ ≠ 0 ∨ t.lat ≠ 0) ∧ 0 < c.Vver := ⟨Or.inl (by rw [hg]; norm_num), hV⟩
  unfold growth
  simp only [horig, if_true, ix, and_self, ne_eq, hh]
  have hy : year = 31557600 := by unfold year; norm_num
  rw [hy]
  exact ⟨rfl, trivial⟩

/-- C67 Undisturbed vegetation (burial at its optimum, dry, above the minimum elevation) approaches its maximum height: the deficit shrinks by the
same factor in every step, for steps that are short against the time of growth. -/
theorem C67_approaches_maximum {c : Config} (horig : c.orig = true) (hV : 0 < c.Vver) (hmax : 0 < c.hmax) (hdt : 0 ≤ c.dtOpt * c.accfac)
    (hshort : c.Vver * (c.dtOpt * c.accfac) ≤ 31557600 * c.hmax) (dx : ℝ) (e : Env) (hopt : e.dzb = c.dzbOpt)
    (hdry : c.processTide = true → e.zs ≤ e.zb + 0.01) (hz : c.zmin ≤ e.zb) (k : ℕ → ℕ) (r : ℕ → ℝ) (s : ℕ → Cell)
    (hs : ∀ n, s (n + 1) = grow c e (germinateCell c dx e (k n) (r n) (s n))) (h0 : 0 < (s 0).h) (h1 : (s 0).h ≤ c.hmax)
    (hrho : (s 0).rho = ((s 0).h / c.hmax) ^ 2) (n : ℕ) :
    c.hmax - (s n).h = (c.hmax - (s 0).h) * (1 - c.Vver * (c.dtOpt * c.accfac) / (31557600 * c.hmax)) ^ n := by
  suffices h : 0 < (s n).h ∧ (s n).h ≤ c.hmax ∧ (s n).rho = ((s n).h / c.hmax) ^ 2 ∧
      c.hmax - (s n).h = (c.hmax - (s 0).h) * (1 - c.Vver * (c.dtOpt * c.accfac) / (31557600 * c.hmax)) ^ n from h.2.2.2
  induction n with
  | zero => exact ⟨h0, h1, hrho, by simp⟩
  | succ n ih =>
    obtain ⟨i1, i2, i3, i4⟩ := ih
    have hr : 0 < (s n).rho := by rw [i3]; exact pow_pos (div_pos i1 hmax) 2
    obtain ⟨g1, g2⟩ := C67_growth horig hV dx e (k n) (r n) (s n) hr hdry hz
    rw [← hs n] at g1 g2
    set κ := c.Vver * (c.dtOpt * c.accfac) / (31557600 * c.hmax) with hκ
    have hκ0 : 0 ≤ κ := by positivity
    have hκ1 : κ ≤ 1 := by rw [hκ, div_le_one (by positivity)]; exact hshort
    have e1 : (s n).h + (c.Vver * (1 - (s n).h / c.hmax) - |e.dzb - c.dzbOpt| * c.gamma) * (c.dtOpt * c.accfac) / 31557600 =
        c.hmax - (c.hmax - (s n).h) * (1 - κ) := by
      rw [hopt, hκ]
      field_simp
      simp
      ring
    have d0 : 0 ≤ (c.hmax - (s n).h) * (1 - κ) := mul_nonneg (by linarith) (by linarith)
    have d1 : (c.hmax - (s n).h) * (1 - κ) ≤ c.hmax - (s n).h := mul_le_of_le_one_right (by linarith) (by linarith)
    rw [e1, min_eq_left (by linarith), max_eq_left (by linarith)] at g1
    refine ⟨by rw [g1]; linarith, by rw [g1]; linarith, g2, ?_⟩
    rw [g1, pow_succ, ← mul_assoc, ← i4]
    ring

/-- Marram grass half grown: steps of a tenth of a year close a tenth of the deficit each. -/
example (r : ℕ → ℝ) (s : ℕ → Cell) (h0 : s 0 = ⟨1 / 4, 1 / 2, 1, 0, 0, 0⟩)
    (hs : ∀ n, s (n + 1) = grow marram ⟨3, 0, 0⟩ (germinateCell marram 1 ⟨3, 0, 0⟩ 0 (r n) (s n))) (n : ℕ) :
    1 - (s n).h = 1 / 2 * (9 / 10) ^ n := by
  have := C67_approaches_maximum (c := marram) rfl (by norm_num [marram]) (by norm_num [marram]) (by norm_num [marram, year])
    (by norm_num [marram, year]) 1 ⟨3, 0, 0⟩ rfl (fun _ => by norm_num) (by norm_num [marram]) (fun _ => 0) r s hs (by rw [h0]; norm_num)
    (by rw [h0]; norm_num [marram]) (by rw [h0]; norm_num [marram]) n
  rw [h0] at this
  norm_num [marram, year] at this ⊢
  exact this

end Aeolis.Props
