import Verif.Proofs.Run
import Verif.Props.Utils

/-!
Time stepping properties: C20 (time step bounds), C21 (CFL), C22 (the run ends), C23 (fast
forward), C24 (grid orientation), C25 (order of processes and step counter).
-/

set_option linter.unusedSectionVars false

namespace Aeolis.Props

open Finset

/-! ### C20, C21 -/

section Timestep

variable {K : Type*} [Field K] [LinearOrder K] [IsStrictOrderedRing K]
  {ι : Type*} [Fintype ι] [Nonempty ι]

/-- C20: the step used by an executed step is never larger than the requested one (if positive) or
else the configured one. -/
theorem C20_step_at_most_requested (p : TsParams K) (g : TsGrids K ι) (c c' : Clock K) (dt : K)
    (h : setTimestep p g c dt = (c', true)) :
    (0 < dt → c'.dt ≤ dt) ∧ (dt ≤ 0 → c'.dt ≤ p.dt) := by
  unfold setTimestep at h
  split at h
  · cases h
  · simp only at h
    have hd : (0 < dt → (if 0 < dt then dt else p.dt) ≤ dt) ∧
        (dt ≤ 0 → (if 0 < dt then dt else p.dt) ≤ p.dt) :=
      ⟨fun h => by rw [if_pos h], fun h => by rw [if_neg (not_lt.mpr h)]⟩
    have key : c'.dt ≤ (if 0 < dt then dt else p.dt) := by
      by_cases h1 : p.explicit = true ∧ 0 < p.CFL
      · rw [if_pos h1] at h
        by_cases h2 : 0 < dtref g
        · rw [if_pos h2] at h
          injection h with h hb
          subst h
          exact (limit_le p g _).trans (min_le_left _ _)
        · rw [if_neg h2] at h; cases h
      · rw [if_neg h1] at h
        injection h with h hb
        subst h
        exact limit_le p g _
    exact ⟨fun h => key.trans (hd.1 h), fun h => key.trans (hd.2 h)⟩

/-- C20: an explicit step with a positive CFL number is not larger than `CFL` divided by the sum of
the largest wind speed per cell length in both directions. -/
theorem C20_step_at_most_cfl (p : TsParams K) (g : TsGrids K ι) (c c' : Clock K) (dt : K)
    (hx : p.explicit = true) (hc : 0 < p.CFL) (h : setTimestep p g c dt = (c', true)) :
    0 < dtref g ∧ c'.dt ≤ p.CFL / dtref g := by
  unfold setTimestep at h
  split at h
  · cases h
  · simp only [hx, hc, and_self, if_true] at h
    split at h
    · rename_i h2
      injection h with h hb
      subst h
      exact ⟨h2, (limit_le p g _).trans (min_le_right _ _)⟩
    · cases h

/-- C20: with the bed level limiter on and the bed rising somewhere, the step is so small that the
rate of bed level rise of the previous step, extrapolated over the new step, stays below the
maximum. -/
theorem C20_bed_rise_limited (p : TsParams K) (g : TsGrids K ι) (c c' : Clock K) (dt : K)
    (h : setTimestep p g c dt = (c', true)) (h9 : p.maxChange ≠ 999) (hp : 0 < c.dtPrev)
    (i : ι) (hi : 0 < g.dzb i) : c'.dt * (g.dzb i / c.dtPrev) ≤ max p.maxChange 0 := by
  have hm : 0 < gridMax g.dzb := lt_of_lt_of_le hi (le_gridMax _ i)
  have key : ∀ c0 : Clock K, c0.dtPrev = c.dtPrev →
      (limitBedChange p g c0).dt ≤ c.dtPrev * p.maxChange / gridMax g.dzb := by
    intro c0 h0
    unfold limitBedChange
    rw [if_pos ⟨h9, hm.ne', by rw [h0]; exact hp.ne'⟩, ← h0]
    exact min_le_right _ _
  have hdt : c'.dt ≤ c.dtPrev * p.maxChange / gridMax g.dzb := by
    unfold setTimestep at h
    split at h
    · cases h
    · simp only at h
      split_ifs at h
      all_goals first | (cases h; done) | skip
      all_goals
        injection h with h hb
        subst h
        exact key _ rfl
  have hle := le_gridMax g.dzb i
  have hr : 0 < g.dzb i / c.dtPrev := div_pos hi hp
  calc c'.dt * (g.dzb i / c.dtPrev)
      ≤ c.dtPrev * p.maxChange / gridMax g.dzb * (g.dzb i / c.dtPrev) :=
        mul_le_mul_of_nonneg_right hdt hr.le
    _ = p.maxChange * (g.dzb i / gridMax g.dzb) := by field_simp
    _ ≤ max p.maxChange 0 * (g.dzb i / gridMax g.dzb) :=
        mul_le_mul_of_nonneg_right (le_max_left _ _) (div_nonneg hi.le hm.le)
    _ ≤ max p.maxChange 0 * 1 :=
        mul_le_mul_of_nonneg_left ((div_le_one hm).mpr hle) (le_max_right _ _)
    _ = _ := mul_one _

/-- C20 (positivity, the part that holds): the step is positive if the requested/configured one is
and the bed level limiter is either off or sees a rising bed somewhere.
Missing from the full claim: a bed that falls everywhere, where it is false
(`C20_negative_step`). -/
theorem C20_step_positive_partial (p : TsParams K) (g : TsGrids K ι) (c c' : Clock K) (dt : K)
    (h : setTimestep p g c dt = (c', true)) (hdt : 0 < dt ∨ 0 < p.dt)
    (hlim : p.maxChange = 999 ∨ (0 < p.maxChange ∧ 0 ≤ c.dtPrev ∧ ∃ i, 0 ≤ g.dzb i)) :
    0 < c'.dt := by
  have key : ∀ c0 : Clock K, c0.dtPrev = c.dtPrev → 0 < c0.dt → 0 < (limitBedChange p g c0).dt := by
    intro c0 h0 hpos
    unfold limitBedChange
    split
    · rename_i hl
      rcases hlim with hlim | ⟨h1, h2, i, h3⟩
      · exact absurd hlim hl.1
      · refine lt_min hpos ?_
        have hm : 0 < gridMax g.dzb :=
          lt_of_le_of_ne (h3.trans (le_gridMax _ i)) (Ne.symm hl.2.1)
        have hp : 0 < c0.dtPrev := lt_of_le_of_ne (by rw [h0]; exact h2) (Ne.symm hl.2.2)
        positivity
    · exact hpos
  unfold setTimestep at h
  split at h
  · cases h
  · simp only at h
    have hpos : 0 < (if 0 < dt then dt else p.dt) := by
      split
      · assumption
      · rcases hdt with hdt | hdt
        · contradiction
        · exact hdt
    by_cases h1 : p.explicit = true ∧ 0 < p.CFL
    · rw [if_pos h1] at h
      by_cases h2 : 0 < dtref g
      · rw [if_pos h2] at h
        injection h with h hb
        subst h
        exact key _ rfl (lt_min hpos (div_pos h1.2 h2))
      · rw [if_neg h2] at h; cases h
    · rw [if_neg h1] at h
      injection h with h hb
      subst h
      exact key _ rfl hpos

/-- C20 fails when the bed fell in every cell during the previous step: with the bed level limiter
on the executed step is negative, so the clock runs backwards. -/
theorem C20_negative_step (p : TsParams K) (g : TsGrids K ι) (c c' : Clock K) (dt : K)
    (h : setTimestep p g c dt = (c', true)) (h9 : p.maxChange ≠ 999) (hm : 0 < p.maxChange)
    (hp : 0 < c.dtPrev) (hfall : ∀ i, g.dzb i < 0) : c'.dt < 0 := by
  have hneg : gridMax g.dzb < 0 := by
    obtain ⟨i, hi⟩ := exists_gridMax g.dzb
    rw [hi]; exact hfall i
  have key : ∀ c0 : Clock K, c0.dtPrev = c.dtPrev → (limitBedChange p g c0).dt < 0 := by
    intro c0 h0
    unfold limitBedChange
    rw [if_pos ⟨h9, hneg.ne, by rw [h0]; exact hp.ne'⟩]
    refine lt_of_le_of_lt (min_le_right _ _) ?_
    rw [h0]
    exact div_neg_of_pos_of_neg (mul_pos hp hm) hneg
  unfold setTimestep at h
  split at h
  · cases h
  · simp only at h
    split_ifs at h
    all_goals first | (cases h; done) | skip
    all_goals
      injection h with h hb
      subst h
      exact key _ rfl

/-- C21: an executed explicit step with a positive CFL number keeps the Courant number at or below
it in every cell, whatever the wind field. -/
theorem C21_cfl_in_every_cell (p : TsParams K) (g : TsGrids K ι) (c c' : Clock K) (dt : K)
    (hx : p.explicit = true) (hc : 0 < p.CFL) (hds : ∀ i, 0 < g.ds i) (hdn : ∀ i, 0 < g.dn i)
    (h : setTimestep p g c dt = (c', true)) (i : ι) :
    |g.uws i| * c'.dt / g.ds i + |g.uwn i| * c'.dt / g.dn i ≤ p.CFL := by
  obtain ⟨hr, hle⟩ := C20_step_at_most_cfl p g c c' dt hx hc h
  have h1 := le_gridMax (fun i => |g.uws i| / g.ds i) i
  have h2 := le_gridMax (fun i => |g.uwn i| / g.dn i) i
  have hsum : |g.uws i| / g.ds i + |g.uwn i| / g.dn i ≤ dtref g := by
    unfold dtref; exact add_le_add h1 h2
  have h0 : 0 ≤ |g.uws i| / g.ds i + |g.uwn i| / g.dn i :=
    add_nonneg (div_nonneg (abs_nonneg _) (hds i).le) (div_nonneg (abs_nonneg _) (hdn i).le)
  have heq : |g.uws i| * c'.dt / g.ds i + |g.uwn i| * c'.dt / g.dn i
      = (|g.uws i| / g.ds i + |g.uwn i| / g.dn i) * c'.dt := by ring
  rw [heq]
  rcases le_total 0 c'.dt with hd | hd
  · calc _ ≤ dtref g * c'.dt := mul_le_mul_of_nonneg_right hsum hd
      _ ≤ dtref g * (p.CFL / dtref g) := mul_le_mul_of_nonneg_left hle hr.le
      _ = p.CFL := by field_simp
  · exact (mul_nonpos_of_nonneg_of_nonpos h0 hd).trans hc.le

/-- An explicit executed step with the bed level limiter active: two cells. -/
def exTs : TsParams ℚ := ⟨60, true, 1, 1⟩
def exGrids : TsGrids ℚ (Fin 2) := ⟨![2, 4], ![1, 2], ![0, 1], ![1, 1], ![-1/2, 1/4]⟩
def exClock : Clock ℚ := ⟨100, 1/2, 1/2⟩

example : setTimestep exTs exGrids exClock (-1) = (⟨100, 1/3, 1/2⟩, true) ∧
    (∀ i, 0 < exGrids.ds i) ∧ (∀ i, 0 < exGrids.dn i) ∧ 0 < exGrids.dzb 1 := by
  have hu : (univ : Finset (Fin 2)) = {0, 1} := by decide
  have h1 : gridMax (fun i => |exGrids.uws i| / exGrids.ds i) = 2 := by
    simp [gridMax, exGrids, hu]; norm_num
  have h2 : gridMax (fun i => |exGrids.uwn i| / exGrids.dn i) = 1 := by
    simp [gridMax, exGrids, hu]
  have h3 : gridMax exGrids.dzb = 1/4 := by
    simp [gridMax, exGrids, hu]; norm_num
  refine ⟨?_, ?_, ?_, ?_⟩
  · unfold setTimestep limitBedChange dtref
    rw [h1, h2, h3]
    norm_num [exTs, exClock]
  · intro i; fin_cases i <;> norm_num [exGrids]
  · intro i; fin_cases i <;> norm_num [exGrids]
  · norm_num [exGrids]

/-- The negative step: bed fell by 1 cm everywhere, one hour step, maximum change 0.5 m. -/
example : setTimestep (⟨3600, false, 1, 1/2⟩ : TsParams ℚ)
    (⟨fun _ => 5, fun _ => 1, fun _ => 0, fun _ => 1, fun _ => -1/100⟩ : TsGrids ℚ (Fin 1))
    ⟨0, 3600, 3600⟩ (-1) = (⟨0, -180000, 3600⟩, true) := by
  have h3 : gridMax (fun _ : Fin 1 => (-1/100 : ℚ)) = -1/100 := by simp [gridMax]
  unfold setTimestep limitBedChange
  simp only [h3]
  norm_num

end Timestep

/-! ### C22 -/

section Run

variable {W ι : Type*} [Fintype ι] [Nonempty ι]

/-- The clock after a step of an implicit run without bed level limiter. -/
theorem implicit_step_clock (p : RunParams) (ph : Physics W ι) (m : Sim W ι)
    (hs : p.scheme = .eulerBackward ∨ p.scheme = .crankNicolson) (h9 : p.maxChange = 999) :
    ∃ m', m.update p ph (-1) = .ok (m', true) ∧ m'.clock.t = m.clock.t + p.dt * p.accfac ∧
      m'.count = m.count + 1 := by
  have hs' : p.scheme ≠ .unknown := by rcases hs with h | h <;> simp [h]
  have hf : p.scheme ≠ .eulerForward := by rcases hs with h | h <;> simp [h]
  obtain ⟨m', b, h⟩ := update_ok p ph m (-1) hs'
  obtain ⟨g, c, -, hts, ht, -⟩ := update_frame p ph m m' (-1) b h
  have hb : c = { t := m.clock.t, dt := p.dt, dtPrev := m.clock.dt } ∧ b = true := by
    unfold setTimestep limitBedChange RunParams.ts at hts
    simp [hf, h9] at hts
    norm_num at hts
    exact ⟨hts.1.symm, hts.2⟩
  obtain ⟨rfl, rfl⟩ := hb
  obtain ⟨-, h2, h3⟩ := ht rfl
  exact ⟨m', h, by rw [h2], h3⟩

/-- C20: in a run the limiter refers to the step taken just before: if wind, fences and vegetation shear leave the bed level change
of that step alone, then the rate of rise of any cell in it, extrapolated over the new step, stays below the maximum. -/
theorem C20_rise_of_previous_step (p : RunParams) (ph : Physics W ι) (m m' : Sim W ι) (dt : ℝ)
    (h : m.update p ph dt = .ok (m', true)) (h9 : p.maxChange ≠ 999) (hp : 0 < m.clock.dt)
    (hex : ∀ q ∈ [Proc.windInterpolate, .windShear, .fences, .vegShear], ∀ t dt w,
      (ph.grids (ph.exec q t dt w)).dzb = (ph.grids w).dzb)
    (hrot : ∀ a w, (ph.grids (ph.rotateFields a w)).dzb = (ph.grids w).dzb) (i : ι) (hi : 0 < (ph.grids m.w).dzb i) :
    m'.clock.dt * ((ph.grids m.w).dzb i / m.clock.dt) ≤ max p.maxChange 0 := by
  obtain ⟨g, c, hg, hts, ht, -⟩ := update_frame p ph m m' dt true h
  obtain ⟨-, hc, -⟩ := ht rfl
  have hcall : ∀ q ∈ [Proc.windInterpolate, .windShear, .fences, .vegShear], ∀ m : Sim W ι,
      (ph.grids (m.call ph q).w).dzb = (ph.grids m.w).dzb := fun q hq m => hex q hq _ _ _
  have hif : ∀ (b : Bool) (q : Proc), q ∈ [Proc.windInterpolate, .windShear, .fences, .vegShear] → ∀ m : Sim W ι,
      (ph.grids (if b then m.call ph q else m).w).dzb = (ph.grids m.w).dzb := by
    intro b q hq m
    cases b
    · rfl
    · exact hcall q hq m
  have hd : g.dzb = (ph.grids m.w).dzb := by
    rw [hg]
    unfold Sim.prepare
    dsimp only
    rw [hif _ _ (by simp), hif _ _ (by simp), hif _ _ (by simp)]
    unfold Sim.rotate
    dsimp only
    rw [hrot, hcall _ (by simp)]
  rw [← hd] at hi ⊢
  have := C20_bed_rise_limited p.ts g _ c dt hts h9 hp i hi
  rw [hc]
  exact this

/-- C22: with an implicit scheme, no bed level limiter, positive time step and acceleration factor,
and any callback that leaves clock and counter alone, the time loop ends, namely after exactly the
smallest number `n` of steps for which `tstart + n dt accfac` exceeds `tstop`; every step counts. -/
theorem C22_run_ends (p : RunParams) (ph : Physics W ι) (cb : Sim W ι → Sim W ι)
    (hcb : ∀ m, (cb m).clock = m.clock ∧ (cb m).count = m.count) (m : Sim W ι)
    (hs : p.scheme = .eulerBackward ∨ p.scheme = .crankNicolson) (h9 : p.maxChange = 999)
    (n : ℕ) (hn : p.tstop < m.clock.t + n * (p.dt * p.accfac))
    (hmin : ∀ k < n, m.clock.t + k * (p.dt * p.accfac) ≤ p.tstop) :
    (∃ m', (∀ fuel, n ≤ fuel → m.loop p ph cb fuel = .ok (some m')) ∧
      m'.count = m.count + n ∧ m'.clock.t = m.clock.t + n * (p.dt * p.accfac)) ∧
    ∀ fuel < n, m.loop p ph cb fuel = .ok none := by
  induction n generalizing m with
  | zero =>
    refine ⟨⟨m, ?_, by simp, by simp⟩, by simp⟩
    intro fuel _
    have : ¬ m.clock.t ≤ p.tstop := by simpa using hn
    cases fuel <;> simp [Sim.loop, this]
  | succ n ih =>
    obtain ⟨m1, h1, ht, hcnt⟩ := implicit_step_clock p ph (cb m) hs h9
    rw [(hcb m).1] at ht
    rw [(hcb m).2] at hcnt
    have hrun : m.clock.t ≤ p.tstop := by simpa using hmin 0 (Nat.succ_pos n)
    have hn' : p.tstop < m1.clock.t + n * (p.dt * p.accfac) := by
      rw [ht]; push_cast at hn; linarith
    have hmin' : ∀ k < n, m1.clock.t + k * (p.dt * p.accfac) ≤ p.tstop := by
      intro k hk
      have := hmin (k + 1) (by omega)
      rw [ht]; push_cast at this; linarith
    obtain ⟨⟨m', ha, hb, hc⟩, hd⟩ := ih m1 hn' hmin'
    refine ⟨⟨m', ?_, by omega, by rw [hc, ht]; push_cast; ring⟩, ?_⟩
    · intro fuel hf
      obtain ⟨f, rfl⟩ : ∃ f, fuel = f + 1 := ⟨fuel - 1, by omega⟩
      simp only [Sim.loop, hrun, if_true, h1]
      exact ha f (by omega)
    · intro fuel hf
      cases fuel with
      | zero => simp [Sim.loop, hrun]
      | succ f =>
        simp only [Sim.loop, hrun, if_true, h1]
        exact hd f (by omega)

/-- C22: such a number of steps exists (and hence the run ends) whenever the accelerated step is
positive: one more than the number of whole steps between start and stop time. -/
theorem C22_run_length (p : RunParams) (ph : Physics W ι) (cb : Sim W ι → Sim W ι)
    (hcb : ∀ m, (cb m).clock = m.clock ∧ (cb m).count = m.count) (m : Sim W ι)
    (hs : p.scheme = .eulerBackward ∨ p.scheme = .crankNicolson) (h9 : p.maxChange = 999)
    (hdt : 0 < p.dt) (hacc : 0 < p.accfac) (hstart : m.clock.t ≤ p.tstop) :
    ∃ m', (∀ fuel, ⌊(p.tstop - m.clock.t) / (p.dt * p.accfac)⌋₊ + 1 ≤ fuel →
        m.loop p ph cb fuel = .ok (some m')) ∧
      m'.count = m.count + (⌊(p.tstop - m.clock.t) / (p.dt * p.accfac)⌋₊ + 1) := by
  have hd : 0 < p.dt * p.accfac := mul_pos hdt hacc
  have h0 : 0 ≤ (p.tstop - m.clock.t) / (p.dt * p.accfac) := div_nonneg (by linarith) hd.le
  have ha : p.tstop < m.clock.t +
      ((⌊(p.tstop - m.clock.t) / (p.dt * p.accfac)⌋₊ + 1 : ℕ) : ℝ) * (p.dt * p.accfac) := by
    have := Nat.lt_floor_add_one ((p.tstop - m.clock.t) / (p.dt * p.accfac))
    rw [div_lt_iff₀ hd] at this
    push_cast
    linarith
  have hb : ∀ k < ⌊(p.tstop - m.clock.t) / (p.dt * p.accfac)⌋₊ + 1,
      m.clock.t + (k : ℝ) * (p.dt * p.accfac) ≤ p.tstop := by
    intro k hk
    have : (k : ℝ) ≤ (p.tstop - m.clock.t) / (p.dt * p.accfac) := by
      rw [← Nat.le_floor_iff h0]; omega
    rw [le_div_iff₀ hd] at this
    linarith
  obtain ⟨⟨m', h1, h2, -⟩, -⟩ := C22_run_ends p ph cb hcb m hs h9 _ ha hb
  exact ⟨m', h1, h2⟩

/-- C22, the case in which it fails: with the explicit scheme and no wind (now and later) no step
advances the clock, so the time loop never ends. -/
theorem C22_calm_explicit_run_never_ends (p : RunParams) (ph : Physics W ι)
    (cb : Sim W ι → Sim W ι) (hcb : ∀ m, (cb m).clock.t = m.clock.t) (m : Sim W ι)
    (hs : p.scheme = .eulerForward) (hcfl : 0 < p.CFL)
    (hcalm : ∀ m : Sim W ι, ∀ i, (ph.grids (m.prepare p ph).w).uws i = 0 ∧
      (ph.grids (m.prepare p ph).w).uwn i = 0)
    (hstart : m.clock.t ≤ p.tstop) (fuel : ℕ) : m.loop p ph cb fuel = .ok none := by
  induction fuel generalizing m with
  | zero => simp [Sim.loop, hstart]
  | succ fuel ih =>
    have hs' : p.scheme ≠ .unknown := by simp [hs]
    obtain ⟨m', b, h⟩ := update_ok p ph (cb m) (-1) hs'
    obtain ⟨g, c, hg, hts, -, hf⟩ := update_frame p ph (cb m) m' (-1) b h
    have hzero : dtref g = 0 := by
      unfold dtref gridMax
      rw [hg]
      simp [hcalm]
    have hb : c.t = (cb m).clock.t ∧ b = false := by
      unfold setTimestep at hts
      simp [RunParams.ts, hs, hcfl, hzero] at hts
      norm_num at hts
      exact ⟨by rw [← hts.1], hts.2⟩
    obtain ⟨ht, rfl⟩ := hb
    obtain ⟨-, hc, -⟩ := hf rfl
    simp only [Sim.loop, hstart, if_true, h]
    refine ih m' ?_
    rw [hc, ht, hcb]; exact hstart

/-- A physical model without any effect on a world without content, for examples: wind blows. -/
def exPhysics : Physics Unit (Fin 1) :=
  { exec := fun _ _ _ _ => (), rotateFields := fun _ _ => (), windy := fun _ => true
    grids := fun _ => ⟨fun _ => 0, fun _ => 1, fun _ => 0, fun _ => 1, fun _ => 0⟩ }

/-- An hour with steps of 60 s, accelerated twice. -/
def exRunParams : RunParams := ⟨60, .eulerBackward, 1, 999, 30, 2, false, false, false, 3600⟩

/-- Start. -/
def exSim : Sim Unit (Fin 1) := ⟨(), fun _ => (1, 2), ⟨0, 0, 0⟩, 0, []⟩

example : ∃ m', (∀ fuel, 31 ≤ fuel → exSim.loop exRunParams exPhysics id fuel = .ok (some m')) ∧
    m'.count = 31 := by
  obtain ⟨⟨m', h1, h2, -⟩, -⟩ := C22_run_ends exRunParams exPhysics id (by simp) exSim
    (Or.inl rfl) rfl 31 (by norm_num [exRunParams, exSim]) (by
      intro k hk
      have : (k : ℝ) ≤ 30 := by exact_mod_cast Nat.lt_succ_iff.mp hk
      simp only [exRunParams, exSim]
      linarith)
  exact ⟨m', h1, by simpa [exSim] using h2⟩

example (fuel : ℕ) : exSim.loop { exRunParams with scheme := .eulerForward } exPhysics id fuel
    = .ok none :=
  C22_calm_explicit_run_never_ends _ _ _ (by simp) _ rfl (by norm_num [exRunParams])
    (by intro m i; exact ⟨rfl, rfl⟩) (by norm_num [exRunParams, exSim]) fuel

/-! ### C23 -/

/-- Processes that only concern the wind at the current time. -/
def isWindProc : Proc → Prop
  | .windInterpolate | .windShear | .fences | .vegShear => True
  | _ => False

/-- C23: a step smaller than -1 moves the clock forward by its absolute value, runs nothing but the
wind processes, counts no time step and never fails. -/
theorem C23_fast_forward (p : RunParams) (ph : Physics W ι) (m : Sim W ι) (dt : ℝ)
    (hdt : dt < -1) :
    ∃ m', m.update p ph dt = .ok (m', false) ∧ m'.clock.t = m.clock.t + |dt| ∧
      m'.count = m.count ∧ ∃ qs, m'.trace = m.trace ++ qs ∧ ∀ q ∈ qs, isWindProc q := by
  obtain ⟨-, h2, h3⟩ := prepare_frame p ph m
  obtain ⟨w1, h4⟩ := prepare_trace p ph m
  refine ⟨{ (m.prepare p ph) with clock := { (m.prepare p ph).clock with
      dt := dt, t := (m.prepare p ph).clock.t + |dt| } },
    by unfold Sim.update setTimestep; simp [hdt], ?_, ?_, ?_⟩
  · simp [h2]
  · simp [h3]
  · refine ⟨_, h4, ?_⟩
    intro q hq
    simp only [List.mem_append, List.mem_singleton] at hq
    rcases hq with ((hq | hq) | hq) | hq
    · subst hq; trivial
    all_goals
      split at hq
      · rw [List.mem_singleton] at hq; subst hq; trivial
      · simp at hq

example : (-3600 : ℝ) < -1 := by norm_num

/-! ### C24 -/

/-- C24: through any sequence of `update` calls the grid coordinates are the initial ones rotated
about their mean over `alpha` times the number of skipped (not executed) steps. -/
theorem C24_orientation (p : RunParams) (ph : Physics W ι) (m m' : Sim W ι) (dts : List ℝ)
    (bs : List Bool) (h : m.updates p ph dts = .ok (m', bs)) :
    m'.xy = rotateGrid (bs.count false * p.alpha) (gridMean m.xy) m.xy ∧
      gridMean m'.xy = gridMean m.xy := by
  induction dts generalizing m bs with
  | nil =>
    cases h
    refine ⟨?_, rfl⟩
    funext i
    simp [rotateGrid, (C14_rotate_fixed 0 (gridMean m'.xy) (m'.xy i)).2.1]
  | cons dt dts ih =>
    unfold Sim.updates at h
    cases hu : m.update p ph dt with
    | error e => rw [hu] at h; cases h
    | ok r =>
      obtain ⟨m1, b⟩ := r
      rw [hu] at h
      simp only at h
      cases hr : m1.updates p ph dts with
      | error e => rw [hr] at h; cases h
      | ok r2 =>
        obtain ⟨m2, bs2⟩ := r2
        rw [hr] at h
        simp only [Except.map] at h
        cases h
        obtain ⟨e1, e2⟩ := ih m1 bs2 hr
        obtain ⟨g, c, -, -, ht, hf⟩ := update_frame p ph m m1 dt b hu
        have hmean : ∀ a, gridMean (rotateGrid a (gridMean m.xy) m.xy) = gridMean m.xy := by
          intro a
          rw [C14_rotate_mean, (C14_rotate_fixed a (gridMean m.xy) (0, 0)).1]
        cases b with
        | true =>
          obtain ⟨hxy, -, -⟩ := ht rfl
          have hid : m1.xy = m.xy := by
            rw [hxy, hmean]
            funext i
            exact C14_rotate_inverse p.alpha (gridMean m.xy) (m.xy i)
          rw [hid] at e1 e2
          exact ⟨by simpa using e1, e2⟩
        | false =>
          obtain ⟨hxy, -, -⟩ := hf rfl
          rw [hxy, hmean] at e1 e2
          refine ⟨?_, e2⟩
          rw [e1]
          funext i
          simp only [rotateGrid, List.count_cons_self]
          rw [C14_rotate_add]
          congr 1
          push_cast; ring

/-- C24: if every step was executed, the grid has the coordinates it started with. -/
theorem C24_executed_steps_keep_grid (p : RunParams) (ph : Physics W ι) (m m' : Sim W ι)
    (dts : List ℝ) (bs : List Bool) (h : m.updates p ph dts = .ok (m', bs))
    (hall : ∀ b ∈ bs, b = true) : m'.xy = m.xy := by
  obtain ⟨h1, -⟩ := C24_orientation p ph m m' dts bs h
  have h0 : bs.count false = 0 := by
    rw [List.count_eq_zero]
    intro hf
    have := hall false hf
    simp at this
  rw [h1, h0]
  funext i
  simp [rotateGrid, (C14_rotate_fixed 0 (gridMean m.xy) (m.xy i)).2.1]

/-- C24 fails for skipped steps: one fast-forward step leaves the grid rotated over `alpha`; for
`alpha = 180` the two cells of a transect have swapped places. -/
theorem C24_skipped_step_rotates : ∃ (ph : Physics Unit (Fin 2)) (m m' : Sim Unit (Fin 2)),
    m.update { exRunParams with alpha := 180 } ph (-3600) = .ok (m', false) ∧
    m.xy = ![(0, 0), (2, 0)] ∧ m'.xy = ![(2, 0), (0, 0)] := by
  let ph : Physics Unit (Fin 2) :=
    { exec := fun _ _ _ _ => (), rotateFields := fun _ _ => (), windy := fun _ => true
      grids := fun _ => ⟨fun _ => 0, fun _ => 1, fun _ => 0, fun _ => 1, fun _ => 0⟩ }
  let m : Sim Unit (Fin 2) := ⟨(), ![(0, 0), (2, 0)], ⟨0, 0, 0⟩, 0, []⟩
  obtain ⟨m', h, -⟩ := C23_fast_forward { exRunParams with alpha := 180 } ph m (-3600) (by norm_num)
  refine ⟨ph, m, m', h, rfl, ?_⟩
  obtain ⟨g, c, -, -, -, hf⟩ := update_frame _ _ _ _ _ _ h
  obtain ⟨hxy, -, -⟩ := hf rfl
  rw [hxy]
  have hm : gridMean m.xy = (1, 0) := by
    simp [gridMean, m, Fin.sum_univ_two]
  rw [hm]
  funext i
  have h180 : (180 : ℝ) / 180 * Real.pi = Real.pi := by ring
  fin_cases i <;> simp [rotateGrid, rotatePt, m, exRunParams, h180] <;> norm_num

example : ∃ m', exSim.updates exRunParams exPhysics [60, -1, 30] = .ok (m', [true, true, true]) := by
  obtain ⟨m1, b1, h1⟩ := update_ok exRunParams exPhysics exSim 60 (by simp [exRunParams])
  obtain ⟨m2, b2, h2⟩ := update_ok exRunParams exPhysics m1 (-1) (by simp [exRunParams])
  obtain ⟨m3, b3, h3⟩ := update_ok exRunParams exPhysics m2 30 (by simp [exRunParams])
  have key : ∀ (m m' : Sim Unit (Fin 1)) (dt : ℝ) (b : Bool), -1 ≤ dt →
      m.update exRunParams exPhysics dt = .ok (m', b) → b = true := by
    intro m m' dt b hdt h
    obtain ⟨g, c, -, hts, -⟩ := update_frame _ _ _ _ _ _ h
    unfold setTimestep limitBedChange RunParams.ts at hts
    simp [exRunParams, not_lt.mpr hdt] at hts
    exact hts.2
  have e1 := key _ _ _ _ (by norm_num) h1
  have e2 := key _ _ _ _ (by norm_num) h2
  have e3 := key _ _ _ _ (by norm_num) h3
  subst e1; subst e2; subst e3
  exact ⟨m3, by simp [Sim.updates, h1, h2, h3, Except.map]⟩

/-! ### C25 -/

/-- The processes of an executed step, in order, depending on the wind before (`w1`) and after
(`w2`) the hydrodynamic processes. -/
def stepProcs (p : RunParams) (w1 w2 : Bool) : List Proc :=
  [.windInterpolate]
    ++ (if w1 then [.windShear] else [])
    ++ (if p.processFences then [.fences] else [])
    ++ (if p.processVegetation then [.vegShear] else [])
    ++ [.hydroInterpolate, .hydroUpdate, .mixTopLayer]
    ++ (if w2 then [.threshold, .equilibrium, .solve, .bedUpdate, .angleOfRepose, .avalanche,
        .wetBedReset, .averageChange] else [])
    ++ (if p.processDuneErosion then [.duneErosion, .angleOfRepose, .avalanche] else [])
    ++ (if p.processVegetation then [.germinate, .grow] else [])

/-- C25: an executed step runs each enabled process once, in a fixed order, the transport processes
only when there is wind; and an unknown scheme raises an error exactly when there is wind. -/
theorem C25_step_order (p : RunParams) (ph : Physics W ι) (m m' : Sim W ι) (dt : ℝ)
    (h : m.update p ph dt = .ok (m', true)) :
    ∃ w1 w2 : Bool, m'.trace = m.trace ++ stepProcs p w1 w2 ∧
      (w2 = true → p.scheme ≠ .unknown) ∧ m'.count = m.count + 1 := by
  obtain ⟨g, c, -, -, ht, -⟩ := update_frame p ph m m' dt true h
  obtain ⟨-, -, hcount⟩ := ht rfl
  unfold Sim.update at h
  simp only at h
  split at h
  swap
  · cases h
  obtain ⟨w1, hw1⟩ := prepare_trace p ph m
  cases he : Sim.execute p ph { (m.prepare p ph) with
      clock := (setTimestep p.ts (ph.grids (m.prepare p ph).w) (m.prepare p ph).clock dt).1 } with
  | error e => rw [he] at h; cases h
  | ok n =>
    rw [he] at h
    obtain ⟨w2, h2, h3⟩ := execute_trace p ph _ _ he
    cases h
    refine ⟨w1, w2, ?_, h3, hcount⟩
    rw [h2]
    simp only [hw1, stepProcs]
    simp

/-- C25: through any sequence of `update` calls the step counter grows by the number of executed
steps. -/
theorem C25_counter (p : RunParams) (ph : Physics W ι) (m m' : Sim W ι) (dts : List ℝ)
    (bs : List Bool) (h : m.updates p ph dts = .ok (m', bs)) :
    m'.count = m.count + bs.count true ∧ bs.length = dts.length := by
  induction dts generalizing m bs with
  | nil => cases h; simp
  | cons dt dts ih =>
    unfold Sim.updates at h
    cases hu : m.update p ph dt with
    | error e => rw [hu] at h; cases h
    | ok r =>
      obtain ⟨m1, b⟩ := r
      rw [hu] at h
      simp only at h
      cases hr : m1.updates p ph dts with
      | error e => rw [hr] at h; cases h
      | ok r2 =>
        obtain ⟨m2, bs2⟩ := r2
        rw [hr] at h
        simp only [Except.map] at h
        cases h
        obtain ⟨e1, e2⟩ := ih m1 bs2 hr
        obtain ⟨g, c, -, -, ht, hf⟩ := update_frame p ph m m1 dt b hu
        refine ⟨?_, by simp [e2]⟩
        cases b with
        | true => rw [e1, (ht rfl).2.2, List.count_cons_self]; omega
        | false => rw [e1, (hf rfl).2.2]; simp

end Run

/-! ### Time steps of two cells -/

/-- Winds of 10 and 5 m/s over cells of 2 m; the bed rose by 1 cm in the first cell in the previous step of 60 s. -/
def twoCells : TsGrids ℚ (Fin 2) := ⟨![10, 5], fun _ => 2, fun _ => 0, fun _ => 1, ![1 / 100, -1 / 100]⟩

/-- An hour is asked for: a tenth of a second by the CFL condition. -/
theorem twoCells_step : setTimestep ⟨3600, true, 1 / 2, 1 / 100⟩ twoCells ⟨0, 0, 60⟩ (3600 : ℚ) = (⟨0, 1 / 10, 60⟩, true) := by
  have h1 : gridMax (fun i => |twoCells.uws i| / twoCells.ds i) = 5 := by decide +kernel
  have h2 : gridMax (fun i => |twoCells.uwn i| / twoCells.dn i) = 0 := by decide +kernel
  have h3 : gridMax twoCells.dzb = 1 / 100 := by decide +kernel
  unfold setTimestep limitBedChange dtref
  rw [h1, h2, h3]
  norm_num

example : (1 / 10 : ℚ) ≤ 3600 ∧ (1 / 10 : ℚ) ≤ 1 / 2 / dtref twoCells ∧
    (1 / 10 : ℚ) * (1 / 100 / 60) ≤ max (1 / 100) 0 ∧ (0 : ℚ) < 1 / 10 ∧
    |(10 : ℚ)| * (1 / 10) / 2 + |(0 : ℚ)| * (1 / 10) / 1 ≤ 1 / 2 :=
  ⟨(C20_step_at_most_requested _ _ _ _ _ twoCells_step).1 (by norm_num),
    (C20_step_at_most_cfl _ _ _ _ _ rfl (by norm_num) twoCells_step).2,
    C20_bed_rise_limited _ _ _ _ _ twoCells_step (by norm_num) (by norm_num) 0 (by norm_num [twoCells]),
    C20_step_positive_partial _ _ _ _ _ twoCells_step (.inl (by norm_num)) (.inr ⟨by norm_num, by norm_num, 0, by norm_num [twoCells]⟩),
    C21_cfl_in_every_cell _ _ _ _ _ rfl (by norm_num) (fun _ => by norm_num [twoCells]) (fun _ => by norm_num [twoCells]) twoCells_step 0⟩

/-- The bed fell everywhere: the next step is negative. -/
example : ∃ c', setTimestep ⟨3600, false, 1 / 2, 1 / 100⟩ { twoCells with dzb := fun _ => -1 / 100 } ⟨0, 0, 60⟩ (3600 : ℚ) = (c', true) ∧ c'.dt < 0 :=
  ⟨_, rfl, C20_negative_step ⟨3600, false, 1 / 2, 1 / 100⟩ { twoCells with dzb := fun _ => -1 / 100 } ⟨0, 0, 60⟩ _ 3600 rfl (by norm_num) (by norm_num)
    (by norm_num) (fun _ => by norm_num)⟩

/-- An hour in steps of 60 s, accelerated twice: 31 steps. -/
example : ∃ m', (∀ fuel, 31 ≤ fuel → exSim.loop exRunParams exPhysics id fuel = .ok (some m')) ∧ m'.count = 31 := by
  obtain ⟨m', h1, h2⟩ := C22_run_length exRunParams exPhysics id (by simp) exSim (.inl rfl) rfl (by norm_num [exRunParams])
    (by norm_num [exRunParams]) (by norm_num [exRunParams, exSim])
  have e : ⌊(exRunParams.tstop - exSim.clock.t) / (exRunParams.dt * exRunParams.accfac)⌋₊ = 30 := by
    rw [Nat.floor_eq_iff (by norm_num [exRunParams, exSim])]
    norm_num [exRunParams, exSim]
  rw [e] at h1 h2
  exact ⟨m', h1, h2⟩

/-- One fast forward of an hour: the grid has been turned by the angle once. -/
example : ∃ m', exSim.updates exRunParams exPhysics [-3600] = .ok (m', [false]) ∧
    m'.xy = rotateGrid (1 * exRunParams.alpha) (gridMean exSim.xy) exSim.xy ∧ m'.count = 0 := by
  obtain ⟨m1, b1, h1⟩ := update_ok exRunParams exPhysics exSim (-3600) (by simp [exRunParams])
  obtain ⟨g, c, -, hts, -⟩ := update_frame _ _ _ _ _ _ h1
  have e : b1 = false := by
    unfold setTimestep RunParams.ts at hts
    simp at hts
    exact hts.2
  subst e
  have h : exSim.updates exRunParams exPhysics [-3600] = .ok (m1, [false]) := by simp [Sim.updates, h1, Except.map]
  have h2 := (C24_orientation _ _ _ _ _ _ h).1
  have h3 := (C25_counter _ _ _ _ _ _ h).1
  refine ⟨m1, h, by simpa using h2, by simpa [exSim] using h3⟩

/-- A step of a minute: the processes in their order, and the grid as before. -/
example : ∃ m' w1 w2, exSim.update exRunParams exPhysics 60 = .ok (m', true) ∧ m'.trace = stepProcs exRunParams w1 w2 ∧ m'.xy = exSim.xy := by
  obtain ⟨m1, b1, h1⟩ := update_ok exRunParams exPhysics exSim 60 (by simp [exRunParams])
  obtain ⟨g, c, -, hts, -⟩ := update_frame _ _ _ _ _ _ h1
  have e : b1 = true := by
    unfold setTimestep limitBedChange RunParams.ts at hts
    simp [exRunParams] at hts
    rw [if_neg (by norm_num)] at hts
    exact (Prod.mk.inj hts).2.symm
  subst e
  obtain ⟨w1, w2, h2, -⟩ := C25_step_order _ _ _ _ _ h1
  have h3 : exSim.updates exRunParams exPhysics [60] = .ok (m1, [true]) := by simp [Sim.updates, h1, Except.map]
  exact ⟨m1, w1, w2, h1, by simpa [exSim] using h2, C24_executed_steps_keep_grid _ _ _ _ _ _ h3 (by simp)⟩

/-- With a limit on the bed change: the rise of the previous step bounds the next one. -/
example (m' : Sim Unit (Fin 1)) (h : ({ exSim with clock := ⟨60, 60, 60⟩ } : Sim Unit (Fin 1)).update { exRunParams with maxChange := 0.01 }
      { exPhysics with grids := fun _ => ⟨fun _ => 0, fun _ => 1, fun _ => 0, fun _ => 1, fun _ => 0.02⟩ } 60 = .ok (m', true)) :
    m'.clock.dt * (0.02 / 60) ≤ max 0.01 0 :=
  C20_rise_of_previous_step _ _ _ _ _ h (by norm_num) (by norm_num) (fun _ _ _ _ _ => rfl) (fun _ _ => rfl) 0 (by norm_num)

end Aeolis.Props
