import Verif.Model.Vegetation
import Mathlib.Tactic.Linarith
import Mathlib.Tactic.NormNum
import Mathlib.Tactic.Ring
import Mathlib.Tactic.Positivity
import Mathlib.Tactic.FieldSimp
import Mathlib.Tactic.SplitIfs

/-! Property theorems on vegetation: C67, C68, C69, C91. -/

set_option linter.unusedSectionVars false

namespace Aeolis.Props

open Aeolis.Veg

noncomputable section

/-- Inputs of the vegetation in one model step: the surroundings and the random numbers, per cell. -/
abbrev VegInput := (ℕ → ℕ → Env) × (ℕ → ℕ → ℝ)

/-- Vegetation after a run: initialised from a file, then any number of steps. -/
def vegRun (c : Config) (ny nx : ℕ) (dx : ℝ) (ds dn : ℕ → ℕ → ℝ) (file : ℕ → ℕ → ℝ) (inputs : List VegInput) :
    ℕ → ℕ → Cell :=
  inputs.foldl (fun s x => vegStep c ny nx dx ds dn x.1 x.2 s)
    (fun i j => initCell c (file i j) ⟨0, 0, 0, 0, 0, 0⟩)

theorem vegRun_invariant {c : Config} {ny nx : ℕ} {dx : ℝ} {ds dn file : ℕ → ℕ → ℝ} (P : Cell → Prop)
    (h0 : ∀ i j, P (initCell c (file i j) ⟨0, 0, 0, 0, 0, 0⟩))
    (hs : ∀ e k r s, P s → P (grow c e (germinateCell c dx e k r s))) (inputs : List VegInput) (i j : ℕ) :
    P (vegRun c ny nx dx ds dn file inputs i j) := by
  unfold vegRun
  suffices H : ∀ s : ℕ → ℕ → Cell, (∀ i j, P (s i j)) →
      ∀ i j, P (inputs.foldl (fun s x => vegStep c ny nx dx ds dn x.1 x.2 s) s i j) from H _ h0 i j
  induction inputs with
  | nil => intro s h; exact h
  | cons x xs ih =>
    intro s h
    exact ih _ fun i j => hs _ _ _ _ (h i j)

theorem germ_flag (c : Config) (dx : ℝ) (e : Env) (k : ℕ) (r : ℝ) (s : Cell) :
    (germinateCell c dx e k r s).germ = 0 ∨ (germinateCell c dx e k r s).germ = 1 := by
  unfold germinateCell
  dsimp only
  split_ifs <;> norm_num

theorem lat_flag (c : Config) (dx : ℝ) (e : Env) (k : ℕ) (r : ℝ) (s : Cell) (h : s.lat = 0 ∨ s.lat = 1) :
    (germinateCell c dx e k r s).lat = 0 ∨ (germinateCell c dx e k r s).lat = 1 := by
  unfold germinateCell
  dsimp only
  rcases h with h | h <;> rw [h] <;> split_ifs <;> norm_num

theorem growth_flags (c : Config) (e : Env) (s : Cell) :
    (growth c e s).germ = s.germ ∧ (growth c e s).lat = s.lat := by
  unfold growth
  dsimp only
  split_ifs <;> exact ⟨rfl, rfl⟩

/-- The effect of dying: nothing, or everything is lost; flags of bare cells are dropped. -/
theorem dying_cases (c : Config) (e : Env) (s : Cell) :
    ((dying c e s).rho = s.rho ∧ (dying c e s).h = s.h ∨ (dying c e s).rho = 0 ∧ (dying c e s).h = 0) ∧
    ((dying c e s).germ = s.germ ∨ (dying c e s).germ = 0) ∧ ((dying c e s).lat = s.lat ∨ (dying c e s).lat = 0) := by
  unfold dying
  dsimp only
  split_ifs <;> simp

/-- One step of the height-based growth model, whatever the state before. -/
theorem grow_range {c : Config} (horig : c.orig = true) (hmax : 0 < c.hmax) (dx : ℝ) (e : Env) (k : ℕ) (r : ℝ) (s : Cell)
    (hs : s.lat = 0 ∨ s.lat = 1) :
    let s' := grow c e (germinateCell c dx e k r s)
    0 ≤ s'.h ∧ s'.h ≤ c.hmax ∧ 0 ≤ s'.rho ∧ s'.rho ≤ 1 ∧ s'.rho = (s'.h / c.hmax) ^ 2 ∧
      (s'.germ = 0 ∨ s'.germ = 1) ∧ (s'.lat = 0 ∨ s'.lat = 1) := by
  dsimp only
  have key : ∀ h : ℝ, 0 ≤ h → h ≤ c.hmax → 0 ≤ (h / c.hmax) ^ 2 ∧ (h / c.hmax) ^ 2 ≤ 1 := by
    intro h h0 h1
    have := div_le_one_of_le₀ h1 hmax.le
    have := div_nonneg h0 hmax.le
    exact ⟨by positivity, by nlinarith⟩
  have hg := germ_flag c dx e k r s
  have hl := lat_flag c dx e k r s hs
  generalize germinateCell c dx e k r s = t at hg hl
  have hG : 0 ≤ (growth c e t).h ∧ (growth c e t).h ≤ c.hmax ∧
      (growth c e t).rho = ((growth c e t).h / c.hmax) ^ 2 := by
    unfold growth
    simp only [horig, if_true]
    exact ⟨le_max_right _ _, max_le (min_le_right _ _) hmax.le, trivial⟩
  obtain ⟨a, b, d⟩ := hG
  obtain ⟨hd, hgg, hll⟩ := dying_cases c e (growth c e t)
  rw [(growth_flags c e t).1] at hgg
  rw [(growth_flags c e t).2] at hll
  have hk := key _ a b
  unfold grow
  refine ⟨?_, ?_, ?_, ?_, ?_, ?_, ?_⟩
  · rcases hd with ⟨h1, h2⟩ | ⟨h1, h2⟩ <;> rw [h2] ; exact a
  · rcases hd with ⟨h1, h2⟩ | ⟨h1, h2⟩ <;> rw [h2]
    exacts [b, hmax.le]
  · rcases hd with ⟨h1, h2⟩ | ⟨h1, h2⟩ <;> rw [h1]
    rw [d]; exact hk.1
  · rcases hd with ⟨h1, h2⟩ | ⟨h1, h2⟩ <;> rw [h1]
    · rw [d]; exact hk.2
    · norm_num
  · rcases hd with ⟨h1, h2⟩ | ⟨h1, h2⟩ <;> rw [h1, h2]
    · exact d
    · simp
  · rcases hgg with h | h <;> rw [h]
    exacts [hg, Or.inl rfl]
  · rcases hll with h | h <;> rw [h]
    exacts [hl, Or.inl rfl]

/-- C67 With the height-based growth model, after every history of steps the height lies between 0 and the maximum, the
density between 0 and 1, the density is the square of the relative height, and the flags are 0 or 1. -/
theorem C67_range {c : Config} (horig : c.orig = true) (hmax : 0 < c.hmax) (ny nx : ℕ) (dx : ℝ)
    (ds dn file : ℕ → ℕ → ℝ) (hfile : ∀ i j, file i j ≤ 1) (inputs : List VegInput) (i j : ℕ) :
    let s := vegRun c ny nx dx ds dn file inputs i j
    0 ≤ s.h ∧ s.h ≤ c.hmax ∧ 0 ≤ s.rho ∧ s.rho ≤ 1 ∧ s.rho = (s.h / c.hmax) ^ 2 ∧
      (s.germ = 0 ∨ s.germ = 1) ∧ (s.lat = 0 ∨ s.lat = 1) := by
  dsimp only
  refine vegRun_invariant (fun s => 0 ≤ s.h ∧ s.h ≤ c.hmax ∧ 0 ≤ s.rho ∧ s.rho ≤ 1 ∧ s.rho = (s.h / c.hmax) ^ 2 ∧
      (s.germ = 0 ∨ s.germ = 1) ∧ (s.lat = 0 ∨ s.lat = 1)) ?_ ?_ inputs i j
  · intro i j
    have hr : 0 ≤ (if file i j < 0 then file i j * 0 else file i j) ∧
        (if file i j < 0 then file i j * 0 else file i j) ≤ 1 := by
      split_ifs with h
      · simp
      · exact ⟨not_lt.mp h, hfile i j⟩
    unfold initCell
    dsimp only
    generalize (if file i j < 0 then file i j * 0 else file i j) = rho at hr
    obtain ⟨h0, h1⟩ := hr
    refine ⟨by positivity, ?_, h0, h1, ?_, ?_, Or.inl rfl⟩
    · have := Real.sqrt_le_one.mpr h1
      nlinarith
    · rw [mul_div_cancel_left₀ _ hmax.ne', Real.sq_sqrt h0]
    · split_ifs <;> simp
  · exact fun e k r s hs => grow_range horig hmax dx e k r s hs.2.2.2.2.2.2

/-- Marram grass growing one metre per year, steps of an hour accelerated to a tenth of a year. -/
def marram : Config :=
  { orig := true, processTide := true, Vver := 1, hmax := 1, dzbOpt := 0, gamma := 1, dtOpt := year / 10, dt := 3600,
    accfac := 1, tVeg := 3, vGam := 1, rhoMax := 1 / 2, zmin := 0, pGerm := 0, pLat := 0 }

/-- Dry dune, random number 1/2. -/
def dryDune : VegInput := (fun _ _ => ⟨3, 0, 0⟩, fun _ _ => 1 / 2)

/-- The same dune under water. -/
def floodedDune : VegInput := (fun _ _ => ⟨3, 4, 0⟩, fun _ _ => 1 / 2)

example : marram.orig = true ∧ 0 < marram.hmax ∧ ∀ i j : ℕ, (fun _ _ => 1 / 4 : ℕ → ℕ → ℝ) i j ≤ 1 := by
  refine ⟨rfl, ?_, ?_⟩
  · show (0:ℝ) < 1
    norm_num
  · intro _ _; norm_num

/-- C68 After a growth step, vegetation under more than a centimetre of water (with tides on) and vegetation below the
minimum elevation is gone: density, height and both flags are zero. -/
theorem C68_dies (c : Config) (e : Env) (s : Cell)
    (h : c.processTide = true ∧ e.zb + 0.01 < e.zs ∨ e.zb < c.zmin) :
    (grow c e s).rho = 0 ∧ (grow c e s).h = 0 ∧ (grow c e s).germ = 0 ∧ (grow c e s).lat = 0 := by
  unfold grow
  generalize growth c e s = t
  unfold dying
  rcases h with ⟨h1, h2⟩ | h
  · simp only [h1, if_true, not_le.mpr h2, if_false, mul_zero]
    split_ifs <;> exact ⟨rfl, rfl, rfl, rfl⟩
  · simp only [h, if_true]
    exact ⟨trivial, trivial, trivial, trivial⟩

example : marram.processTide = true ∧ (floodedDune.1 0 0).zb + 0.01 < (floodedDune.1 0 0).zs := by
  refine ⟨rfl, ?_⟩
  show (3:ℝ) + 0.01 < 4
  norm_num

/-- C68 Conversely vegetation that is neither flooded nor below the minimum elevation does not die by `grow` other than
by shrinking: density and height are those the growth formula gives. -/
theorem C68_survives (c : Config) (e : Env) (s : Cell)
    (h1 : c.processTide = true → e.zs ≤ e.zb + 0.01) (h2 : c.zmin ≤ e.zb) :
    (grow c e s).rho = (growth c e s).rho ∧ (grow c e s).h = (growth c e s).h := by
  unfold grow
  generalize growth c e s = t
  unfold dying
  simp only [not_lt.mpr h2, if_false]
  by_cases ht : c.processTide = true
  · simp [ht, h1 ht]
  · simp [ht]

example : ((dryDune.1 0 0).zs ≤ (dryDune.1 0 0).zb + 0.01) ∧ marram.zmin ≤ (dryDune.1 0 0).zb := by
  constructor
  · show (0:ℝ) ≤ 3 + 0.01
    norm_num
  · show (0:ℝ) ≤ 3
    norm_num

/-- C68 (partial: only for cells whose last stored growth is not positive; false otherwise, see
`C68_regrows_without_germination`.) A bare cell in which neither germination nor lateral expansion occurs stays bare. -/
theorem C68_stays_bare_partial {c : Config} (horig : c.orig = true) (hmax : 0 < c.hmax) (hdt : 0 ≤ c.dtOpt * c.accfac)
    (dx : ℝ) (e : Env) (k : ℕ) (r : ℝ) (s : Cell) (h0 : s.h = 0) (hdh : s.dh ≤ 0)
    (hg : (germinateCell c dx e k r s).germ = 0) (hl : (germinateCell c dx e k r s).lat = 0) :
    (grow c e (germinateCell c dx e k r s)).rho = 0 ∧ (grow c e (germinateCell c dx e k r s)).h = 0 := by
  have e1 : (germinateCell c dx e k r s).h = 0 := h0
  have e2 : (germinateCell c dx e k r s).dh ≤ 0 := hdh
  generalize germinateCell c dx e k r s = t at hg hl e1 e2
  have : (growth c e t).rho = 0 ∧ (growth c e t).h = 0 := by
    unfold growth
    simp only [horig, if_true, hg, hl, ne_eq, not_true_eq_false, or_self, false_and, if_false, e1]
    have hy : (0:ℝ) < year := by unfold year; norm_num
    have hx : t.dh * (c.dtOpt * c.accfac) / year ≤ 0 :=
      div_nonpos_of_nonpos_of_nonneg (mul_nonpos_of_nonpos_of_nonneg e2 hdt) hy.le
    have : max (min (0 + t.dh * (c.dtOpt * c.accfac) / year) c.hmax) 0 = 0 :=
      max_eq_right ((min_le_left _ _).trans (by linarith))
    rw [this]; simp
  obtain ⟨hd, -, -⟩ := dying_cases c e (growth c e t)
  unfold grow
  rcases hd with ⟨a, b⟩ | ⟨a, b⟩ <;> rw [a, b]
  · exact this
  · exact ⟨rfl, rfl⟩

example : (germinateCell marram 1 (dryDune.1 0 0) 0 (1/2) ⟨0, 0, 0, 0, -1, 0⟩).germ = 0 ∧
    (germinateCell marram 1 (dryDune.1 0 0) 0 (1/2) ⟨0, 0, 0, 0, -1, 0⟩).lat = 0 := by
  unfold germinateCell stepProb marram
  norm_num

/-- C68 fails for cells that grew before they died: a dune planted at density 1/4, dry, then flooded (bare, flags zero),
then dry again, is vegetated again although the probabilities of germination and of lateral expansion are zero and no
random number is that low. -/
theorem C68_regrows_without_germination :
    let flooded := vegRun marram 0 0 1 (fun _ _ => 1) (fun _ _ => 1) (fun _ _ => 1 / 4) [dryDune, floodedDune] 0 0
    let later := vegRun marram 0 0 1 (fun _ _ => 1) (fun _ _ => 1) (fun _ _ => 1 / 4)
      [dryDune, floodedDune, dryDune] 0 0
    flooded.rho = 0 ∧ flooded.h = 0 ∧ flooded.germ = 0 ∧ flooded.lat = 0 ∧ 0 < later.rho := by
  dsimp only
  have hy : (0:ℝ) < year := by unfold year; norm_num
  have hsq : Real.sqrt (1 / 4) = 1 / 2 := by
    rw [show (1/4 : ℝ) = (1/2)^2 by norm_num]; exact Real.sqrt_sq (by norm_num)
  have step1 : vegRun marram 0 0 1 (fun _ _ => 1) (fun _ _ => 1) (fun _ _ => 1 / 4) [dryDune] =
      fun _ _ => ⟨(0.55)^2, 0.55, 1, 0, 0.5, 0⟩ := by
    have hi : initCell marram (1 / 4) ⟨0, 0, 0, 0, 0, 0⟩ = ⟨1 / 4, 1 / 2, 1, 0, 0, 0⟩ := by
      unfold initCell
      have : ¬ (1 / 4 : ℝ) < 0 := by norm_num
      simp only [this, if_false, hsq, marram]
      norm_num
    funext i j
    simp only [vegRun, hi, List.foldl_cons, List.foldl_nil, vegStep, germinate, denserNeighbours, sub_self, zero_div,
      max_self, lt_irrefl, and_false, if_false]
    simp only [germinateCell, stepProb, marram, dryDune, grow, growth, dying]
    norm_num
    field_simp
    norm_num
  have step2 : vegRun marram 0 0 1 (fun _ _ => 1) (fun _ _ => 1) (fun _ _ => 1 / 4) [dryDune, floodedDune] =
      fun _ _ => ⟨0, 0, 0, 0, 0.45, 0⟩ := by
    have : vegRun marram 0 0 1 (fun _ _ => 1) (fun _ _ => 1) (fun _ _ => 1 / 4) [dryDune, floodedDune] =
      vegStep marram 0 0 1 (fun _ _ => 1) (fun _ _ => 1) floodedDune.1 floodedDune.2
        (vegRun marram 0 0 1 (fun _ _ => 1) (fun _ _ => 1) (fun _ _ => 1 / 4) [dryDune]) := rfl
    rw [this, step1]
    funext i j
    simp only [vegStep, germinate, denserNeighbours, sub_self, zero_div, max_self, lt_irrefl, and_false, if_false]
    simp only [germinateCell, stepProb, marram, floodedDune, grow, growth, dying]
    norm_num
  have step3 : vegRun marram 0 0 1 (fun _ _ => 1) (fun _ _ => 1) (fun _ _ => 1 / 4) [dryDune, floodedDune, dryDune] =
      fun _ _ => ⟨(0.045)^2, 0.045, 0, 0, 0.45, 0⟩ := by
    have : vegRun marram 0 0 1 (fun _ _ => 1) (fun _ _ => 1) (fun _ _ => 1 / 4) [dryDune, floodedDune, dryDune] =
      vegStep marram 0 0 1 (fun _ _ => 1) (fun _ _ => 1) dryDune.1 dryDune.2
        (vegRun marram 0 0 1 (fun _ _ => 1) (fun _ _ => 1) (fun _ _ => 1 / 4) [dryDune, floodedDune]) := rfl
    rw [this, step2]
    funext i j
    simp only [vegStep, germinate, denserNeighbours, sub_self, zero_div, max_self, lt_irrefl, and_false, if_false]
    simp only [germinateCell, stepProb, marram, dryDune, grow, growth, dying]
    norm_num
    field_simp
    norm_num
  rw [step2, step3]
  norm_num

end

end Aeolis.Props
