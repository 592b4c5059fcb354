import Mathlib.Algebra.Order.Floor.Ring
import Mathlib.Algebra.Order.AbsoluteValue.Basic
import Verif.Proofs.Tactics
import Verif.Model.Run

/-! Lemmas on the time step, one model step and the time loop. -/

set_option linter.unusedSectionVars false

namespace Aeolis

open Finset

section Timestep

variable {K : Type*} [Field K] [LinearOrder K] [IsStrictOrderedRing K]
  {ι : Type*} [Fintype ι] [Nonempty ι]

theorem le_gridMax (f : ι → K) (i : ι) : f i ≤ gridMax f := le_sup' f (mem_univ i)

theorem exists_gridMax (f : ι → K) : ∃ i, gridMax f = f i := by
  obtain ⟨i, _, h⟩ := exists_mem_eq_sup' univ_nonempty f
  exact ⟨i, h⟩

theorem limit_le (p : TsParams K) (g : TsGrids K ι) (c : Clock K) :
    (limitBedChange p g c).dt ≤ c.dt := by
  unfold limitBedChange; split
  · exact min_le_left _ _
  · exact le_rfl

end Timestep

section Step

variable {W ι : Type*} [Fintype ι] [Nonempty ι]

@[simp] theorem call_xy (ph : Physics W ι) (m : Sim W ι) (q : Proc) : (m.call ph q).xy = m.xy := rfl
@[simp] theorem call_clock (ph : Physics W ι) (m : Sim W ι) (q : Proc) :
    (m.call ph q).clock = m.clock := rfl
@[simp] theorem call_count (ph : Physics W ι) (m : Sim W ι) (q : Proc) :
    (m.call ph q).count = m.count := rfl

theorem calls_frame (ph : Physics W ι) (m : Sim W ι) (qs : List Proc) :
    (m.calls ph qs).xy = m.xy ∧ (m.calls ph qs).clock = m.clock ∧
      (m.calls ph qs).count = m.count ∧ (m.calls ph qs).trace = m.trace ++ qs := by
  induction qs generalizing m with
  | nil => simp [Sim.calls]
  | cons q qs ih =>
    have := ih (m.call ph q)
    simp only [Sim.calls, List.foldl_cons] at this ⊢
    refine ⟨this.1.trans rfl, this.2.1.trans rfl, this.2.2.1.trans rfl, ?_⟩
    rw [this.2.2.2]; simp [Sim.call]

theorem prepare_frame (p : RunParams) (ph : Physics W ι) (m : Sim W ι) :
    (m.prepare p ph).xy = rotateGrid p.alpha (gridMean m.xy) m.xy ∧
    (m.prepare p ph).clock = { m.clock with dtPrev := m.clock.dt } ∧
    (m.prepare p ph).count = m.count := by
  unfold Sim.prepare
  simp only
  refine ⟨?_, ?_, ?_⟩ <;> split_ifs <;> simp [Sim.rotate]

theorem execute_frame (p : RunParams) (ph : Physics W ι) (m m' : Sim W ι)
    (h : m.execute p ph = .ok m') :
    m'.xy = rotateGrid (-p.alpha) (gridMean m.xy) m.xy ∧
    m'.clock = { m.clock with t := m.clock.t + m.clock.dt * p.accfac } ∧
    m'.count = m.count + 1 := by
  unfold Sim.execute at h
  simp only at h
  have key : ∀ n : Sim W ι, n.xy = m.xy → n.clock = m.clock → n.count = m.count →
      (Except.ok ((({ (if p.processVegetation then (if p.processDuneErosion then
        n.calls ph [.duneErosion, .angleOfRepose, .avalanche] else n).calls ph [.germinate, .grow]
        else (if p.processDuneErosion then
        n.calls ph [.duneErosion, .angleOfRepose, .avalanche] else n)) with
          clock := { (if p.processVegetation then (if p.processDuneErosion then
        n.calls ph [.duneErosion, .angleOfRepose, .avalanche] else n).calls ph [.germinate, .grow]
        else (if p.processDuneErosion then
        n.calls ph [.duneErosion, .angleOfRepose, .avalanche] else n)).clock with
            t := (if p.processVegetation then (if p.processDuneErosion then
        n.calls ph [.duneErosion, .angleOfRepose, .avalanche] else n).calls ph [.germinate, .grow]
        else (if p.processDuneErosion then
        n.calls ph [.duneErosion, .angleOfRepose, .avalanche] else n)).clock.t +
              (if p.processVegetation then (if p.processDuneErosion then
        n.calls ph [.duneErosion, .angleOfRepose, .avalanche] else n).calls ph [.germinate, .grow]
        else (if p.processDuneErosion then
        n.calls ph [.duneErosion, .angleOfRepose, .avalanche] else n)).clock.dt * p.accfac },
          count := (if p.processVegetation then (if p.processDuneErosion then
        n.calls ph [.duneErosion, .angleOfRepose, .avalanche] else n).calls ph [.germinate, .grow]
        else (if p.processDuneErosion then
        n.calls ph [.duneErosion, .angleOfRepose, .avalanche] else n)).count + 1 } :
          Sim W ι)).rotate ph (-p.alpha)) : Except PyErr (Sim W ι)) = .ok m' →
      m'.xy = rotateGrid (-p.alpha) (gridMean m.xy) m.xy ∧
      m'.clock = { m.clock with t := m.clock.t + m.clock.dt * p.accfac } ∧
      m'.count = m.count + 1 := by
    intro n h1 h2 h3 h
    have h := Except.ok.inj h
    subst h
    unfold Sim.rotate
    refine ⟨?_, ?_, ?_⟩ <;> split_ifs <;>
      simp [(calls_frame ph _ _).1, (calls_frame ph _ _).2.1, (calls_frame ph _ _).2.2.1, h1, h2, h3]
  have h0 := calls_frame ph m [.hydroInterpolate, .hydroUpdate, .mixTopLayer]
  by_cases hw : ph.windy (m.calls ph [.hydroInterpolate, .hydroUpdate, .mixTopLayer]).w
  · by_cases hs : p.scheme = .unknown
    · simp [hw, hs] at h
    · simp only [hw, hs, if_true, if_false] at h
      have h1 := calls_frame ph (m.calls ph [.hydroInterpolate, .hydroUpdate, .mixTopLayer])
        [.threshold, .equilibrium, .solve, .bedUpdate, .angleOfRepose,
        .avalanche, .wetBedReset, .averageChange]
      exact key _ (h1.1.trans h0.1) (h1.2.1.trans h0.2.1) (h1.2.2.1.trans h0.2.2.1) h
  · simp only [hw] at h
    exact key _ h0.1 h0.2.1 h0.2.2.1 h

theorem ite_call_trace (ph : Physics W ι) (m : Sim W ι) (b : Bool) (q : Proc) :
    (if b then m.call ph q else m).trace = m.trace ++ (if b then [q] else []) := by
  cases b <;> simp [Sim.call]

theorem ite_calls_trace (ph : Physics W ι) (m : Sim W ι) (b : Bool) (qs : List Proc) :
    (if b then m.calls ph qs else m).trace = m.trace ++ (if b then qs else []) := by
  cases b <;> simp [(calls_frame ph m qs).2.2.2]

theorem rotate_trace (ph : Physics W ι) (m : Sim W ι) (a : ℝ) : (m.rotate ph a).trace = m.trace :=
  rfl

theorem prepare_trace (p : RunParams) (ph : Physics W ι) (m : Sim W ι) :
    ∃ w1 : Bool, (m.prepare p ph).trace = m.trace ++ ([.windInterpolate]
    ++ (if w1 then [.windShear] else [])
    ++ (if p.processFences then [.fences] else [])
    ++ (if p.processVegetation then [.vegShear] else [])) := by
  refine ⟨ph.windy ((m.call ph .windInterpolate).rotate ph p.alpha).w, ?_⟩
  unfold Sim.prepare
  simp only [ite_call_trace, rotate_trace]
  simp [Sim.call]

theorem execute_trace (p : RunParams) (ph : Physics W ι) (n n' : Sim W ι)
    (hn : n.execute p ph = .ok n') : ∃ w2 : Bool, n'.trace = n.trace ++
      ([.hydroInterpolate, .hydroUpdate, .mixTopLayer]
      ++ (if w2 then [.threshold, .equilibrium, .solve, .bedUpdate, .angleOfRepose, .avalanche,
        .wetBedReset, .averageChange] else [])
      ++ (if p.processDuneErosion then [.duneErosion, .angleOfRepose, .avalanche] else [])
      ++ (if p.processVegetation then [.germinate, .grow] else [])) ∧
      (w2 = true → p.scheme ≠ .unknown) := by
  unfold Sim.execute at hn
  simp only at hn
  by_cases hw : ph.windy (n.calls ph [.hydroInterpolate, .hydroUpdate, .mixTopLayer]).w
  · by_cases hs : p.scheme = .unknown
    · simp [hw, hs] at hn
    · simp only [hw, hs, if_true, if_false] at hn
      have hn := Except.ok.inj hn
      subst hn
      refine ⟨true, ?_, fun _ => hs⟩
      simp only [rotate_trace, ite_calls_trace, (calls_frame ph _ _).2.2.2]
      simp
  · simp only [hw] at hn
    have hn := Except.ok.inj hn
    subst hn
    refine ⟨false, ?_, by simp⟩
    simp only [rotate_trace, ite_calls_trace, (calls_frame ph _ _).2.2.2]
    simp

/-- The outcome of an `update` call, in terms of clock, counter and coordinates. -/
theorem update_frame (p : RunParams) (ph : Physics W ι) (m m' : Sim W ι) (dt : ℝ) (b : Bool)
    (h : m.update p ph dt = .ok (m', b)) :
    ∃ g : TsGrids ℝ ι, ∃ c : Clock ℝ,
      g = ph.grids (m.prepare p ph).w ∧
      setTimestep p.ts g { m.clock with dtPrev := m.clock.dt } dt = (c, b) ∧
      (b = true → m'.xy = rotateGrid (-p.alpha)
          (gridMean (rotateGrid p.alpha (gridMean m.xy) m.xy))
          (rotateGrid p.alpha (gridMean m.xy) m.xy) ∧
        m'.clock = { c with t := c.t + c.dt * p.accfac } ∧ m'.count = m.count + 1) ∧
      (b = false → m'.xy = rotateGrid p.alpha (gridMean m.xy) m.xy ∧ m'.clock = c ∧
        m'.count = m.count) := by
  unfold Sim.update at h
  simp only at h
  obtain ⟨h1, h2, h3⟩ := prepare_frame p ph m
  rw [h2] at h
  refine ⟨_, (setTimestep p.ts (ph.grids (m.prepare p ph).w)
    { m.clock with dtPrev := m.clock.dt } dt).1, rfl, ?_, ?_, ?_⟩
  · cases hb : (setTimestep p.ts (ph.grids (m.prepare p ph).w)
      { m.clock with dtPrev := m.clock.dt } dt).2 with
    | true =>
      simp only [hb, if_true] at h
      cases he : Sim.execute p ph { (m.prepare p ph) with
        clock := (setTimestep p.ts (ph.grids (m.prepare p ph).w)
          { m.clock with dtPrev := m.clock.dt } dt).1 } with
      | error e => rw [he] at h; cases h
      | ok n => rw [he] at h; cases h; exact Prod.ext rfl hb
    | false =>
      simp only [hb] at h
      cases h; exact Prod.ext rfl hb
  · rintro rfl
    split at h
    · cases he : Sim.execute p ph { (m.prepare p ph) with
        clock := (setTimestep p.ts (ph.grids (m.prepare p ph).w)
          { m.clock with dtPrev := m.clock.dt } dt).1 } with
      | error e => rw [he] at h; cases h
      | ok n =>
        rw [he] at h
        obtain ⟨e1, e2, e3⟩ := execute_frame p ph _ _ he
        cases h
        refine ⟨?_, e2, ?_⟩
        · rw [e1]; simp only [h1]
        · rw [e3]; simp only [h3]
    · cases h
  · rintro rfl
    split at h
    · cases he : Sim.execute p ph { (m.prepare p ph) with
        clock := (setTimestep p.ts (ph.grids (m.prepare p ph).w)
          { m.clock with dtPrev := m.clock.dt } dt).1 } with
      | error e => rw [he] at h; cases h
      | ok n => rw [he] at h; cases h
    · cases h
      exact ⟨h1, rfl, h3⟩

/-- A step with a known scheme never raises. -/
theorem update_ok (p : RunParams) (ph : Physics W ι) (m : Sim W ι) (dt : ℝ)
    (hs : p.scheme ≠ .unknown) : ∃ m' b, m.update p ph dt = .ok (m', b) := by
  unfold Sim.update
  simp only
  split
  · unfold Sim.execute
    simp only [hs, if_false]
    split
    · rename_i e he
      split at he <;> cases he
    · exact ⟨_, _, rfl⟩
  · exact ⟨_, _, rfl⟩

end Step

end Aeolis
