import Verif.Spec.Runner
import Mathlib.Algebra.Order.Floor.Ring

/-! Lemmas on `AeoLiSRunner.run`. -/

set_option linter.unusedSectionVars false

namespace Aeolis.Runner

open Aeolis Aeolis.Spec

variable {K W : Type*} [Field K] [LinearOrder K] [IsStrictOrderedRing K] [FloorRing K]

theorem path_head {e : Engine K W} {tstop : K} {w v : W} {ws : List W} (h : Path e tstop w ws v) :
    ws ++ [v] = w :: (ws ++ [v]).tail := by
  cases h <;> simp

theorem outputWrite_ok {c : Cfg K} {e : Engine K W} {s s' : St K W} (h : outputWrite c e s = .ok s') :
    s'.w = s.w ∧ s'.trestart = s.trestart ∧ s'.called = s.called ∧ s'.dtArray = s.dtArray ∧
    s'.lines = s.lines ∧ s'.plog = s.plog ∧ s'.tlog = s.tlog ∧
    (⟨s'.tout, s'.records⟩ : Writer K) = Writer.write c.outputTimes ⟨s.tout, s.records⟩ (e.time s.w) ∧
    (c.restart = 0 ∨ e.time s.w - s.trestart < c.restart) ∧
    s'.hasClear = (s.hasClear ||
      (c.snapshot && decide (e.time s.w - s.tout ≥ c.outputTimes ∨ e.time s.w = 0))) := by
  unfold outputWrite at h
  dsimp only at h
  have hr : ∀ t : K, (¬ (c.restart ≠ 0 ∧ e.time s.w - t ≥ c.restart)) →
      (c.restart = 0 ∨ e.time s.w - t < c.restart) := by
    intro t ht
    by_cases h0 : c.restart = 0
    · exact Or.inl h0
    · right
      by_contra hlt
      exact ht ⟨h0, not_lt.1 hlt⟩
  by_cases h1 : e.time s.w - s.tout ≥ c.outputTimes ∨ e.time s.w = 0
  · simp only [if_pos h1] at h
    split at h
    · cases h
    · rename_i h2
      cases h
      refine ⟨rfl, rfl, rfl, rfl, rfl, rfl, rfl, ?_, hr _ h2, ?_⟩
      · simp only [Writer.write]; rw [if_pos h1]
      · simp [h1]
  · simp only [if_neg h1] at h
    split at h
    · cases h
    · rename_i h2
      cases h
      refine ⟨rfl, rfl, rfl, rfl, rfl, rfl, rfl, ?_, hr _ h2, ?_⟩
      · simp only [Writer.write]; rw [if_neg h1]
      · simp [h1]

/-- What a progress message changes. -/
theorem printProgress_ok {c : Cfg K} {e : Engine K W} {n l : K} {s s' : St K W}
    (h : printProgress c e n l s = .ok s') :
    s'.w = s.w ∧ s'.trestart = s.trestart ∧ s'.called = s.called ∧ s'.tout = s.tout ∧
    s'.records = s.records ∧ s'.hasClear = s.hasClear ∧ s'.dtArray.isSome = true ∧
    c.tstop ≠ c.tstart ∧ (e.steps s.w = 1 ∨ s.dtArray.isSome = true) := by
  unfold printProgress at h
  split at h
  · cases h
  · rename_i h0
    have hne : c.tstop ≠ c.tstart := fun he => h0 (by rw [he, sub_self])
    dsimp only at h
    split at h
    · cases h
    · rename_i arr ha
      have hs : e.steps s.w = 1 ∨ s.dtArray.isSome = true := by
        by_cases h1 : e.steps s.w = 1
        · exact Or.inl h1
        · rw [if_neg h1] at ha; right; rw [ha]; rfl
      split at h
      · split at h
        · cases h
        · cases h
          exact ⟨rfl, rfl, rfl, rfl, rfl, rfl, rfl, hne, hs⟩
      · cases h
        exact ⟨rfl, rfl, rfl, rfl, rfl, rfl, rfl, hne, hs⟩

theorem runCallback_facts (e : Engine K W) (s : St K W) :
    (runCallback e s).w = afterCallback e s.w ∧ (runCallback e s).trestart = s.trestart ∧
    (runCallback e s).tout = s.tout ∧ (runCallback e s).records = s.records ∧
    (runCallback e s).dtArray = s.dtArray ∧ (runCallback e s).lines = s.lines ∧
    (runCallback e s).plog = s.plog ∧ (runCallback e s).tlog = s.tlog ∧
    (runCallback e s).called = s.called ++ (if e.callback.isSome then [e.time s.w] else []) ∧
    (runCallback e s).hasClear = (s.hasClear || asks e s.w) := by
  unfold runCallback afterCallback asks
  split <;> rename_i h <;> simp [h]

/-- What a round does. -/
theorem round_ok {c : Cfg K} {e : Engine K W} {wall : K × K} {s s' : St K W}
    (h : round c e wall s = .ok s') :
    e.update (afterCallback e s.w) = .ok s'.w ∧ s'.trestart = s.trestart ∧
    s'.called = s.called ++ (if e.callback.isSome then [e.time s.w] else []) ∧
    (⟨s'.tout, s'.records⟩ : Writer K) = Writer.write c.outputTimes ⟨s.tout, s.records⟩ (e.time s'.w) ∧
    (c.restart = 0 ∨ e.time s'.w - s.trestart < c.restart) ∧
    (s.hasClear = true ∨ asks e s.w = true) ∧ s'.hasClear = true ∧ s'.dtArray.isSome = true ∧
    c.tstop ≠ c.tstart ∧ (e.steps s'.w = 1 ∨ s.dtArray.isSome = true) := by
  obtain ⟨c1, c2, c3, c4, c5, -, -, -, c9, c10⟩ := runCallback_facts e s
  unfold round at h
  split at h
  · cases h
  · rename_i s1 h1
    split at h
    · cases h
    · rename_i s2 h2
      unfold runnerUpdate at h1
      split at h1
      · rename_i hcl
        cases hu : e.update (runCallback e s).w with
        | error x => rw [hu] at h1; cases h1
        | ok w' =>
          rw [hu] at h1
          cases h1
          obtain ⟨o1, o2, o3, o4, -, -, -, o8, o9, o10⟩ := outputWrite_ok h2
          obtain ⟨p1, p2, p3, p4, p5, p6, p7, p8, p9⟩ := printProgress_ok h
          dsimp only at o1 o2 o3 o4 o8 o9 o10
          have hw : s'.w = w' := by rw [p1, o1]
          rw [hw, ← c1, hu]
          refine ⟨rfl, by rw [p2, o2, c2], by rw [p3, o3, c9], ?_, ?_, ?_, ?_, p7, p8, ?_⟩
          · rw [p4, p5, o8, c3, c4]
          · rw [← c2]; exact o9
          · rw [c10] at hcl
            simpa using hcl
          · rw [p6, o10, hcl]; rfl
          · rw [p1] at hw
            rw [← hw, ← c5, ← o4]
            exact p9
      · cases h1

theorem loop_ok {c : Cfg K} {e : Engine K W} {walls : List (K × K)} {s s' : St K W}
    (h : loop c e walls s = .ok (some s')) :
    ∃ ws, Path e c.tstop s.w ws s'.w ∧ s'.trestart = s.trestart ∧
      s'.called = s.called ++ (if e.callback.isSome then ws.map e.time else []) ∧
      (⟨s'.tout, s'.records⟩ : Writer K) = Writer.run c.outputTimes ⟨s.tout, s.records⟩
        (((ws ++ [s'.w]).tail).map e.time) ∧
      (c.restart = 0 ∨ ∀ x ∈ (ws ++ [s'.w]).tail, e.time x - s.trestart < c.restart) ∧
      (ws = [] ∨ s.hasClear = true ∨ asks e s.w = true) ∧
      (ws = [] ∨ c.tstop ≠ c.tstart) ∧
      (s.dtArray.isSome = true ∨ ∀ x ∈ ((ws ++ [s'.w]).tail).head?, e.steps x = 1) := by
  induction walls generalizing s with
  | nil =>
    unfold loop at h
    split at h
    · cases h
    · rename_i ht
      cases h
      exact ⟨[], .stop _ (not_le.1 ht), rfl, by simp, by simp [Writer.run], by simp, by simp, by simp, by simp⟩
  | cons wall walls ih =>
    unfold loop at h
    split at h
    · rename_i ht
      split at h
      · cases h
      · rename_i s1 h1
        obtain ⟨r1, r2, r3, r4, r5, r6, r7, r8, r9, r10⟩ := round_ok h1
        obtain ⟨ws, i1, i2, i3, i4, i5, -, -, i8⟩ := ih h
        have hh := path_head i1
        refine ⟨s.w :: ws, .step _ _ _ _ ht r1 i1, by rw [i2, r2], ?_, ?_, ?_, Or.inr r6, Or.inr r9, ?_⟩
        · rw [i3, r3]; split <;> simp
        · rw [i4, List.cons_append, List.tail_cons, hh, List.map_cons, r4]
          rfl
        · rw [List.cons_append, List.tail_cons, hh]
          rcases r5 with r5 | r5
          · exact Or.inl r5
          · rcases i5 with i5 | i5
            · exact Or.inl i5
            · right
              intro x hx
              rcases List.mem_cons.1 hx with rfl | hx
              · exact r5
              · rw [← r2]; exact i5 x hx
        · rw [List.cons_append, List.tail_cons, hh]
          rcases r10 with r10 | r10
          · right; intro x hx; simp at hx; rw [← hx]; exact r10
          · exact Or.inl r10
    · rename_i ht
      cases h
      exact ⟨[], .stop _ (not_le.1 ht), rfl, by simp, by simp [Writer.run], by simp, by simp, by simp, by simp⟩

end Aeolis.Runner
