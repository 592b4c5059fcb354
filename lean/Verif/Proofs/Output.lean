import Verif.Proofs.Tactics
import Mathlib.Algebra.Order.BigOperators.Group.List
import Verif.Proofs.PyDict
import Verif.Spec.Output

/-! Lemmas on output statistics. -/

set_option linter.unusedSectionVars false

namespace Aeolis

open Aeolis.Spec

variable {K : Type*} [Field K] [LinearOrder K] [IsStrictOrderedRing K]

/-- Correspondence between the runner and the window of values. -/
structure Tracks (e : Exts) (r : Runner K) (w : Window K) : Prop where
  n : r.n = w.values.length
  clear : r.clear = some w.asked ∨ (r.clear = none ∧ w.asked = false ∧ w.values = [])
  ff : decide (r.dt < -1) = w.fastForward
  sum : (e.sum || e.avg || e.var) = true → r.acc.sum = w.values.sum
  var : e.var = true → r.acc.var = (w.values.map (· ^ 2)).sum
  min : e.min = true → IsMinOf r.acc.min w.values
  max : e.max = true → IsMaxOf r.acc.max w.values

theorem isMinOf_snoc (x : WithTop K) (l : List K) (v : K) (h : IsMinOf x l) :
    IsMinOf (min x v) (l ++ [v]) := by
  right
  rcases h with ⟨rfl, rfl⟩ | ⟨u, hu, rfl, hle⟩
  · exact ⟨v, by simp, by simp, by simp⟩
  · rcases le_total u v with huv | huv
    · refine ⟨u, by simp [hu], ?_, ?_⟩
      · rw [min_eq_left]; exact_mod_cast huv
      · intro a ha
        rcases List.mem_append.mp ha with ha | ha
        · exact hle a ha
        · rw [List.mem_singleton] at ha; subst ha; exact huv
    · refine ⟨v, by simp, ?_, ?_⟩
      · rw [min_eq_right]; exact_mod_cast huv
      · intro a ha
        rcases List.mem_append.mp ha with ha | ha
        · exact huv.trans (hle a ha)
        · rw [List.mem_singleton] at ha; subst ha; exact le_rfl

theorem isMaxOf_snoc (x : WithBot K) (l : List K) (v : K) (h : IsMaxOf x l) :
    IsMaxOf (max x v) (l ++ [v]) := by
  right
  rcases h with ⟨rfl, rfl⟩ | ⟨u, hu, rfl, hle⟩
  · exact ⟨v, by simp, by simp, by simp⟩
  · rcases le_total v u with huv | huv
    · refine ⟨u, by simp [hu], ?_, ?_⟩
      · rw [max_eq_left]; exact_mod_cast huv
      · intro a ha
        rcases List.mem_append.mp ha with ha | ha
        · exact hle a ha
        · rw [List.mem_singleton] at ha; subst ha; exact huv
    · refine ⟨v, by simp, ?_, ?_⟩
      · rw [max_eq_right]; exact_mod_cast huv
      · intro a ha
        rcases List.mem_append.mp ha with ha | ha
        · exact (hle a ha).trans huv
        · rw [List.mem_singleton] at ha; subst ha; exact le_rfl

theorem tracks_init (e : Exts) : Tracks e (Runner.init : Runner K) ⟨false, false, []⟩ where
  n := rfl
  clear := Or.inr ⟨rfl, rfl, rfl⟩
  ff := by
    have : ¬ ((0 : K) < -1) := by linarith [zero_lt_one (α := K)]
    simp [Runner.init, this]
  sum := fun _ => rfl
  var := fun _ => rfl
  min := fun _ => Or.inl ⟨rfl, rfl⟩
  max := fun _ => Or.inl ⟨rfl, rfl⟩

theorem tracks_op (e : Exts) (snapshot : Bool) (r r' : Runner K) (w : Window K)
    (h : Tracks e r w) (o : RunnerOp K) (ho : r.op e snapshot o = .ok r') :
    Tracks e r' (w.next snapshot o) := by
  cases o with
  | get c =>
    simp only [Runner.op] at ho
    cases ho
    exact ⟨h.n, Or.inl rfl, h.ff, h.sum, h.var, h.min, h.max⟩
  | write =>
    simp only [Runner.op] at ho
    cases ho
    refine ⟨rfl, ?_, h.ff, fun _ => rfl, fun _ => rfl, fun _ => Or.inl ⟨rfl, rfl⟩,
      fun _ => Or.inl ⟨rfl, rfl⟩⟩
    cases snapshot with
    | true => left; rfl
    | false =>
      rcases h.clear with hc | ⟨hc, h2, h3⟩
      · left; simp [Window.next, hc]
      · right; simp [Window.next, hc, h2]
  | step v dt =>
    simp only [Runner.op] at ho
    cases hcl : r.clear with
    | none => rw [hcl] at ho; cases ho
    | some c =>
      have hc : c = w.asked := by
        rcases h.clear with h1 | h1
        · rw [hcl] at h1; exact Option.some.inj h1
        · rw [hcl] at h1; cases h1.1
      rw [hcl] at ho
      simp only at ho
      have ho := Except.ok.inj ho
      subst ho
      rw [h.ff, hc]
      cases hb : w.asked || w.fastForward with
      | true =>
        refine ⟨?_, Or.inl ?_, ?_, ?_, ?_, ?_, ?_⟩
        · simp [Window.next, hb, Runner.outputClear]
        · simp [Window.next]
        · simp [Window.next]
        · intro he
          simp [Window.next, hb, Runner.outputClear, Acc.add, Acc.zero]
          intro h1 h2 h3
          simp [h1, h2, h3] at he
        · intro he; simp [Window.next, hb, Runner.outputClear, Acc.add, Acc.zero, he]
        · intro he
          simp only [Window.next, hb, if_true, Runner.outputClear, Acc.add, Acc.zero, he]
          exact isMinOf_snoc _ [] v (Or.inl ⟨rfl, rfl⟩)
        · intro he
          simp only [Window.next, hb, if_true, Runner.outputClear, Acc.add, Acc.zero, he]
          exact isMaxOf_snoc _ [] v (Or.inl ⟨rfl, rfl⟩)
      | false =>
        refine ⟨?_, Or.inl ?_, ?_, ?_, ?_, ?_, ?_⟩
        · simp [Window.next, hb, h.n]
        · simp [Window.next]
        · simp [Window.next]
        · intro he
          have := h.sum he
          simp only [Window.next, hb, Bool.false_eq_true, if_false, Acc.add, List.sum_append,
            List.sum_cons, List.sum_nil, add_zero, this]
          rw [if_pos he]
        · intro he
          have := h.var he
          simp [Window.next, hb, Acc.add, he, this]
        · intro he
          simp only [Window.next, hb, Bool.false_eq_true, if_false, Acc.add, he, if_true]
          exact isMinOf_snoc _ _ v (h.min he)
        · intro he
          simp only [Window.next, hb, Bool.false_eq_true, if_false, Acc.add, he, if_true]
          exact isMaxOf_snoc _ _ v (h.max he)

theorem tracks_ops (e : Exts) (snapshot : Bool) (os : List (RunnerOp K)) (r r' : Runner K)
    (w : Window K) (h : Tracks e r w) (ho : r.ops e snapshot os = .ok r') :
    Tracks e r' (os.foldl (Window.next snapshot) w) := by
  induction os generalizing r w with
  | nil => cases ho; exact h
  | cons o os ih =>
    unfold Runner.ops at ho
    cases h1 : r.op e snapshot o with
    | error x => rw [h1] at ho; cases ho
    | ok r1 =>
      rw [h1] at ho
      exact ih r1 _ (tracks_op e snapshot r r1 w h o h1) ho

/-- The computed variance is the sample variance. -/
theorem variance_formula (l : List K) (hl : l ≠ []) :
    ((l.map (· ^ 2)).sum - l.sum ^ 2 / l.length) = (l.map fun v => (v - mean l) ^ 2).sum := by
  have hn : (l.length : K) ≠ 0 := by
    have : 0 < l.length := List.length_pos_iff.mpr hl
    exact_mod_cast this.ne'
  have key : ∀ (c : K) (l : List K), (l.map fun v => (v - c) ^ 2).sum
      = (l.map (· ^ 2)).sum - 2 * c * l.sum + l.length * c ^ 2 := by
    intro c l
    induction l with
    | nil => simp
    | cons a l ih => simp only [List.map_cons, List.sum_cons, ih, List.length_cons]; push_cast; ring
  rw [key, mean]
  field_simp
  ring

theorem splitTwo_eq_ok (sep : Char) (n a b : List Char) :
    splitTwo sep n = .ok (a, b) ↔ n = a ++ sep :: b ∧ sep ∉ a ∧ sep ∉ b := by
  unfold splitTwo
  constructor
  · intro h
    by_cases hs : sep ∈ n
    · obtain ⟨x, y, hn, hx⟩ := List.eq_append_cons_of_mem hs
      have h1 : n.splitOn sep = x :: y.splitOn sep := by
        rw [hn, List.splitOn_append_cons_self, List.splitOn_eq_singleton hx]; rfl
      rw [h1] at h
      by_cases hy : sep ∈ y
      · obtain ⟨p, q, hpq, hp⟩ := List.eq_append_cons_of_mem hy
        have h2 : y.splitOn sep = p :: q.splitOn sep := by
          rw [hpq, List.splitOn_append_cons_self, List.splitOn_eq_singleton hp]; rfl
        rw [h2] at h
        have h3 := List.splitOn_ne_nil sep q
        cases hq : q.splitOn sep with
        | nil => exact absurd hq h3
        | cons c d => rw [hq] at h; cases h
      · rw [List.splitOn_eq_singleton hy] at h
        cases h
        exact ⟨hn, hx, hy⟩
    · rw [List.splitOn_eq_singleton hs] at h
      cases h
  · rintro ⟨rfl, ha, hb⟩
    rw [List.splitOn_append_cons_self, List.splitOn_eq_singleton ha, List.splitOn_eq_singleton hb]
    rfl

end Aeolis
