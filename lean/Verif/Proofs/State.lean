import Verif.Model.State
import Verif.Proofs.PyDict
import Verif.Spec.State

/-! Lemmas on the model state. -/

namespace Aeolis

open PyDict Aeolis.Spec

namespace MState

variable {V : Type*}

theorem get_setItem (s : MState V) (k j : String) (v : V) :
    (s.setItem k v).d.get j =
      if j = k ∧ (¬ s.has k ∨ k ∈ s.ismutable) then some v else s.d.get j := by
  unfold setItem
  split
  · rename_i h
    simp only [setMutable, get_set, h, and_true]
  · rename_i h
    rw [if_neg (fun e => h e.2)]

theorem get_setMutable (s : MState V) (k j : String) : (s.setMutable k).d.get j = s.d.get j := rfl

theorem get_setImmutable (s : MState V) (k j : String) :
    (s.setImmutable k).d.get j = s.d.get j := by
  unfold setImmutable; split <;> rfl

theorem mem_setMutable (s : MState V) (k j : String) :
    j ∈ (s.setMutable k).ismutable ↔ j = k ∨ j ∈ s.ismutable := by
  simp [setMutable]

theorem mem_setImmutable (s : MState V) (k j : String) :
    j ∈ (s.setImmutable k).ismutable ↔ j ≠ k ∧ j ∈ s.ismutable := by
  unfold setImmutable
  split
  · simp
  · rename_i h
    constructor
    · intro hj; exact ⟨by rintro rfl; exact h hj, hj⟩
    · exact fun hj => hj.2

theorem mem_setItem (s : MState V) (k j : String) (v : V) :
    j ∈ (s.setItem k v).ismutable ↔
      (j = k ∧ (¬ s.has k ∨ k ∈ s.ismutable)) ∨ j ∈ s.ismutable := by
  unfold setItem
  split
  · rename_i h
    rw [mem_setMutable]
    exact ⟨fun hj => hj.imp (fun e => ⟨e, h⟩) id, fun hj => hj.imp And.left id⟩
  · rename_i h
    exact ⟨Or.inr, fun hj => hj.elim (fun e => absurd e.2 h) id⟩

theorem setItem_frozen (s : MState V) (k : String) (v : V) (h : s.has k) (hm : k ∉ s.ismutable) :
    s.setItem k v = s := by
  unfold setItem; simp [h, hm]

end MState

namespace Store

variable {A : Type*}

/-- All references point into the heap. -/
def WF (s : Store A) : Prop := ∀ k r, s.m.d.get k = some r → r < s.heap.length

theorem wf_empty : WF (empty : Store A) := by
  intro k r h; simp [empty, MState.empty] at h

theorem alloc_get (n : ℕ) (kvs : List (String × A)) (k : String) (r : ℕ) :
    (k, r) ∈ alloc n kvs → r < n + kvs.length := by
  induction kvs generalizing n with
  | nil => simp [alloc]
  | cons kv kvs ih =>
    obtain ⟨k', a⟩ := kv
    simp only [alloc, List.mem_cons, Prod.mk.injEq, List.length_cons]
    rintro (⟨_, rfl⟩ | h)
    · omega
    · have := ih (n + 1) h; omega

theorem alloc_keys (n : ℕ) (kvs : List (String × A)) :
    (alloc n kvs).map Prod.fst = kvs.map Prod.fst := by
  induction kvs generalizing n with
  | nil => rfl
  | cons kv kvs ih => simp [alloc, ih]

theorem _root_.Aeolis.PyDict.mem_of_get {κ V : Type*} [DecidableEq κ] (d : PyDict κ V) (k : κ)
    (v : V) (h : PyDict.get d k = some v) : (k, v) ∈ d := by
  induction d with
  | nil => simp at h
  | cons kv d ih =>
    obtain ⟨k', v'⟩ := kv
    unfold PyDict.get at h
    by_cases hk : k' = k
    · simp [hk] at h; simp [hk, h]
    · simp [hk] at h; exact List.mem_cons_of_mem _ (ih h)

theorem wf_setItem (s : Store A) (h : WF s) (k : String) (r : ℕ) (hp : List A)
    (hr : r < hp.length) (hle : s.heap.length ≤ hp.length) : WF ⟨hp, s.m.setItem k r⟩ := by
  intro j r' hj
  simp only [MState.get_setItem] at hj
  split at hj
  · cases hj; exact hr
  · exact lt_of_lt_of_le (h j r' hj) hle

theorem wf_step (s : Store A) (h : WF s) (op : StateOp A) : WF (s.step op) := by
  cases op with
  | assign k a => exact wf_setItem s h k _ _ (by simp) (by simp)
  | share k j =>
    simp only [step]
    cases hj : s.m.d.get j with
    | none => exact h
    | some r => exact wf_setItem s h k r _ (h j r hj) le_rfl
  | inPlace k f =>
    simp only [step]
    cases hj : s.m.d.get k with
    | none => exact h
    | some r => exact wf_setItem s h k r _ (by simpa using h k r hj) (by simp)
  | update kvs =>
    intro j r hj
    simp only [step, MState.update, get_update] at hj
    simp only [step, List.length_append, List.length_map]
    cases hg : PyDict.get (alloc s.heap.length kvs).reverse j with
    | none => rw [hg, Option.none_or] at hj; have := h j r hj; omega
    | some r' =>
      rw [hg, Option.some_or] at hj; cases hj
      have := mem_of_get _ _ _ hg
      rw [List.mem_reverse] at this
      exact alloc_get _ _ _ _ this
  | setMutable k => exact h
  | setImmutable k => intro j r hj; exact h j r (by simpa [step, MState.get_setImmutable] using hj)

theorem wf_run (s : Store A) (h : WF s) (ops : List (StateOp A)) : WF (s.run ops) := by
  induction ops generalizing s with
  | nil => exact h
  | cons op ops ih => exact ih _ (wf_step s h op)

theorem has_iff (s : Store A) (k : String) : s.m.has k ↔ ∃ r, s.m.d.get k = some r := by
  unfold MState.has; rw [Option.isSome_iff_exists]

/-- Reading is unaffected when neither the reference of the key nor the heap cell changes. -/
theorem read_congr (s t : Store A) (k : String) (h : WF s) (hd : t.m.d.get k = s.m.d.get k)
    (hh : ∀ r, r < s.heap.length → s.m.d.get k = some r → t.heap[r]? = s.heap[r]?) :
    t.read k = s.read k := by
  unfold read; rw [hd]
  cases hk : s.m.d.get k with
  | none => rfl
  | some r => exact hh r (h k r hk) hk

theorem read_isSome (s : Store A) (h : WF s) (k : String) : (s.read k).isSome = s.m.has k := by
  unfold read MState.has
  cases hk : s.m.d.get k with
  | none => rfl
  | some r => simp [h k r hk]

/-- The specification variable a key corresponds to. -/
def asVar (s : Store A) (k : String) : Var A :=
  match s.read k with
  | none => .missing
  | some a => if k ∈ s.m.ismutable then .free a else .frozen a

theorem read_assign (s : Store A) (h : WF s) (k j : String) (a : A) :
    (s.step (.assign k a)).read j =
      if j = k ∧ (¬ s.m.has k ∨ k ∈ s.m.ismutable) then some a else s.read j := by
  unfold read
  simp only [step, MState.get_setItem]
  split
  · simp
  · cases hj : s.m.d.get j with
    | none => rfl
    | some r => exact List.getElem?_append_left (h j r hj)

theorem asVar_assign_self (s : Store A) (h : WF s) (k : String) (a : A) :
    (s.step (.assign k a)).asVar k = (s.asVar k).next (.assigned a) := by
  have hr := read_isSome s h k
  unfold asVar
  have hra := read_assign s h k k a
  by_cases hc : ¬ s.m.has k ∨ k ∈ s.m.ismutable
  · rw [hra, if_pos ⟨rfl, hc⟩]
    have hm : k ∈ (s.step (.assign k a)).m.ismutable := by
      exact (MState.mem_setItem _ _ _ _).mpr (Or.inl ⟨rfl, hc⟩)
    simp only [hm, if_true]
    cases hk : s.read k with
    | none => rfl
    | some v =>
      have : k ∈ s.m.ismutable := by
        rcases hc with hc | hc
        · rw [hk] at hr; rw [← hr] at hc; simp at hc
        · exact hc
      simp [this, Var.next]
  · rw [hra, if_neg (fun h => hc h.2)]
    have hc1 : s.m.has k = true := by by_contra h; exact hc (Or.inl h)
    have hc2 : k ∉ s.m.ismutable := fun h => hc (Or.inr h)
    have hm : k ∉ (s.step (.assign k a)).m.ismutable := by
      simp only [step, MState.mem_setItem]
      rintro (h | h)
      · exact hc h.2
      · exact hc2 h
    rw [hc1] at hr
    obtain ⟨v, hv⟩ := Option.isSome_iff_exists.mp hr
    simp [hv, hm, hc2, Var.next]

theorem asVar_assign_ne (s : Store A) (h : WF s) (k j : String) (a : A) (hne : j ≠ k) :
    (s.step (.assign k a)).asVar j = s.asVar j := by
  unfold asVar
  rw [read_assign s h, if_neg (fun h => hne h.1)]
  have : j ∈ (s.step (.assign k a)).m.ismutable ↔ j ∈ s.m.ismutable := by
    simp [step, MState.mem_setItem, hne]
  simp [this]

theorem read_setMutable (s : Store A) (k j : String) :
    (s.step (.setMutable k)).read j = s.read j := rfl

theorem read_setImmutable (s : Store A) (k j : String) :
    (s.step (.setImmutable k)).read j = s.read j := by
  unfold read; simp [step, MState.get_setImmutable]

theorem asVar_step (s : Store A) (h : WF s) (op : StateOp A) (hp : plain op) (k : String) :
    (s.step op).asVar k = (s.asVar k).after (events k [op]) := by
  cases op with
  | assign j a =>
    by_cases hj : j = k
    · subst hj; simp [events, Var.after, asVar_assign_self s h]
    · simp [events, hj, Var.after, asVar_assign_ne s h j k a (Ne.symm hj)]
  | setMutable j =>
    have hm : k ∈ (s.step (.setMutable j)).m.ismutable ↔ k = j ∨ k ∈ s.m.ismutable := by
      simp [step, MState.mem_setMutable]
    unfold asVar
    rw [read_setMutable]
    by_cases hj : j = k
    · subst hj
      cases s.read j with
      | none => simp [events, Var.after, Var.next]
      | some v => by_cases hm' : j ∈ s.m.ismutable <;> simp [events, Var.after, Var.next, hm, hm']
    · cases s.read k with
      | none => simp [events, hj, Var.after]
      | some v => simp [events, hj, Var.after, hm, Ne.symm hj]
  | setImmutable j =>
    have hm : k ∈ (s.step (.setImmutable j)).m.ismutable ↔ k ≠ j ∧ k ∈ s.m.ismutable := by
      simp [step, MState.mem_setImmutable]
    unfold asVar
    rw [read_setImmutable]
    by_cases hj : j = k
    · subst hj
      cases s.read j with
      | none => simp [events, Var.after, Var.next]
      | some v => by_cases hm' : j ∈ s.m.ismutable <;> simp [events, Var.after, Var.next, hm, hm']
    · cases s.read k with
      | none => simp [events, hj, Var.after]
      | some v => simp [events, hj, Var.after, hm, Ne.symm hj]
  | share k j => exact hp.elim
  | inPlace k f => exact hp.elim
  | update kvs => exact hp.elim

theorem events_cons (k : String) (op : StateOp A) (ops : List (StateOp A)) :
    events k (op :: ops) = events k [op] ++ events k ops := by
  cases op <;> simp only [events] <;> first | rfl | (split <;> rfl)

theorem asVar_run (s : Store A) (h : WF s) (ops : List (StateOp A)) (hp : ∀ op ∈ ops, plain op)
    (k : String) : (s.run ops).asVar k = (s.asVar k).after (events k ops) := by
  induction ops generalizing s with
  | nil => rfl
  | cons op ops ih =>
    have := ih (s.step op) (wf_step s h op) (fun o ho => hp o (List.mem_cons_of_mem _ ho))
    show ((s.step op).run ops).asVar k = _
    rw [this, asVar_step s h op (hp op List.mem_cons_self), events_cons k op ops]
    simp only [Var.after, List.foldl_append]

theorem value_asVar (s : Store A) (k : String) : (s.asVar k).value = s.read k := by
  unfold asVar
  cases s.read k with
  | none => rfl
  | some a => by_cases h : k ∈ s.m.ismutable <;> simp [h, Var.value]

end Store

end Aeolis
