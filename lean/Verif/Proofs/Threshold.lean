import Verif.Model.Threshold
import Verif.Proofs.Transport
import Mathlib.Analysis.SpecialFunctions.Exp

namespace Aeolis

namespace XR

theorem le_refl_threshold {a : XR} (h : a.IsThreshold) : XR.le a a := by
  cases a with
  | fin r => exact le_refl r
  | pinf => trivial
  | ninf => exact h.elim
  | nan => exact h.elim

theorem le_pinf {a : XR} (h : a.IsThreshold) : XR.le a pinf := by
  cases a with
  | fin r => trivial
  | pinf => trivial
  | ninf => exact h.elim
  | nan => exact h.elim

theorem le_trans' {a b c : XR} (h : XR.le a b) (h' : XR.le b c) : XR.le a c := by
  cases a <;> cases b <;> cases c <;> simp only [XR.le] at * <;> linarith

theorem isThreshold_of_le {a b : XR} (h : XR.le a b) (ha : a.IsThreshold) : b.IsThreshold := by
  cases a <;> cases b <;> simp only [XR.le, IsThreshold] at * <;> linarith

/-- A factor of at least one raises a threshold. -/
theorem le_mul_factor {a : XR} (h : a.IsThreshold) {f : ℝ} (hf : 1 ≤ f) : XR.le a (a * fin f) := by
  cases a with
  | fin r =>
    have h : 0 ≤ r := h
    change r ≤ r * f
    nlinarith
  | pinf => rw [pinf_mul_fin (by linarith)]; trivial
  | ninf => exact h.elim
  | nan => exact h.elim

/-- A non-negative term raises a threshold. -/
theorem le_add_term {a : XR} (h : a.IsThreshold) {f : ℝ} (hf : 0 ≤ f) : XR.le a (a + fin f) := by
  cases a with
  | fin r => change r ≤ r + f; linarith
  | pinf => rw [pinf_add_fin]; trivial
  | ninf => exact h.elim
  | nan => exact h.elim

@[simp] theorem sqrt_fin {r : ℝ} (h : 0 ≤ r) : XR.sqrt (fin r) = fin (Real.sqrt r) := by
  simp [XR.sqrt, h]

theorem isThreshold_mul {a : XR} (h : a.IsThreshold) {f : ℝ} (hf : 0 < f) : (a * fin f).IsThreshold := by
  cases a with
  | fin r => exact mul_nonneg h hf.le
  | pinf => rw [pinf_mul_fin hf]; trivial
  | ninf => exact h.elim
  | nan => exact h.elim

end XR

namespace Threshold

open XR

variable {nf : ℕ}

theorem one_le_max1 {v : XR} (h : v ≠ pinf) (h' : v ≠ nan) : ∃ f : ℝ, 1 ≤ f ∧ max1 v = fin f := by
  cases v with
  | fin r => exact ⟨max 1 r, le_max_left _ _, rfl⟩
  | pinf => exact absurd rfl h
  | ninf => exact ⟨1, le_rfl, rfl⟩
  | nan => exact absurd rfl h'

theorem dongK_pos (d : ℝ) : 0 < dongK d := by
  unfold dongK; split_ifs <;> norm_num

theorem one_le_sqrt_fin {r : ℝ} (h : 1 ≤ r) : ∃ f : ℝ, 1 ≤ f ∧ XR.sqrt (fin r) = fin f :=
  ⟨Real.sqrt r, by rw [show (1 : ℝ) = Real.sqrt 1 by simp]; exact Real.sqrt_le_sqrt h,
    sqrt_fin (by linarith)⟩

theorem lookup_mem {β : Type*} (l : List (String × β)) (k : String) (b : β) (h : l.lookup k = some b) :
    (k, b) ∈ l := by
  induction l with
  | nil => simp at h
  | cons x l ih =>
    obtain ⟨k', b'⟩ := x
    rw [List.lookup_cons] at h
    by_cases e : k = k'
    · subst e
      simp at h
      rw [h]; exact List.mem_cons_self
    · have : (k == k') = false := by simp [e]
      rw [this] at h
      exact List.mem_cons_of_mem _ (ih h)

theorem lookup_keys {β : Type*} (l : List (String × β)) (k : String) :
    (l.lookup k = none) ↔ k ∉ l.map Prod.fst := by
  induction l with
  | nil => simp
  | cons x l ih =>
    obtain ⟨k', b'⟩ := x
    rw [List.lookup_cons]
    by_cases e : k = k'
    · subst e; simp
    · have : (k == k') = false := by simp [e]
      rw [this]
      simp only [List.map_cons, List.mem_cons, e, false_or]
      exact ih

end Threshold

end Aeolis
