import Verif.Model.Interp
import Verif.Spec.Series
import Verif.Proofs.Tactics

set_option linter.unusedSectionVars false

namespace Aeolis

open Spec

variable {K : Type*} [Field K] [LinearOrder K] [IsStrictOrderedRing K]

theorem listMin_of_lt (a : K) (l : List K) (h : ∀ b ∈ l, a < b) : listMin a l = a := by
  unfold listMin
  induction l with
  | nil => rfl
  | cons b l ih =>
    simp only [List.foldl_cons]
    rw [min_eq_left (h b (by simp)).le]
    exact ih fun c hc => h c (by simp [hc])

theorem listMax_of_pairwise (a : K) (l : List K) (h : (a :: l).Pairwise (· < ·)) :
    listMax a l = (a :: l).getLast (by simp) := by
  unfold listMax
  induction l generalizing a with
  | nil => rfl
  | cons b l ih =>
    simp only [List.foldl_cons]
    rw [List.pairwise_cons] at h
    rw [max_eq_right (h.1 b (by simp)).le, ih b h.2]
    simp

/-- Value on segment `i`. -/
theorem interpFrom_segment (x : K) (k0 : K × K) (rest : List (K × K))
    (hinc : Increasing (k0 :: rest)) (i : ℕ) (hi : i + 1 < (k0 :: rest).length)
    (h1 : ((k0 :: rest)[i]).1 ≤ x) (h2 : x < ((k0 :: rest)[i + 1]).1) :
    interpFrom x k0 rest
      = (((k0 :: rest)[i + 1]).2 - ((k0 :: rest)[i]).2)
          / (((k0 :: rest)[i + 1]).1 - ((k0 :: rest)[i]).1) * (x - ((k0 :: rest)[i]).1)
          + ((k0 :: rest)[i]).2 := by
  induction rest generalizing k0 i with
  | nil => simp at hi
  | cons k1 rest ih =>
    obtain ⟨x0, f0⟩ := k0
    obtain ⟨x1, f1⟩ := k1
    unfold interpFrom
    cases i with
    | zero =>
      simp only [List.getElem_cons_zero, List.getElem_cons_succ] at h1 h2 ⊢
      rw [if_pos h2]
    | succ i =>
      replace hinc := List.pairwise_cons.mp hinc
      simp only [List.getElem_cons_succ] at h1 h2
      have hle : x1 ≤ x := by
        cases i with
        | zero => exact h1
        | succ i =>
          have h3 := (List.pairwise_cons.mp hinc.2).1
          have h4 := h3 (rest[i]'(by simp at hi; omega)) (List.getElem_mem _)
          simp only [List.getElem_cons_succ] at h1
          exact (lt_of_lt_of_le h4 h1).le
      rw [if_neg (not_lt.mpr hle)]
      have hi' : i + 1 < ((x1, f1) :: rest).length := by simp at hi ⊢; omega
      exact ih (x1, f1) hinc.2 i hi' h1 h2

/-- Value right of the last knot. -/
theorem interpFrom_last (x : K) (k0 : K × K) (rest : List (K × K))
    (h : ∀ k ∈ k0 :: rest, k.1 ≤ x) :
    interpFrom x k0 rest = ((k0 :: rest).getLast (by simp)).2 := by
  induction rest generalizing k0 with
  | nil => obtain ⟨x0, f0⟩ := k0; rfl
  | cons k1 rest ih =>
    obtain ⟨x0, f0⟩ := k0
    obtain ⟨x1, f1⟩ := k1
    unfold interpFrom
    rw [if_neg (not_lt.mpr (h (x1, f1) (by simp)))]
    rw [ih (x1, f1) (fun k hk => h k (by simp only [List.mem_cons] at hk ⊢; tauto))]
    simp

theorem lin_between (x0 x1 f0 f1 x lo hi : K) (h : x0 < x1) (h1 : x0 ≤ x) (h2 : x ≤ x1)
    (a0 : lo ≤ f0) (a1 : lo ≤ f1) (b0 : f0 ≤ hi) (b1 : f1 ≤ hi) :
    lo ≤ (f1 - f0) / (x1 - x0) * (x - x0) + f0 ∧
    (f1 - f0) / (x1 - x0) * (x - x0) + f0 ≤ hi := by
  have hd : 0 < x1 - x0 := by linarith
  have e : (f1 - f0) / (x1 - x0) * (x - x0) + f0 = f0 + (x - x0) / (x1 - x0) * (f1 - f0) := by
    field_simp; ring
  have t0 : 0 ≤ (x - x0) / (x1 - x0) := div_nonneg (by linarith) hd.le
  have t1 : (x - x0) / (x1 - x0) ≤ 1 := (div_le_one hd).mpr (by linarith)
  rw [e]
  constructor <;> nlinarith

theorem interpFrom_bounds (x lo hi : K) (k0 : K × K) (rest : List (K × K))
    (hinc : Increasing (k0 :: rest)) (h0 : k0.1 ≤ x)
    (hb : ∀ k ∈ k0 :: rest, lo ≤ k.2 ∧ k.2 ≤ hi) :
    lo ≤ interpFrom x k0 rest ∧ interpFrom x k0 rest ≤ hi := by
  induction rest generalizing k0 with
  | nil => obtain ⟨x0, f0⟩ := k0; exact hb (x0, f0) (by simp)
  | cons k1 rest ih =>
    obtain ⟨x0, f0⟩ := k0
    obtain ⟨x1, f1⟩ := k1
    replace hinc := List.pairwise_cons.mp hinc
    unfold interpFrom
    have a0 := hb (x0, f0) (by simp)
    have a1 := hb (x1, f1) (by simp)
    split
    · next h => exact lin_between x0 x1 f0 f1 x lo hi (hinc.1 (x1, f1) (by simp)) h0 h.le a0.1 a1.1 a0.2 a1.2
    · next h =>
      exact ih (x1, f1) hinc.2 (not_lt.mp h)
        (fun k hk => hb k (by simp only [List.mem_cons] at hk ⊢; tauto))

theorem npInterp_bounds (ts : List (K × K)) (x lo hi : K) (hne : ts ≠ []) (hinc : Increasing ts)
    (hb : ∀ k ∈ ts, lo ≤ k.2 ∧ k.2 ≤ hi) : ∃ v, npInterp ts x = some v ∧ lo ≤ v ∧ v ≤ hi := by
  match ts, hne with
  | (x0, f0) :: rest, _ =>
    refine ⟨_, rfl, ?_⟩
    split
    · exact hb (x0, f0) (by simp)
    · next h => exact interpFrom_bounds x lo hi (x0, f0) rest hinc (not_lt.mp h) hb

/-- Monotone data give a monotone interpolant. -/
theorem interpFrom_mono (x y : K) (hxy : x ≤ y) (k0 : K × K) (rest : List (K × K))
    (hinc : Increasing (k0 :: rest)) (h0 : k0.1 ≤ x)
    (hm : (k0 :: rest).Pairwise (fun a b => a.2 ≤ b.2)) :
    interpFrom x k0 rest ≤ interpFrom y k0 rest := by
  induction rest generalizing k0 with
  | nil => obtain ⟨x0, f0⟩ := k0; exact le_rfl
  | cons k1 rest ih =>
    obtain ⟨x0, f0⟩ := k0
    obtain ⟨x1, f1⟩ := k1
    replace hinc := List.pairwise_cons.mp hinc
    replace hm := List.pairwise_cons.mp hm
    have hx : x0 < x1 := hinc.1 (x1, f1) (by simp)
    have hf : f0 ≤ f1 := hm.1 (x1, f1) (by simp)
    unfold interpFrom
    split
    · next h =>
      split
      · have : 0 ≤ (f1 - f0) / (x1 - x0) := div_nonneg (by linarith) (by linarith)
        have := mul_le_mul_of_nonneg_left (show x - x0 ≤ y - x0 by linarith) this
        linarith
      · next h2 =>
        have a := (lin_between x0 x1 f0 f1 x f0 f1 hx h0 h.le le_rfl hf hf le_rfl).2
        refine le_trans a ?_
        -- the interpolant beyond knot 1 is at least its value there
        have : ∀ (k : K × K) (l : List (K × K)), (k :: l).Pairwise (fun a b => a.1 < b.1) →
            (k :: l).Pairwise (fun a b => a.2 ≤ b.2) → k.1 ≤ y → k.2 ≤ interpFrom y k l := by
          intro k l
          induction l generalizing k with
          | nil => obtain ⟨a, b⟩ := k; intros; exact le_rfl
          | cons k2 l ih2 =>
            obtain ⟨a, b⟩ := k
            obtain ⟨c, d⟩ := k2
            intro hi hp hk
            rw [List.pairwise_cons] at hi hp
            have h3 : a < c := hi.1 (c, d) (by simp)
            have h4 : b ≤ d := hp.1 (c, d) (by simp)
            unfold interpFrom
            split
            · next h5 => exact (lin_between a c b d y b d h3 hk h5.le le_rfl h4 h4 le_rfl).1
            · next h5 => exact le_trans h4 (ih2 (c, d) hi.2 hp.2 (not_lt.mp h5))
        exact this (x1, f1) rest hinc.2 hm.2 (not_lt.mp h2)
    · next h =>
      rw [if_neg (by push Not at h ⊢; linarith)]
      exact ih (x1, f1) hinc.2 (not_lt.mp h) hm.2

theorem npMod_add_int [FloorRing K] (a b : K) (hb : b ≠ 0) (k : ℤ) :
    npMod (a + k * b) b = npMod a b := by
  unfold npMod
  have : (a + k * b) / b = a / b + k := by field_simp
  rw [this, Int.floor_add_intCast]; push_cast; ring

theorem npMod_of_range [FloorRing K] (a b : K) (hb : 0 < b) (h1 : -b ≤ a) (h2 : a < 0) :
    npMod a b = a + b := by
  unfold npMod
  have : ⌊a / b⌋ = -1 := by
    rw [Int.floor_eq_iff]; push_cast
    constructor
    · rw [le_div_iff₀ hb]; linarith
    · rw [div_lt_iff₀ hb]; linarith
  rw [this]; push_cast; ring

/-- Unfold `interpCircular` on an increasing series. -/
theorem interpCircular_eq [FloorRing K] (k0 : K × K) (rest : List (K × K))
    (hinc : Increasing (k0 :: rest)) (x : K) :
    interpCircular (k0 :: rest) x = npInterp (k0 :: rest)
      (k0.1 + npMod (x - ((k0 :: rest).getLast (by simp)).1 - 1)
        (((k0 :: rest).getLast (by simp)).1 - k0.1 + 1)) := by
  unfold interpCircular
  simp only [List.map_cons]
  have hp : (k0.1 :: rest.map Prod.fst).Pairwise (· < ·) := by
    have : (k0.1 :: rest.map Prod.fst) = (k0 :: rest).map Prod.fst := rfl
    rw [this, List.pairwise_map]; exact hinc
  rw [listMin_of_lt _ _ (List.pairwise_cons.mp hp).1, listMax_of_pairwise _ _ hp]
  have : (k0.1 :: rest.map Prod.fst).getLast (by simp) = ((k0 :: rest).getLast (by simp)).1 := by
    have h2 : (k0.1 :: rest.map Prod.fst) = (k0 :: rest).map Prod.fst := rfl
    simp only [h2, List.getLast_map]
  rw [this]

theorem first_le_last (k0 : K × K) (rest : List (K × K)) (hinc : Increasing (k0 :: rest)) :
    k0.1 ≤ ((k0 :: rest).getLast (by simp)).1 := by
  rcases List.eq_nil_or_concat rest with h | ⟨l, b, h⟩
  · subst h; simp
  · subst h
    have := (List.pairwise_cons.mp hinc).1 b (by simp)
    simp only [List.concat_eq_append]
    rw [List.getLast_cons (by simp), List.getLast_append_singleton]
    exact this.le

theorem interpCircular_in_range [FloorRing K] (k0 : K × K) (rest : List (K × K))
    (hinc : Increasing (k0 :: rest)) (x : K) (h0 : k0.1 ≤ x)
    (h1 : x < ((k0 :: rest).getLast (by simp)).1 + 1) :
    interpCircular (k0 :: rest) x = npInterp (k0 :: rest) x := by
  rw [interpCircular_eq k0 rest hinc, npMod_of_range]
  · congr 1; ring
  · have := first_le_last k0 rest hinc; linarith
  · linarith
  · linarith

end Aeolis
