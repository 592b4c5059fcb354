import Verif.Proofs.Config
import Mathlib.Data.Nat.Digits.Lemmas
import Mathlib.Tactic.Positivity
import Mathlib.Tactic.FieldSimp

/-! Lemmas on printed configuration values. -/

namespace Aeolis.Config

open Aeolis.Spec

variable {T : Type}

theorem value_append (ds : List ℕ) (d : ℕ) : value (ds ++ [d]) = value ds * 10 + d := by
  unfold value
  rw [List.reverse_append, List.reverse_singleton, List.singleton_append, Nat.ofDigits_cons]
  ring

/-- Text of a natural number. -/
theorem printNat_digits (n : ℕ) : ∃ ds, ds ≠ [] ∧ Digits ds (printInt n) ∧ value ds = n := by
  unfold printInt
  rw [if_neg (by omega)]
  rw [Int.natAbs_natCast]
  split_ifs with h
  · exact ⟨[0], by simp, ⟨by simp, rfl⟩, by simp [value, h]⟩
  · refine ⟨(Nat.digits 10 n).reverse, ?_, ⟨?_, rfl⟩, ?_⟩
    · rw [ne_eq, List.reverse_eq_nil_iff, Nat.digits_eq_nil_iff_eq_zero]; exact h
    · intro d hd
      exact Nat.digits_lt_base (by norm_num) (List.mem_reverse.mp hd)
    · unfold value
      rw [List.reverse_reverse, Nat.ofDigits_digits]

theorem printInt_neg {i : ℤ} (h : i < 0) : printInt i = '-' :: printInt (i.natAbs : ℕ) := by
  have h1 : ¬ i.natAbs = 0 := by omega
  have h2 : ¬ ((i.natAbs : ℕ) : ℤ) < 0 := by omega
  unfold printInt
  simp only [h, h1, h2, if_true, if_false, Int.natAbs_natCast]

/-- Text of an integer. -/
theorem printInt_isInt (i : ℤ) : IsInt (printInt i) i := by
  by_cases h : i < 0
  · obtain ⟨ds, h1, h2, h3⟩ := printNat_digits i.natAbs
    refine ⟨ds, _, h1, h2, Or.inr ⟨printInt_neg h, ?_⟩⟩
    rw [h3]; omega
  · obtain ⟨ds, h1, h2, h3⟩ := printNat_digits i.natAbs
    have : ((i.natAbs : ℕ) : ℤ) = i := by omega
    rw [this] at h2
    refine ⟨ds, _, h1, h2, Or.inl ⟨rfl, ?_⟩⟩
    rw [h3]; omega

theorem digitChar_not_space {d : ℕ} (h : d < 10) : isSpace (digitChar d) = false := by
  interval_cases d <;> rfl

theorem digitChar_ne_percent {d : ℕ} (h : d < 10) : digitChar d ≠ '%' := by
  interval_cases d <;> decide

/-- Texts without white space and comment. -/
def Solid (s : Text) : Prop := ∀ c ∈ s, isSpace c = false ∧ c ≠ '%'

theorem Solid.strip {s : Text} (h : Solid s) : Config.strip s = s := by
  have := strip_eq (a := []) (v := s) (b := []) (by simp) (by simp)
    (fun c hc => (h c (List.mem_of_mem_head? hc)).1) (fun c hc => (h c (List.mem_of_getLast? hc)).1)
  simpa using this

theorem Solid.cut {s : Text} (h : Solid s) : cutComment s = s :=
  cutComment_of_not_mem fun hc => (h _ hc).2 rfl

theorem Solid.no_blank {s : Text} (h : Solid s) : ' ' ∉ s := fun hc => absurd (h _ hc).1 (by decide)

theorem digits_solid {ds : List ℕ} {s : Text} (h : Digits ds s) : Solid s := by
  intro c hc
  rw [h.2] at hc
  obtain ⟨d, hd, rfl⟩ := List.mem_map.mp hc
  exact ⟨digitChar_not_space (h.1 d hd), digitChar_ne_percent (h.1 d hd)⟩

theorem isInt_solid {s : Text} {i : ℤ} (h : IsInt s i) : Solid s := by
  obtain ⟨ds, body, -, hd, ⟨rfl, -⟩ | ⟨rfl, -⟩⟩ := h
  · exact digits_solid hd
  · intro c hc
    rcases List.mem_cons.mp hc with rfl | hc
    · exact ⟨rfl, by decide⟩
    · exact digits_solid hd c hc

theorem isDecimal_solid {s : Text} {q : ℚ} (h : IsDecimal s q) : Solid s := by
  obtain ⟨as, bs, a, b, -, ha, hb, h⟩ := h
  have hbody : Solid (a ++ '.' :: b) := by
    intro c hc
    rw [List.mem_append, List.mem_cons] at hc
    rcases hc with hc | rfl | hc
    · exact digits_solid ha c hc
    · exact ⟨rfl, by decide⟩
    · exact digits_solid hb c hc
  rcases h with ⟨rfl, -⟩ | ⟨rfl, -⟩
  · exact hbody
  · intro c hc
    rcases List.mem_cons.mp hc with rfl | hc
    · exact ⟨rfl, by decide⟩
    · exact hbody c hc

/-- A text without white space and comment is a single value. -/
theorem parseValue_solid (rf : ℚ → Text) (fs : Files T) (pf : Bool) {s : Text} (h : Solid s) :
    parseValue rf fs pf false s = (parseScalar fs pf s).map .scalar := by
  unfold parseValue
  simp only [h.cut, h.strip, h.no_blank, Bool.false_eq_true, or_self, if_false]

theorem parseScalar_int (fs : Files T) (pf : Bool) {s : Text} {i : ℤ} (h : IsInt s i) :
    parseScalar fs pf s = .ok (.int i) := by
  have := isInt_value h
  unfold parseScalar
  rw [if_neg, if_pos this.1, this.2]
  rintro (rfl | rfl)
  · exact absurd this.1 (by decide)
  · exact absurd this.1 (by decide)

theorem parseScalar_decimal (fs : Files T) (pf : Bool) {s : Text} {q : ℚ} (h : IsDecimal s q) :
    parseScalar fs pf s = .ok (.float q) := by
  have := decimal_not_int h
  unfold parseScalar
  rw [if_neg, this.1, this.2]
  · rw [pyFloat_decimal h]; rfl
  · rintro (rfl | rfl)
    · exact absurd this.2 (by decide)
    · exact absurd this.2 (by decide)

theorem joinSpaces_eq (l : List Text) : joinSpaces l = List.intercalate [' '] l := by
  match l with
  | [] => rfl
  | [x] => simp [joinSpaces, List.intercalate]
  | x :: y :: r =>
    unfold joinSpaces
    rw [joinSpaces_eq (y :: r)]
    simp [List.intercalate, List.intersperse]

theorem joinSpaces_head {x : Text} {l : List Text} (hx : x ≠ []) : (joinSpaces (x :: l)).head? = x.head? := by
  cases x with
  | nil => exact absurd rfl hx
  | cons c x => cases l <;> simp [joinSpaces]

theorem joinSpaces_ne {x : Text} {l : List Text} (hx : x ≠ []) : joinSpaces (x :: l) ≠ [] := by
  cases x with
  | nil => exact absurd rfl hx
  | cons c x => cases l <;> simp [joinSpaces]

theorem joinSpaces_last {l : List Text} (h : ∀ x ∈ l, x ≠ []) (c : Char) (hc : (joinSpaces l).getLast? = some c) :
    ∃ x ∈ l, c ∈ x := by
  match l with
  | [] => simp [joinSpaces] at hc
  | [x] => exact ⟨x, by simp, List.mem_of_getLast? hc⟩
  | x :: y :: r =>
    have hne := joinSpaces_ne (l := r) (h y (by simp))
    unfold joinSpaces at hc
    rw [List.getLast?_append, List.getLast?_cons] at hc
    have : (joinSpaces (y :: r)).getLast? = some c := by
      cases hl : (joinSpaces (y :: r)).getLast? with
      | none => exact absurd (List.getLast?_eq_none_iff.mp hl) hne
      | some d => rw [hl] at hc; simpa using hc
    obtain ⟨z, hz, hcz⟩ := joinSpaces_last (fun x hx => h x (List.mem_cons_of_mem _ hx)) c this
    exact ⟨z, List.mem_cons_of_mem _ hz, hcz⟩

/-- Texts without white space joined with spaces are read as a list. -/
theorem parseValue_joined (rf : ℚ → Text) (fs : Files T) (pf fl : Bool) (l : List Text) (vals : List (Scalar T))
    (hlen : 2 ≤ l.length) (hne : ∀ x ∈ l, x ≠ []) (hs : ∀ x ∈ l, Solid x)
    (hv : List.Forall₂ (fun x v => parseScalar fs true x = .ok v) l vals) :
    parseValue rf fs pf fl (joinSpaces l) = .ok (asarray rf vals) := by
  have hl : l ≠ [] := by rintro rfl; simp at hlen
  have hsep : Separated ' ' (joinSpaces l) l := ⟨hl, fun x hx => (hs x hx).no_blank, joinSpaces_eq l⟩
  have hcom : '%' ∉ joinSpaces l := by
    intro h
    rw [joinSpaces_eq, List.intercalate] at h
    obtain ⟨x, hx, hc⟩ := List.mem_flatten.mp h
    have : x ∈ l ∨ x = [' '] := by
      clear h hsep hlen hne hs hv hl
      induction l with
      | nil => simp at hx
      | cons a l ih =>
        cases l with
        | nil => left; simpa using hx
        | cons b l =>
          rw [List.intersperse_cons_cons] at hx
          rcases List.mem_cons.mp hx with rfl | hx
          · left; simp
          · rcases List.mem_cons.mp hx with rfl | hx
            · right; rfl
            · rcases ih hx with h | h
              · left; exact List.mem_cons_of_mem _ h
              · right; exact h
    rcases this with h | rfl
    · exact (hs x h _ hc).2 rfl
    · simp at hc
  have hblank : ' ' ∈ joinSpaces l := by
    match l, hlen with
    | x :: y :: r, _ => simp [joinSpaces]
  have hstrip : strip (joinSpaces l) = joinSpaces l := by
    have := strip_eq (a := []) (v := joinSpaces l) (b := []) (by simp) (by simp)
      (by
        intro c hc
        cases l with
        | nil => exact absurd rfl hl
        | cons x l =>
          rw [joinSpaces_head (hne x List.mem_cons_self)] at hc
          exact (hs x List.mem_cons_self c (List.mem_of_mem_head? hc)).1)
      (by
        intro c hc
        obtain ⟨x, hx, h⟩ := joinSpaces_last hne c hc
        exact (hs x hx c h).1)
    simpa using this
  have hm : (splitOn ' ' (joinSpaces l)).mapM (fun x => parseScalar fs true (strip (cutComment x))) = .ok vals := by
    rw [separated_unique hsep, mapM_ok_iff]
    clear hsep hcom hblank hstrip hl hlen hne
    induction hv with
    | nil => exact .nil
    | cons h1 h2 ih =>
      refine .cons ?_ (ih fun x hx => hs x (List.mem_cons_of_mem _ hx))
      rw [(hs _ List.mem_cons_self).cut, (hs _ List.mem_cons_self).strip]
      exact h1
  unfold parseValue
  simp only [cutComment_of_not_mem hcom, hstrip, hblank, true_or, if_true, hm]

/-- Fixed number of digits. -/
theorem padded_digits (n m : ℕ) : ∃ ds, ds.length = n ∧ Digits ds (padded n m) ∧ value ds = m % 10 ^ n := by
  induction n generalizing m with
  | zero => exact ⟨[], rfl, ⟨by simp, rfl⟩, by simp [value, Nat.mod_one]⟩
  | succ n ih =>
    obtain ⟨ds, h1, h2, h3⟩ := ih (m / 10)
    refine ⟨ds ++ [m % 10], by simp [h1], ⟨?_, ?_⟩, ?_⟩
    · intro d hd
      rcases List.mem_append.mp hd with hd | hd
      · exact h2.1 d hd
      · rw [List.mem_singleton] at hd; subst hd; omega
    · unfold padded
      rw [List.map_append, ← h2.2]; rfl
    · rw [value_append, h3, pow_succ']
      rw [Nat.mod_mul]; ring

theorem fixedNat_decimal (n m : ℕ) : ∃ as bs a b, as ≠ [] ∧ Digits as a ∧ Digits bs b ∧ fixedNat n m = a ++ '.' :: b ∧
    ((value as : ℚ) + (value bs : ℚ) / 10 ^ bs.length) = (m : ℚ) / 10 ^ n := by
  obtain ⟨as, h1, h2, h3⟩ := printNat_digits (m / 10 ^ n)
  obtain ⟨bs, k1, k2, k3⟩ := padded_digits n (m % 10 ^ n)
  refine ⟨as, bs, _, _, h1, h2, k2, rfl, ?_⟩
  rw [h3, k3, k1, Nat.mod_mod]
  have hp : (10 : ℚ) ^ n ≠ 0 := by positivity
  rw [eq_div_iff hp, add_mul, div_mul_cancel₀ _ hp]
  have := Nat.div_add_mod m (10 ^ n)
  have h' : ((10 ^ n * (m / 10 ^ n) + m % 10 ^ n : ℕ) : ℚ) = m := by exact_mod_cast this
  push_cast at h'
  linarith

/-- Rounding is to a nearest integer. -/
theorem roundEven_near (x : ℚ) : |(roundEven x : ℚ) - x| ≤ 1 / 2 := by
  have h0 := Int.floor_le x
  have h1 := Int.lt_floor_add_one x
  unfold roundEven
  rw [abs_le]
  dsimp only
  split_ifs <;> push_cast <;> constructor <;> linarith

theorem roundEven_nonneg {x : ℚ} (h : 0 ≤ x) : 0 ≤ roundEven x := by
  have h0 : 0 ≤ ⌊x⌋ := Int.floor_nonneg.mpr h
  unfold roundEven
  dsimp only
  split_ifs <;> omega

theorem roundEven_int (i : ℤ) : roundEven (i : ℚ) = i := by
  unfold roundEven
  simp

theorem printFixed_decimal (n : ℕ) (q : ℚ) : ∃ q', IsDecimal (printFixed n q) q' ∧ |q' - q| ≤ 1 / 2 / 10 ^ n ∧
    ((∃ i : ℤ, q * 10 ^ n = i) → q' = q) := by
  have hp : (0 : ℚ) < 10 ^ n := by positivity
  set x := |q| * 10 ^ n with hx
  have hx0 : 0 ≤ x := by positivity
  have hr0 := roundEven_nonneg hx0
  have hcast : (((roundEven x).toNat : ℕ) : ℚ) = (roundEven x : ℚ) := by
    rw [← Int.cast_natCast, Int.toNat_of_nonneg hr0]
  obtain ⟨as, bs, a, b, h1, h2, h3, h4, h5⟩ := fixedNat_decimal n (roundEven x).toNat
  rw [hcast] at h5
  have hnear : |(roundEven x : ℚ) / 10 ^ n - abs q| ≤ 1 / 2 / 10 ^ n := by
    have e : (roundEven x : ℚ) / 10 ^ n - |q| = ((roundEven x : ℚ) - x) / 10 ^ n := by
      rw [hx]; field_simp
    rw [e, abs_div, abs_of_pos hp]
    exact div_le_div_of_nonneg_right (roundEven_near x) (le_of_lt hp)
  have hexact : (∃ i : ℤ, q * 10 ^ n = i) → (roundEven x : ℚ) / 10 ^ n = |q| := by
    rintro ⟨i, hi⟩
    have : x = ((|i| : ℤ) : ℚ) := by
      rw [hx, Int.cast_abs, ← hi, abs_mul, abs_of_pos hp]
    rw [this, roundEven_int, ← this, hx]
    field_simp
  by_cases hq : q < 0
  · refine ⟨-((roundEven x : ℚ) / 10 ^ n), ⟨as, bs, a, b, Or.inl h1, h2, h3, Or.inr ⟨?_, ?_⟩⟩, ?_, ?_⟩
    · unfold printFixed; simp only [hq, if_true]; rw [← hx, h4]
    · rw [h5]
    · rw [abs_of_neg hq] at hnear
      rw [← abs_neg]
      convert hnear using 2; ring
    · intro h
      rw [hexact h, abs_of_neg hq]; ring
  · refine ⟨(roundEven x : ℚ) / 10 ^ n, ⟨as, bs, a, b, Or.inl h1, h2, h3, Or.inl ⟨?_, ?_⟩⟩, ?_, ?_⟩
    · unfold printFixed; simp only [hq, if_false]; rw [← hx, h4]
    · rw [h5]
    · rwa [abs_of_nonneg (not_lt.mp hq)] at hnear
    · intro h
      rw [hexact h, abs_of_nonneg (not_lt.mp hq)]

end Aeolis.Config
