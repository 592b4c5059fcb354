import Mathlib.Tactic.Ring
import Mathlib.Tactic.Linarith
import Mathlib.Data.Nat.ModEq
import Verif.Model.Arrays

/-! Lemmas on arrays in C order. -/

namespace Aeolis.Arr

variable {V : Type*}

theorem ravel_lt : ∀ (sh ix : List ℕ), List.Forall₂ (· < ·) ix sh → ravel sh ix < sh.prod
  | [], ix, h => by cases h; simp [ravel]
  | n :: sh, ix, h => by
    cases h with
    | cons h1 h2 =>
      rename_i i ix
      have := ravel_lt sh ix h2
      simp only [ravel, List.prod_cons]
      calc i * sh.prod + ravel sh ix < i * sh.prod + sh.prod := by omega
        _ = (i + 1) * sh.prod := by ring
        _ ≤ n * sh.prod := Nat.mul_le_mul_right _ h1

theorem unravel_ravel : ∀ (sh ix : List ℕ), List.Forall₂ (· < ·) ix sh → unravel sh (ravel sh ix) = ix
  | [], ix, h => by cases h; rfl
  | n :: sh, ix, h => by
    cases h with
    | cons h1 h2 =>
      rename_i i ix
      have hlt := ravel_lt sh ix h2
      have hp : 0 < sh.prod := by omega
      simp only [ravel, unravel]
      rw [show (i * sh.prod + ravel sh ix) / sh.prod = i by
            rw [Nat.mul_comm, Nat.mul_add_div hp, Nat.div_eq_of_lt hlt]; rfl,
        show (i * sh.prod + ravel sh ix) % sh.prod = ravel sh ix by
            rw [Nat.mul_comm, Nat.mul_add_mod, Nat.mod_eq_of_lt hlt],
        unravel_ravel sh ix h2]

theorem ravel_unravel : ∀ (sh : List ℕ) (k : ℕ), k < sh.prod → ravel sh (unravel sh k) = k
  | [], k, h => by simp at h; simp [ravel, h]
  | n :: sh, k, h => by
    simp only [ravel, unravel]
    have hp : 0 < sh.prod := by
      rcases Nat.eq_zero_or_pos sh.prod with h0 | h0
      · simp [h0] at h
      · exact h0
    rw [ravel_unravel sh _ (Nat.mod_lt _ hp)]
    exact Nat.div_add_mod' k sh.prod

theorem unravel_valid : ∀ (sh : List ℕ) (k : ℕ), k < sh.prod → List.Forall₂ (· < ·) (unravel sh k) sh
  | [], _, _ => List.Forall₂.nil
  | n :: sh, k, h => by
    have hp : 0 < sh.prod := by
      rcases Nat.eq_zero_or_pos sh.prod with h0 | h0
      · simp [h0] at h
      · exact h0
    refine List.Forall₂.cons ?_ (unravel_valid sh _ (Nat.mod_lt _ hp))
    rw [Nat.div_lt_iff_lt_mul hp]
    simpa using h

theorem rows_flatten (c : ℕ) : ∀ (n : ℕ) (l : List V), l.length = n * c → (rows c n l).flatten = l
  | 0, l, h => by simp at h; simp [rows, h]
  | n + 1, l, h => by
    simp only [rows, List.flatten_cons]
    rw [rows_flatten c n (l.drop c) (by rw [List.length_drop, h, Nat.succ_mul]; omega), List.take_append_drop]

theorem rows_length (c : ℕ) : ∀ (n : ℕ) (l : List V), (rows c n l).length = n
  | 0, _ => rfl
  | n + 1, l => by simp [rows, rows_length c n]

theorem rows_each (c : ℕ) : ∀ (n : ℕ) (l : List V), l.length = n * c → ∀ r ∈ rows c n l, r.length = c
  | 0, _, _ => by simp [rows]
  | n + 1, l, h => by
    intro r hr
    simp only [rows, List.mem_cons] at hr
    rcases hr with rfl | hr
    · rw [List.length_take, h, Nat.succ_mul]; omega
    · exact rows_each c n _ (by rw [List.length_drop, h, Nat.succ_mul]; omega) r hr

/-- Loading rows of equal length. -/
theorem loadtxt_rows (c n : ℕ) (l : List V) (hn : 0 < n) (h : l.length = n * c) :
    loadtxt (rows c n l) = some ⟨[n, c].filter (· ≠ 1), l⟩ := by
  obtain ⟨m, rfl⟩ : ∃ m, n = m + 1 := ⟨n - 1, by omega⟩
  have he := rows_each c (m + 1) l h
  have hf := rows_flatten c (m + 1) l h
  have hl := rows_length c (m + 1) l
  generalize hR : rows c (m + 1) l = R at he hf hl ⊢
  match R, hR with
  | [], hR => simp at hl
  | r :: rs, hR =>
    have hr := he r (by simp)
    simp only [loadtxt]
    rw [if_pos, hf, hl, hr]
    rw [List.all_eq_true]
    intro r' hr'
    simp [hr, he r' (by simp [hr'])]

theorem filter_one_prod : ∀ l : List ℕ, (l.filter (· ≠ 1)).prod = l.prod
  | [] => rfl
  | n :: l => by
    by_cases h : n = 1
    · rw [List.filter_cons_of_neg (by simpa using h), List.prod_cons, filter_one_prod l, h, Nat.one_mul]
    · rw [List.filter_cons_of_pos (by simpa using h), List.prod_cons, List.prod_cons, filter_one_prod l]

theorem mapM_get (d : List V) (f : ℕ → ℕ) : ∀ (l : List ℕ), (∀ k ∈ l, f k < d.length) →
    ∃ e : List V, l.mapM (fun k => d[f k]?) = some e ∧ e.length = l.length ∧
      ∀ (i k : ℕ), l[i]? = some k → e[i]? = d[f k]?
  | [], _ => ⟨[], rfl, rfl, by simp⟩
  | k :: l, h => by
    obtain ⟨e, h1, h2, h3⟩ := mapM_get d f l fun k hk => h k (by simp [hk])
    have hk := h k (by simp)
    refine ⟨d[f k] :: e, ?_, by simp [h2], ?_⟩
    · rw [List.mapM_cons, List.getElem?_eq_getElem hk, h1]; rfl
    · intro i k' hi
      cases i with
      | zero => simp at hi; subst hi; simp [List.getElem?_eq_getElem hk]
      | succ i => simpa using h3 i k' (by simpa using hi)

theorem forall₂_drop {α β : Type*} {R : α → β → Prop} : ∀ (n : ℕ) {l : List α} {m : List β},
    List.Forall₂ R l m → List.Forall₂ R (l.drop n) (m.drop n)
  | 0, _, _, h => by simpa using h
  | _ + 1, _, _, List.Forall₂.nil => by simp
  | n + 1, _, _, List.Forall₂.cons _ h => by simpa using forall₂_drop n h

theorem source_valid_aux : ∀ (sh t ix : List ℕ), sh.length = t.length → List.Forall₂ (· < ·) ix t →
    (List.zipWith (fun n m => n == m || n == 1) sh t).all id = true →
    List.Forall₂ (· < ·) (List.zipWith (fun n i => if n = 1 then 0 else i) sh ix) sh
  | [], t, ix, hl, hv, _ => by simp
  | n :: sh, [], ix, hl, _, _ => by simp at hl
  | n :: sh, m :: t, ix, hl, hv, hb => by
    cases hv with
    | cons h1 h2 =>
      simp only [List.zipWith_cons_cons, List.all_cons, Bool.and_eq_true] at hb ⊢
      refine List.Forall₂.cons ?_ (source_valid_aux sh t _ (by simpa using hl) h2 hb.2)
      have := hb.1
      simp at this
      split_ifs with h
      · omega
      · rcases this with h' | h'
        · omega
        · exact absurd h' h

theorem source_valid (sh tgt ix : List ℕ) (hb : broadcasts sh tgt = true)
    (hv : List.Forall₂ (· < ·) ix tgt) : List.Forall₂ (· < ·) (sourceIndex sh ix) sh := by
  unfold broadcasts at hb
  rw [Bool.and_eq_true, decide_eq_true_eq] at hb
  unfold sourceIndex
  have hlen := hv.length_eq
  rw [hlen]
  refine source_valid_aux sh (tgt.drop (tgt.length - sh.length)) _ ?_ (forall₂_drop _ hv) hb.2
  rw [List.length_drop]; omega

/-- Assignment with broadcasting: succeeds exactly when the shapes fit, and then every element of the grid comes from the element of
the source with the same last indices (index 0 in dimensions of size one). -/
theorem assign_ok (a : NdArr V) (tgt : List ℕ) (ha : a.data.length = a.shape.prod)
    (hb : broadcasts a.shape tgt = true) :
    ∃ b, a.assign tgt = .ok b ∧ b.shape = tgt ∧ b.data.length = tgt.prod ∧
      ∀ ix, List.Forall₂ (· < ·) ix tgt → b.get ix = a.get (sourceIndex a.shape ix) := by
  obtain ⟨e, h1, h2, h3⟩ := mapM_get a.data
    (fun k => ravel a.shape (sourceIndex a.shape (unravel tgt k))) (List.range tgt.prod) fun k hk => by
      rw [ha]
      exact ravel_lt _ _ (source_valid _ _ _ hb (unravel_valid _ _ (List.mem_range.mp hk)))
  refine ⟨⟨tgt, e⟩, ?_, rfl, by simpa using h2, ?_⟩
  · unfold NdArr.assign
    rw [if_pos hb]
    show (match (List.range tgt.prod).mapM (fun k => a.data[ravel a.shape (sourceIndex a.shape (unravel tgt k))]?) with
      | some d => Except.ok (⟨tgt, d⟩ : NdArr V) | none => Except.error PyErr.indexError) = _
    rw [h1]
  · intro ix hix
    have hlt := ravel_lt _ _ hix
    have := h3 (ravel tgt ix) (ravel tgt ix) (by rw [List.getElem?_range hlt])
    show e[ravel tgt ix]? = _
    rw [this, unravel_ravel _ _ hix]
    rfl

/-- Two arrays of the same shape with the same elements are the same. -/
theorem NdArr.ext_get (a b : NdArr V) (hs : a.shape = b.shape) (ha : a.data.length = a.shape.prod)
    (hb : b.data.length = b.shape.prod)
    (h : ∀ ix, List.Forall₂ (· < ·) ix a.shape → a.get ix = b.get ix) : a = b := by
  obtain ⟨sa, da⟩ := a
  obtain ⟨sb, db⟩ := b
  simp only at hs ha hb h
  subst hs
  congr 1
  apply List.ext_getElem?
  intro k
  by_cases hk : k < sa.prod
  · have := h (unravel sa k) (unravel_valid _ _ hk)
    simp only [NdArr.get, ravel_unravel _ _ hk] at this
    exact this
  · rw [List.getElem?_eq_none (by omega), List.getElem?_eq_none (by omega)]

/-- Number `b` on line `a` of a file with `c` numbers per line, in the sequence of all numbers. -/
theorem flatten_get (c : ℕ) : ∀ (file : List (List V)), (∀ row ∈ file, row.length = c) → ∀ (a b : ℕ), b < c →
    file.flatten[a * c + b]? = file[a]?.bind (fun row => row[b]?)
  | [], _, a, b, _ => by simp
  | row :: file, h, a, b, hb => by
    have hr := h row (by simp)
    cases a with
    | zero => simp [List.getElem?_append, hr, hb]
    | succ a =>
      rw [List.flatten_cons, List.getElem?_append, if_neg (by rw [hr, Nat.succ_mul]; omega), hr,
        show (a + 1) * c + b - c = a * c + b by rw [Nat.succ_mul]; omega,
        flatten_get c file (fun r hr => h r (by simp [hr])) a b hb]
      simp

theorem flatten_length (c : ℕ) : ∀ (file : List (List V)), (∀ row ∈ file, row.length = c) →
    file.flatten.length = file.length * c
  | [], _ => by simp
  | row :: file, h => by
    rw [List.flatten_cons, List.length_append, h row (by simp),
      flatten_length c file fun r hr => h r (by simp [hr]), List.length_cons, Nat.succ_mul, Nat.add_comm]

/-- Loading a file with lines of equal length. -/
theorem loadtxt_file (c : ℕ) (file : List (List V)) (hf : file ≠ []) (h : ∀ row ∈ file, row.length = c) :
    loadtxt file = some ⟨[file.length, c].filter (· ≠ 1), file.flatten⟩ := by
  match file, hf with
  | row :: file, _ =>
    have hr := h row (by simp)
    simp only [loadtxt]
    rw [if_pos, hr]
    rw [List.all_eq_true]
    intro r' hr'
    simp [hr, h r' (by simp [hr'])]

end Aeolis.Arr
