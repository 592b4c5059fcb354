import Verif.Model.PyDict

/-! Laws of the dictionary model. -/

namespace Aeolis.PyDict

variable {κ V : Type*} [DecidableEq κ]

@[simp] theorem get_nil (k : κ) : get ([] : PyDict κ V) k = none := rfl

@[simp] theorem get_set_self (d : PyDict κ V) (k : κ) (v : V) : get (set d k v) k = some v := by
  induction d with
  | nil => simp [set, get]
  | cons kv d ih =>
    obtain ⟨k', v'⟩ := kv
    unfold set
    by_cases h : k' = k
    · simp [h, get]
    · simp [h, get, ih]

theorem get_set_of_ne (d : PyDict κ V) {k j : κ} (v : V) (hne : j ≠ k) :
    get (set d k v) j = get d j := by
  induction d with
  | nil => simp [set, get, hne.symm]
  | cons kv d ih =>
    obtain ⟨k', v'⟩ := kv
    unfold set
    by_cases h : k' = k
    · subst h; simp [get, hne.symm]
    · simp only [h, if_false, get, ih]

theorem get_set (d : PyDict κ V) (k j : κ) (v : V) :
    get (set d k v) j = if j = k then some v else get d j := by
  by_cases h : j = k
  · subst h; simp
  · simp [h, get_set_of_ne d v h]

theorem mem_keys_iff (d : PyDict κ V) (k : κ) : k ∈ keys d ↔ (get d k).isSome := by
  induction d with
  | nil => simp [keys]
  | cons kv d ih =>
    obtain ⟨k', v'⟩ := kv
    unfold get
    by_cases h : k' = k
    · simp [h, keys]
    · simp only [h, if_false, ← ih]
      simp [keys, Ne.symm h]

theorem keys_set_mem (d : PyDict κ V) {k : κ} (v : V) (h : k ∈ keys d) :
    keys (set d k v) = keys d := by
  induction d with
  | nil => simp [keys] at h
  | cons kv d ih =>
    obtain ⟨k', v'⟩ := kv
    unfold set
    by_cases hk : k' = k
    · subst hk; simp [keys]
    · have : k ∈ keys d := by
        rcases List.mem_cons.mp h with h | h
        · exact absurd h.symm hk
        · exact h
      simp only [hk, if_false]
      have := ih this
      simp only [keys, List.map_cons] at this ⊢
      rw [this]

theorem keys_set_not_mem (d : PyDict κ V) {k : κ} (v : V) (h : k ∉ keys d) :
    keys (set d k v) = keys d ++ [k] := by
  induction d with
  | nil => simp [keys, set]
  | cons kv d ih =>
    obtain ⟨k', v'⟩ := kv
    have hk : k' ≠ k := by rintro rfl; simp [keys] at h
    have hd : k ∉ keys d := by
      intro hd; apply h; simp only [keys, List.map_cons, List.mem_cons]; right; exact hd
    have := ih hd
    unfold set
    simp only [hk, if_false]
    simp only [keys, List.map_cons] at this ⊢
    rw [this]; rfl

theorem nodup_set (d : PyDict κ V) (k : κ) (v : V) (h : (keys d).Nodup) :
    (keys (set d k v)).Nodup := by
  by_cases hk : k ∈ keys d
  · rwa [keys_set_mem d v hk]
  · rw [keys_set_not_mem d v hk, List.nodup_append]
    exact ⟨h, List.nodup_singleton k, by
      intro a ha b hb e
      rw [List.mem_singleton] at hb
      exact hk (hb ▸ e ▸ ha)⟩

theorem mem_keys_set (d : PyDict κ V) (k j : κ) (v : V) :
    j ∈ keys (set d k v) ↔ j = k ∨ j ∈ keys d := by
  rw [mem_keys_iff, mem_keys_iff, get_set]
  by_cases h : j = k <;> simp [h]

@[simp] theorem update_nil (d : PyDict κ V) : update d [] = d := rfl

@[simp] theorem update_cons (d : PyDict κ V) (kv : κ × V) (kvs : List (κ × V)) :
    update d (kv :: kvs) = update (set d kv.1 kv.2) kvs := rfl

theorem get_update_of_not_mem (d : PyDict κ V) (kvs : List (κ × V)) (k : κ)
    (h : k ∉ kvs.map Prod.fst) : get (update d kvs) k = get d k := by
  induction kvs generalizing d with
  | nil => rfl
  | cons kv kvs ih =>
    simp only [List.map_cons, List.mem_cons, not_or] at h
    rw [update_cons, ih _ h.2, get_set_of_ne _ _ h.1]

/-- The value after `update` is the last one given for the key. -/
theorem get_update (d : PyDict κ V) (kvs : List (κ × V)) (k : κ) :
    get (update d kvs) k = (get kvs.reverse k).or (get d k) := by
  have happ : ∀ (a b : List (κ × V)), get (a ++ b) k = (get a k).or (get b k) := by
    intro a b
    induction a with
    | nil => simp
    | cons x a ih =>
      obtain ⟨k', v⟩ := x
      simp only [List.cons_append, get]
      by_cases h : k' = k <;> simp [h, ih]
  induction kvs generalizing d with
  | nil => simp
  | cons kv kvs ih =>
    obtain ⟨k', v⟩ := kv
    rw [update_cons, ih, List.reverse_cons, happ, get_set]
    by_cases h : k = k'
    · subst h; cases get kvs.reverse k <;> simp [get]
    · cases get kvs.reverse k <;> simp [get, h, Ne.symm h]

end Aeolis.PyDict
