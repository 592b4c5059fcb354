import Verif.Proofs.ConfigFile
import Mathlib.Data.List.Range

/-! Backups of files: C07. -/

namespace Aeolis.Props

open Aeolis.Spec Aeolis.Config

variable {C : Type}

/-- The names of backups. -/
theorem backupName_iff (f : Text) (n : ℕ) (hn : n < 1000) (g : Text) : BackupName f n g ↔ g = backupName f n := by
  have key : ∀ a b c, a < 10 → b < 10 → c < 10 → n = 100 * a + 10 * b + c →
      backupName f n = f ++ ['~', digitChar a, digitChar b, digitChar c] := by
    intro a b c ha hb hc hn
    unfold backupName padded padded padded padded digitChar
    have h1 : n % 10 = c := by omega
    have h2 : n / 10 % 10 = b := by omega
    have h3 : n / 10 / 10 % 10 = a := by omega
    rw [h1, h2, h3]
    rfl
  constructor
  · rintro ⟨a, b, c, ha, hb, hc, h, rfl⟩
    exact (key a b c ha hb hc h).symm
  · rintro rfl
    exact ⟨n / 10 / 10, n / 10 % 10, n % 10, by omega, by omega, by omega, by omega,
      key _ _ _ (by omega) (by omega) (by omega) (by omega)⟩

theorem digitChar_injective {a b : ℕ} (ha : a < 10) (hb : b < 10) (h : digitChar a = digitChar b) : a = b := by
  have := congrArg Char.toNat h
  rw [digitChar_toNat ha, digitChar_toNat hb] at this
  omega

theorem backupName_injective {f : Text} {n m : ℕ} {g : Text} (h1 : BackupName f n g) (h2 : BackupName f m g) : n = m := by
  obtain ⟨a, b, c, ha, hb, hc, hn, rfl⟩ := h1
  obtain ⟨a', b', c', ha', hb', hc', hm, h⟩ := h2
  have := List.append_cancel_left h
  simp only [List.cons.injEq, and_true, true_and] at this
  obtain ⟨e1, e2, e3⟩ := this
  have := digitChar_injective ha ha' e1
  have := digitChar_injective hb hb' e2
  have := digitChar_injective hc hc' e3
  omega

theorem backupName_ne {f : Text} {n : ℕ} {g : Text} (h : BackupName f n g) : g ≠ f := by
  obtain ⟨a, b, c, -, -, -, -, rfl⟩ := h
  intro h
  have := congrArg List.length h
  simp at this

/-- The first unused number. -/
theorem firstFree_spec (d : Disk C) (f : Text) :
    (∃ n, 1 ≤ n ∧ n ≤ 999 ∧ firstFree d f = n ∧ d (backupName f n) = none ∧
      ∀ m, 1 ≤ m → m < n → d (backupName f m) ≠ none) ∨
    ((∀ n, 1 ≤ n → n ≤ 999 → d (backupName f n) ≠ none) ∧ firstFree d f = 999) := by
  unfold firstFree
  cases h : ((List.range 999).map (· + 1)).find? (fun n => (d (backupName f n)).isNone) with
  | none =>
    right
    rw [List.find?_eq_none] at h
    refine ⟨?_, rfl⟩
    intro n h1 h2 he
    refine h n ?_ (by rw [he]; rfl)
    rw [List.mem_map]
    exact ⟨n - 1, by rw [List.mem_range]; omega, by omega⟩
  | some n =>
    left
    rw [List.find?_eq_some_iff_append] at h
    obtain ⟨hn, as, bs, he, hb⟩ := h
    have hlen : as.length < 999 := by
      have := congrArg List.length he
      simp at this; omega
    have hget : ∀ i < 999, ((List.range 999).map (· + 1))[i]? = some (i + 1) := by
      intro i hi
      rw [List.getElem?_map, List.getElem?_range hi]; rfl
    have hnv : n = as.length + 1 := by
      have := hget as.length hlen
      rw [he, List.getElem?_append_right (le_refl _)] at this
      simpa using this
    refine ⟨n, by omega, by omega, rfl, by simpa using hn, ?_⟩
    intro m h1 h2
    have hm := hget (m - 1) (by omega)
    rw [he, List.getElem?_append_left (by omega)] at hm
    have := hb _ (List.mem_of_getElem? hm)
    rw [show m - 1 + 1 = m by omega] at this
    intro h'
    rw [h'] at this
    simp at this

/-- C07. Without the file nothing happens. -/
theorem C07_no_file (d : Disk C) (f : Text) (h : d f = none) : backup d f = .ok d := by
  unfold backup
  rw [h]

/-- C07. The backup of a file is a new file with its content, under the lowest free number; all other files are
unchanged. -/
theorem C07_backup (d : Disk C) (f : Text) (c : C) (hc : d f = some c) (n : ℕ) (g : Text) (h1 : 1 ≤ n) (h2 : n ≤ 999)
    (hg : BackupName f n g) (hfree : d g = none)
    (hlow : ∀ m k, 1 ≤ m → m < n → BackupName f m k → d k ≠ none) :
    ∃ d', backup d f = .ok d' ∧ d' g = some c ∧ ∀ k, k ≠ g → d' k = d k := by
  have hgn := (backupName_iff f n (by omega) g).mp hg
  have hff : firstFree d f = n := by
    rcases firstFree_spec d f with ⟨m, m1, m2, he, hm, hlow'⟩ | ⟨hall, -⟩
    · rw [he]
      rcases lt_trichotomy m n with h | h | h
      · exact absurd hm (hlow m _ m1 h ((backupName_iff f m (by omega) _).mpr rfl))
      · exact h
      · exact absurd (hgn ▸ hfree) (hlow' n h1 h)
    · exact absurd (hgn ▸ hfree) (hall n h1 h2)
  refine ⟨writeFile d g c, ?_, ?_, ?_⟩
  · unfold backup backupFilename
    rw [hc, hff, ← hgn]
    simp [hfree]
  · simp [writeFile]
  · intro k hk
    simp [writeFile, hk]

/-- C07. With all numbers in use a backup is an error. -/
theorem C07_all_numbers_used (d : Disk C) (f : Text) (c : C) (hc : d f = some c)
    (h : ∀ n g, 1 ≤ n → n ≤ 999 → BackupName f n g → d g ≠ none) : backup d f = .error .valueError := by
  have h999 : firstFree d f = 999 := by
    rcases firstFree_spec d f with ⟨m, m1, m2, he, hm, -⟩ | ⟨-, h⟩
    · exact absurd hm (h m _ m1 m2 ((backupName_iff f m (by omega) _).mpr rfl))
    · exact h
  have hs : (d (backupName f 999)).isSome = true := by
    rw [← Option.ne_none_iff_isSome]
    exact h 999 _ (by omega) (by omega) ((backupName_iff f 999 (by omega) _).mpr rfl)
  unfold backup backupFilename
  rw [hc, h999]
  simp [hs]

/-- The operations on a file; a backup that fails changes nothing. -/
def runFileOp (f : Text) (d : Disk C) : FileOp C → Disk C
  | .write c => writeFile d f c
  | .backup =>
    match backup d f with
    | .ok d' => d'
    | .error _ => d

/-- C07. In every sequence of writes and backups of a file, the files on disk are its current content and the contents
at the times of the backups, in order: no backup is ever overwritten. -/
theorem C07_history (f : Text) (d : Disk C) (s : Saved C) (hd : Stores d f s) (hs : s.backups.length ≤ 999)
    (ops : List (FileOp C)) :
    Stores (ops.foldl (runFileOp f) d) f (ops.foldl Saved.step s) ∧
      ∀ g, g ≠ f → (∀ n, 1 ≤ n → n ≤ 999 → ¬ BackupName f n g) → ops.foldl (runFileOp f) d g = d g := by
  induction ops generalizing d s with
  | nil => exact ⟨hd, fun g _ _ => rfl⟩
  | cons op ops ih =>
    have step : Stores (runFileOp f d op) f (s.step op) ∧ (s.step op).backups.length ≤ 999 ∧
        ∀ g, g ≠ f → (∀ n, 1 ≤ n → n ≤ 999 → ¬ BackupName f n g) → runFileOp f d op g = d g := by
      cases op with
      | write c =>
        refine ⟨⟨by simp [runFileOp, writeFile, Saved.step], ?_⟩, hs, ?_⟩
        · intro n g h1 h2 hg
          show (if g = f then some c else d g) = _
          rw [if_neg (backupName_ne hg), hd.2 n g h1 h2 hg]
          rfl
        · intro g hg _
          show (if g = f then some c else d g) = _
          rw [if_neg hg]
      | backup =>
        cases hc : s.current with
        | none =>
          have : runFileOp f d .backup = d := by
            unfold runFileOp
            rw [C07_no_file d f (by rw [hd.1, hc])]
          rw [this]
          unfold Saved.step
          simp only [hc]
          exact ⟨hd, hs, fun _ _ _ => trivial⟩
        | some c =>
          have hdc : d f = some c := by rw [hd.1, hc]
          by_cases hlen : s.backups.length < 999
          · have hnone : ∀ g, BackupName f (s.backups.length + 1) g → d g = none := by
              intro g hg
              rw [hd.2 _ g (by omega) (by omega) hg]
              simp
            have hname := (backupName_iff f (s.backups.length + 1) (by omega) _).mpr rfl
            obtain ⟨d', hb, h1, h2⟩ := C07_backup d f c hdc (s.backups.length + 1) _ (by omega) (by omega)
              hname (hnone _ hname) (by
                intro m k h1 h2 hk
                rw [hd.2 m k h1 (by omega) hk, List.getElem?_eq_getElem (by omega)]
                simp)
            have hr : runFileOp f d .backup = d' := by unfold runFileOp; rw [hb]
            rw [hr]
            unfold Saved.step
            simp only [hc, hlen, if_true]
            refine ⟨⟨?_, ?_⟩, by rw [List.length_append, List.length_singleton]; omega, ?_⟩
            · rw [h2 f (Ne.symm (backupName_ne hname)), hdc]
            · intro n g n1 n2 hg
              by_cases hn : n = s.backups.length + 1
              · subst hn
                rw [(backupName_iff f _ (by omega) g).mp hg, h1]
                simp
              · have hne : g ≠ backupName f (s.backups.length + 1) := by
                  rintro rfl
                  exact hn (backupName_injective hg hname)
                rw [h2 g hne, hd.2 n g n1 n2 hg]
                by_cases hlt : n ≤ s.backups.length
                · rw [List.getElem?_append_left (by omega)]
                · rw [List.getElem?_eq_none (by omega), List.getElem?_eq_none (by simp; omega)]
            · intro g _ hg
              exact h2 g fun he => hg _ (by omega) (by omega) (he ▸ hname)
          · have hr : runFileOp f d .backup = d := by
              unfold runFileOp
              rw [C07_all_numbers_used d f c hdc (by
                intro n g h1 h2 hg
                rw [hd.2 n g h1 h2 hg, List.getElem?_eq_getElem (by omega)]
                simp)]
            rw [hr]
            unfold Saved.step
            simp only [hc, hlen, if_false]
            exact ⟨hd, hs, fun _ _ _ => trivial⟩
    obtain ⟨h1, h2, h3⟩ := step
    obtain ⟨i1, i2⟩ := ih _ _ h1 h2
    refine ⟨i1, fun g g1 g2 => ?_⟩
    rw [List.foldl_cons, i2 g g1 g2, h3 g g1 g2]

/-- An empty disk meets the hypotheses. -/
example : Stores (fun _ => none : Disk ℕ) "out.nc".toList ⟨none, []⟩ := ⟨rfl, by intros; simp⟩

example : ([FileOp.write 1, .backup, .write 2, .write 3, .backup].foldl Saved.step ⟨none, []⟩ : Saved ℕ) =
    ⟨some 3, [1, 3]⟩ := rfl

example : backup (fun _ => none : Disk ℕ) "aeolis.txt".toList = .ok (fun _ => none) := C07_no_file _ _ rfl

/-- With a first backup present the second one gets the number 2. -/
example : ∃ d', backup (fun k => if k = "a".toList then some 7 else if k = "a~001".toList then some 5 else none)
      "a".toList = .ok d' ∧ d' "a~002".toList = some 7 ∧ ∀ k, k ≠ "a~002".toList →
        d' k = (if k = "a".toList then some 7 else if k = "a~001".toList then some 5 else none) :=
  C07_backup (fun k => if k = "a".toList then some 7 else if k = "a~001".toList then some 5 else none)
    "a".toList 7 (by decide) 2 "a~002".toList (by norm_num) (by norm_num)
    ⟨0, 0, 2, by norm_num, by norm_num, by norm_num, rfl, by decide⟩ (by decide) (by
      rintro m k h1 h2 ⟨a, b, c, _, _, _, h, rfl⟩
      have h1 : m = 1 := by omega
      have ha : a = 0 := by omega
      have hb : b = 0 := by omega
      have hc : c = 1 := by omega
      subst ha hb hc
      decide)

/-- A disk on which every name holds something. -/
example : backup (fun _ => some 1 : Disk ℕ) "a".toList = .error .valueError :=
  C07_all_numbers_used _ _ 1 rfl (fun _ _ _ _ _ => by simp)

end Aeolis.Props
