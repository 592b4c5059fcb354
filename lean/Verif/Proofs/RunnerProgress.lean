import Verif.Proofs.Runner
import Mathlib.Tactic.Linarith
import Mathlib.Tactic.FieldSimp
import Mathlib.Tactic.NormNum
import Mathlib.Algebra.BigOperators.Group.List.Basic
import Mathlib.Data.Int.Interval

/-! Lemmas on the progress messages of `AeoLiSRunner.run` and on the completion of a run. -/

set_option linter.unusedSectionVars false

namespace Aeolis.Runner

open Aeolis Aeolis.Spec

variable {K W : Type*} [Field K] [LinearOrder K] [IsStrictOrderedRing K] [FloorRing K]

/-- Fraction of the run completed. -/
def part (c : Cfg K) (e : Engine K W) (w : W) : K := (e.time w - c.tstart) / (c.tstop - c.tstart)

theorem path_unique {e : Engine K W} {tstop : K} {w v v' : W} {ws ws' : List W} (h : Path e tstop w ws v)
    (h' : Path e tstop w ws' v') : ws = ws' ∧ v = v' := by
  induction h generalizing ws' v' with
  | stop w hlt =>
    cases h' with
    | stop _ _ => exact ⟨rfl, rfl⟩
    | step _ _ _ _ hle _ _ => exact absurd hlt (not_lt.2 hle)
  | step w w1 ws v hle hu hp ih =>
    cases h' with
    | stop _ hlt => exact absurd hlt (not_lt.2 hle)
    | step _ w2 ws2 _ _ hu2 hp2 =>
      rw [hu] at hu2
      cases hu2
      obtain ⟨h1, h2⟩ := ih hp2
      exact ⟨by rw [h1], h2⟩

theorem path_end {e : Engine K W} {tstop : K} {w v : W} {ws : List W} (h : Path e tstop w ws v) :
    tstop < e.time v := by
  induction h with
  | stop _ h => exact h
  | step _ _ _ _ _ _ _ ih => exact ih

theorem npMod_lt (p f : K) (hf : 0 < f) : npMod p f < f := by
  unfold npMod
  have h := Int.lt_floor_add_one (p / f)
  rw [div_lt_iff₀ hf] at h
  linarith

/-- The time steps collected when a message is considered. -/
def collected (e : Engine K W) (s : St K W) : List K :=
  (if e.steps s.w = 1 then [] else s.dtArray.getD []) ++ [e.dt s.w]

theorem printProgress_cases {c : Cfg K} {e : Engine K W} {n l : K} {s s' : St K W}
    (h : printProgress c e n l s = .ok s') :
    (((⌈part c e s.w / (1 / 100)⌉ : K) * (1 / 100) ≠ s.plog ∨ 60 < n - s.tlog) ∧ part c e s.w ≠ 0 ∧
      s'.lines = s.lines ++ [⟨part c e s.w * 100, (collected e s).sum / (collected e s).length⟩] ∧
      s'.tlog = l ∧ s'.plog = (⌈part c e s.w / (1 / 100)⌉ : K) * (1 / 100) ∧ s'.dtArray = some []) ∨
    ((⌈part c e s.w / (1 / 100)⌉ : K) * (1 / 100) = s.plog ∧ n - s.tlog ≤ 60 ∧
      s'.lines = s.lines ∧ s'.tlog = s.tlog ∧ s'.plog = s.plog ∧ s'.dtArray = some (collected e s)) := by
  have hmod : npMod (part c e s.w) (1 / 100) < 1 / 100 := npMod_lt _ _ (by norm_num)
  unfold printProgress at h
  split at h
  · cases h
  · dsimp only at h
    change (match (if e.steps s.w = 1 then some [] else s.dtArray) with
      | none => _ | some l => _) = _ at h
    split at h
    · cases h
    · rename_i arr ha
      have hc : arr ++ [e.dt s.w] = collected e s := by
        unfold collected
        by_cases h1 : e.steps s.w = 1
        · rw [if_pos h1] at ha ⊢; cases ha; rfl
        · rw [if_neg h1] at ha ⊢; rw [ha]; rfl
      rw [hc] at h
      split at h
      · rename_i hp
        split at h
        · cases h
        · rename_i h0
          cases h
          left
          refine ⟨?_, h0, rfl, rfl, rfl, rfl⟩
          rcases hp with hp | hp
          · exact Or.inl (Ne.symm hp.2)
          · exact Or.inr hp
      · rename_i hp
        cases h
        right
        rw [not_or, not_and, not_not] at hp
        exact ⟨(hp.1 hmod).symm, not_lt.1 hp.2, rfl, rfl, rfl, rfl⟩

theorem round_progress {c : Cfg K} {e : Engine K W} {wall : K × K} {s s' : St K W}
    (h : round c e wall s = .ok s') :
    ∃ s1, printProgress c e wall.1 wall.2 s1 = .ok s' ∧ s1.w = s'.w ∧ s1.lines = s.lines ∧
      s1.tlog = s.tlog ∧ s1.plog = s.plog ∧ s1.dtArray = s.dtArray := by
  obtain ⟨-, -, -, -, c5, c6, c7, c8, -, -⟩ := runCallback_facts e s
  unfold round at h
  split at h
  · cases h
  · rename_i s1 h1
    split at h
    · cases h
    · rename_i s2 h2
      unfold runnerUpdate at h1
      split at h1
      · cases hu : e.update (runCallback e s).w with
        | error x => rw [hu] at h1; cases h1
        | ok w' =>
          rw [hu] at h1
          cases h1
          obtain ⟨-, -, -, o4, o5, o6, o7, -⟩ := outputWrite_ok h2
          exact ⟨s2, h, (printProgress_ok h).1.symm, o5.trans c6, o7.trans c8, o6.trans c7, o4.trans c5⟩
      · cases h1

/-- The averages reported partition the time steps. -/
theorem loop_averages {c : Cfg K} {e : Engine K W} {walls : List (K × K)} {s s' : St K W}
    (h : loop c e walls s = .ok (some s')) (ws : List W) (hp : Path e c.tstop s.w ws s'.w)
    (hs : ∀ x ∈ (ws ++ [s'.w]).tail, e.steps x = 1 → s.dtArray.getD [] = [] ∧
      ((ws ++ [s'.w]).tail).head? = some x)
    (hs1 : ∀ x ∈ ((ws ++ [s'.w]).tail).tail, e.steps x ≠ 1) :
    ∃ (groups : List (List K)) (new : List (Line K)),
      s.dtArray.getD [] ++ ((ws ++ [s'.w]).tail).map e.dt = groups.flatten ++ s'.dtArray.getD [] ∧
      s'.lines = s.lines ++ new ∧
      List.Forall₂ (fun g (l : Line K) => g ≠ [] ∧ l.avg * g.length = g.sum) groups new := by
  induction walls generalizing s ws with
  | nil =>
    unfold loop at h
    split at h
    · cases h
    · rename_i ht
      cases h
      obtain ⟨rfl, -⟩ := path_unique hp (.stop _ (not_le.1 ht))
      exact ⟨[], [], by simp, by simp, .nil⟩
  | cons wall walls ih =>
    unfold loop at h
    split at h
    · rename_i ht
      split at h
      · cases h
      · rename_i s1 h1
        obtain ⟨r1, -⟩ := round_ok h1
        obtain ⟨ws1, i1, -⟩ := loop_ok h
        obtain ⟨rfl, -⟩ := path_unique hp (.step _ _ _ _ ht r1 i1)
        have hh := path_head i1
        rw [List.cons_append, List.tail_cons] at hs hs1 ⊢
        obtain ⟨s2, q1, q2, q3, q4, q5, q6⟩ := round_progress h1
        have hcol : collected e s2 = s.dtArray.getD [] ++ [e.dt s1.w] := by
          unfold collected
          rw [q2, q6]
          by_cases h1 : e.steps s1.w = 1
          · rw [if_pos h1, (hs s1.w (by rw [hh]; simp) h1).1]
          · rw [if_neg h1]
        have hs1' : ∀ x ∈ (ws1 ++ [s'.w]).tail, e.steps x ≠ 1 := hs1
        obtain ⟨groups, new, j1, j2, j3⟩ := ih h ws1 i1 (fun x hx h1 => absurd h1 (hs1' x hx))
          (fun x hx => hs1' x (List.mem_of_mem_tail hx))
        rcases printProgress_cases q1 with ⟨-, -, k3, -, -, k6⟩ | ⟨-, -, k3, -, -, k6⟩
        · refine ⟨collected e s2 :: groups, ⟨part c e s2.w * 100, (collected e s2).sum / (collected e s2).length⟩ :: new, ?_, ?_, ?_⟩
          · rw [hh, List.map_cons, List.flatten_cons, hcol]
            rw [k6] at j1
            simp only [Option.getD_some, List.nil_append] at j1
            rw [j1]; simp
          · rw [j2, k3, q3]; simp
          · refine .cons ⟨by rw [hcol]; simp, div_mul_cancel₀ _ ?_⟩ j3
            have : 0 < (collected e s2).length := by rw [hcol]; simp
            exact_mod_cast this.ne'
        · refine ⟨groups, new, ?_, by rw [j2, k3, q3], j3⟩
          rw [k6, hcol] at j1
          rw [hh, List.map_cons, ← j1]
          simp
    · rename_i ht
      cases h
      obtain ⟨rfl, -⟩ := path_unique hp (.stop _ (not_le.1 ht))
      exact ⟨[], [], by simp, by simp, .nil⟩

/-- Rounded-up percentage of a message. -/
def Line.whole (l : Line K) : ℤ := ⌈l.percent⌉

theorem loop_lines {c : Cfg K} {e : Engine K W} {walls : List (K × K)} {s s' : St K W}
    (h : loop c e walls s = .ok (some s')) (ws : List W) (hp : Path e c.tstop s.w ws s'.w)
    (hpos : ∀ x ∈ (ws ++ [s'.w]).tail, 0 < part c e x)
    (hmono : (((ws ++ [s'.w]).tail).map (part c e)).Pairwise (· ≤ ·))
    (hwall : ∀ a ∈ walls, ∀ b ∈ walls, a.1 - b.2 ≤ 60)
    (hst : (s.lines = [] ∧ s.plog = -1) ∨
      (∃ x : ℤ, s.plog = (x : K) * (1 / 100) ∧ (∀ y ∈ (ws ++ [s'.w]).tail, x ≤ ⌈part c e y * 100⌉) ∧
        (∀ l ∈ s.lines, 1 ≤ l.whole ∧ l.whole ≤ x) ∧ ∀ a ∈ walls, a.1 - s.tlog ≤ 60))
    (hsort : (s.lines.map Line.whole).Pairwise (· < ·)) :
    (s'.lines.map Line.whole).Pairwise (· < ·) ∧
    (s'.lines = s.lines ∨ ∃ y ∈ (ws ++ [s'.w]).tail, (∀ l ∈ s'.lines, 1 ≤ l.whole ∧ l.whole ≤ ⌈part c e y * 100⌉)) := by
  induction walls generalizing s ws with
  | nil =>
    unfold loop at h
    split at h
    · cases h
    · cases h
      exact ⟨hsort, Or.inl rfl⟩
  | cons wall walls ih =>
    unfold loop at h
    split at h
    · rename_i ht
      split at h
      · cases h
      · rename_i s1 h1
        obtain ⟨r1, -⟩ := round_ok h1
        obtain ⟨ws1, i1, -⟩ := loop_ok h
        obtain ⟨rfl, -⟩ := path_unique hp (.step _ _ _ _ ht r1 i1)
        have hh := path_head i1
        rw [List.cons_append, List.tail_cons] at hpos hmono hst ⊢
        have hmem : s1.w ∈ ws1 ++ [s'.w] := by rw [hh]; simp
        have hlate : ∀ y ∈ (ws1 ++ [s'.w]).tail, part c e s1.w ≤ part c e y := by
          intro y hy
          rw [hh, List.map_cons, List.pairwise_cons] at hmono
          exact hmono.1 _ (List.mem_map_of_mem hy)
        have hmono1 : (((ws1 ++ [s'.w]).tail).map (part c e)).Pairwise (· ≤ ·) := by
          rw [hh, List.map_cons, List.pairwise_cons] at hmono
          exact hmono.2
        have hceil : ∀ y ∈ (ws1 ++ [s'.w]).tail, ⌈part c e s1.w * 100⌉ ≤ ⌈part c e y * 100⌉ := fun y hy =>
          Int.ceil_mono (mul_le_mul_of_nonneg_right (hlate y hy) (by norm_num))
        obtain ⟨s2, q1, q2, q3, q4, q5, q6⟩ := round_progress h1
        have h100 : ∀ z : K, z / (1 / 100) = z * 100 := fun z => by rw [div_div_eq_mul_div, div_one]
        have h1le : 1 ≤ ⌈part c e s1.w * 100⌉ := by
          have := hpos _ hmem
          have h2 : 0 < ⌈part c e s1.w * 100⌉ := Int.ceil_pos.2 (mul_pos this (by norm_num))
          omega
        have hw1 : ∀ a ∈ walls, ∀ b ∈ walls, a.1 - b.2 ≤ 60 := fun a ha b hb =>
          hwall a (List.mem_cons_of_mem _ ha) b (List.mem_cons_of_mem _ hb)
        have hfin : ∀ (hst1 : ∃ x : ℤ, s1.plog = (x : K) * (1 / 100) ∧
              (∀ y ∈ (ws1 ++ [s'.w]).tail, x ≤ ⌈part c e y * 100⌉) ∧
              (∀ l ∈ s1.lines, 1 ≤ l.whole ∧ l.whole ≤ x) ∧ ∀ a ∈ walls, a.1 - s1.tlog ≤ 60)
            (hb : ∀ l ∈ s1.lines, 1 ≤ l.whole ∧ l.whole ≤ ⌈part c e s1.w * 100⌉)
            (hso : (s1.lines.map Line.whole).Pairwise (· < ·)),
            (s'.lines.map Line.whole).Pairwise (· < ·) ∧ (s'.lines = s.lines ∨
              ∃ y ∈ ws1 ++ [s'.w], (∀ l ∈ s'.lines, 1 ≤ l.whole ∧ l.whole ≤ ⌈part c e y * 100⌉)) := by
          intro hst1 hb hso
          obtain ⟨t1, t2⟩ := ih h ws1 i1 (fun x hx => hpos x (List.mem_of_mem_tail hx)) hmono1 hw1
            (Or.inr hst1) hso
          refine ⟨t1, Or.inr ?_⟩
          rcases t2 with t2 | ⟨y, hy, hl⟩
          · exact ⟨s1.w, hmem, by rw [t2]; exact hb⟩
          · exact ⟨y, List.mem_of_mem_tail hy, hl⟩
        rcases printProgress_cases q1 with ⟨k1, -, k3, k4, k5, -⟩ | ⟨k1, k2, k3, k4, k5, -⟩
        · rw [q2, h100, q5, q4] at k1
          rw [q2, q3] at k3
          rw [q2, h100] at k5
          have hold : ∀ l ∈ s.lines, 1 ≤ l.whole ∧ l.whole < ⌈part c e s1.w * 100⌉ := by
            rcases hst with ⟨h0, -⟩ | ⟨x, g1, g2, g3, g4⟩
            · rw [h0]; simp
            · intro l hl
              refine ⟨(g3 l hl).1, lt_of_le_of_lt (g3 l hl).2 (lt_of_le_of_ne (g2 _ hmem) ?_)⟩
              intro hx
              rcases k1 with k1 | k1
              · exact k1 (by rw [g1, hx])
              · exact absurd (g4 wall (by simp)) (not_le.2 k1)
          have hall : ∀ l ∈ s1.lines, 1 ≤ l.whole ∧ l.whole ≤ ⌈part c e s1.w * 100⌉ := by
            intro l hl
            rw [k3, List.mem_append, List.mem_singleton] at hl
            rcases hl with hl | rfl
            · exact ⟨(hold l hl).1, (hold l hl).2.le⟩
            · exact ⟨h1le, le_rfl⟩
          apply hfin ⟨_, k5, hceil, hall, ?_⟩ hall ?_
          · intro a ha
            rw [k4]
            exact hwall a (List.mem_cons_of_mem _ ha) wall (by simp)
          · rw [k3, List.map_append, List.pairwise_append]
            refine ⟨hsort, by simp, ?_⟩
            intro a ha b hb
            obtain ⟨l, hl, rfl⟩ := List.mem_map.1 ha
            simp only [List.map_cons, List.map_nil, List.mem_singleton] at hb
            rw [hb]
            exact (hold l hl).2
        · rw [q2, h100, q5] at k1
          rw [q3] at k3
          rw [q5] at k5
          rw [q4] at k4
          rcases hst with ⟨-, h0⟩ | ⟨x, g1, g2, g3, g4⟩
          · exfalso
            rw [h0] at k1
            have : (1 : K) ≤ (⌈part c e s1.w * 100⌉ : K) := by exact_mod_cast h1le
            linarith
          · apply hfin ⟨x, by rw [k5, g1], fun y hy => g2 y (List.mem_of_mem_tail hy), by rw [k3]; exact g3, ?_⟩ ?_ ?_
            · intro a ha; rw [k4]; exact g4 a (List.mem_cons_of_mem _ ha)
            · intro l hl
              rw [k3] at hl
              exact ⟨(g3 l hl).1, (g3 l hl).2.trans (g2 _ hmem)⟩
            · rw [k3]; exact hsort
    · cases h
      exact ⟨hsort, Or.inl rfl⟩

/-- An increasing list of integers between one and `n` has at most `n` elements. -/
theorem sorted_length (l : List ℤ) (n : ℤ) (hn : 0 ≤ n) (hs : l.Pairwise (· < ·))
    (hb : ∀ x ∈ l, 1 ≤ x ∧ x ≤ n) : (l.length : ℤ) ≤ n := by
  have hnd : l.Nodup := hs.imp fun h => ne_of_lt h
  have hsub : l.toFinset ⊆ Finset.Icc 1 n := by
    intro x hx
    rw [List.mem_toFinset] at hx
    exact Finset.mem_Icc.2 (hb x hx)
  have := Finset.card_le_card hsub
  rw [List.toFinset_card_of_nodup hnd, Int.card_Icc] at this
  omega

theorem run_parts {c : Cfg K} {e : Engine K W} {solves : W → ℕ} {restart : RestartArg}
    {walls : List (K × K)} {w : W} {s : St K W} {r : K × K}
    (h : run c e solves restart walls w = .ok (some (s, r))) :
    ∃ s0, outputWrite c e (St.init w) = .ok s0 ∧ loop c e walls s0 = .ok (some s) := by
  unfold run at h
  split at h
  · cases h
  · split at h
    · cases h
    · rename_i s0 h0
      split at h
      · cases h
      · cases h
      · rename_i s1 h1
        split at h
        · cases h
        · cases h
          exact ⟨s0, h0, h1⟩

theorem outputWrite_total (c : Cfg K) (e : Engine K W) (s : St K W) (hr : c.restart = 0) :
    ∃ s', outputWrite c e s = .ok s' := by
  unfold outputWrite
  simp [hr]

theorem printProgress_total (c : Cfg K) (e : Engine K W) (n l : K) (s : St K W) (ht : c.tstop ≠ c.tstart)
    (hd : e.steps s.w = 1 ∨ s.dtArray.isSome = true) (h0 : e.time s.w ≠ c.tstart) :
    ∃ s', printProgress c e n l s = .ok s' := by
  have h1 : c.tstop - c.tstart ≠ 0 := sub_ne_zero.2 ht
  have h2 : (e.time s.w - c.tstart) / (c.tstop - c.tstart) ≠ 0 := div_ne_zero (sub_ne_zero.2 h0) h1
  unfold printProgress
  rw [if_neg h1]
  dsimp only
  split
  · rename_i hn
    exfalso
    split at hn
    · cases hn
    · rename_i hne
      rcases hd with hd | hd
      · exact hne hd
      · rw [hn] at hd; cases hd
  · rw [if_neg h2]
    split <;> exact ⟨_, rfl⟩

theorem round_total (c : Cfg K) (e : Engine K W) (wall : K × K) (s : St K W) (w' : W)
    (hu : e.update (afterCallback e s.w) = .ok w') (hr : c.restart = 0) (ht : c.tstop ≠ c.tstart)
    (hc : s.hasClear = true) (hd : s.dtArray.isSome = true ∨ e.steps w' = 1) (h0 : e.time w' ≠ c.tstart) :
    ∃ s', round c e wall s = .ok s' ∧ s'.w = w' := by
  obtain ⟨c1, -, -, -, c5, -, -, -, -, c10⟩ := runCallback_facts e s
  have hup : runnerUpdate e (runCallback e s) = .ok { runCallback e s with w := w' } := by
    unfold runnerUpdate
    rw [if_pos (by rw [c10, hc]; rfl), c1, hu]
    rfl
  obtain ⟨s2, h2⟩ := outputWrite_total c e { runCallback e s with w := w' } hr
  obtain ⟨o1, -, -, o4, -⟩ := outputWrite_ok h2
  dsimp only at o1 o4
  obtain ⟨s3, h3⟩ := printProgress_total c e wall.1 wall.2 s2 ht
    (by rw [o1, o4, c5]; exact hd.symm) (by rw [o1]; exact h0)
  refine ⟨s3, ?_, by rw [(printProgress_ok h3).1, o1]⟩
  unfold round
  rw [hup]
  dsimp only
  rw [h2]
  exact h3

theorem loop_total {c : Cfg K} {e : Engine K W} (walls : List (K × K)) (s : St K W) (ws : List W) (v : W)
    (hp : Path e c.tstop s.w ws v) (hw : ws.length ≤ walls.length) (hr : c.restart = 0)
    (ht : c.tstop ≠ c.tstart) (hc : s.hasClear = true)
    (hd : s.dtArray.isSome = true ∨ ∀ x ∈ ((ws ++ [v]).tail).head?, e.steps x = 1)
    (h0 : ∀ x ∈ (ws ++ [v]).tail, e.time x ≠ c.tstart) :
    ∃ s', loop c e walls s = .ok (some s') ∧ s'.w = v := by
  induction walls generalizing s ws with
  | nil =>
    have : ws = [] := by simpa using hw
    subst this
    cases hp with
    | stop _ hlt =>
      exact ⟨s, by unfold loop; rw [if_neg (not_le.2 hlt)], rfl⟩
  | cons wall walls ih =>
    cases hp with
    | stop _ hlt =>
      exact ⟨s, by unfold loop; rw [if_neg (not_le.2 hlt)], rfl⟩
    | step _ w' ws' _ hle hu hp' =>
      have hh := path_head hp'
      rw [List.cons_append, List.tail_cons] at hd h0
      have hmem : w' ∈ ws' ++ [v] := by rw [hh]; simp
      obtain ⟨s1, h1, h1w⟩ := round_total c e wall s w' hu hr ht hc
        (hd.imp id fun h => h w' (by rw [hh]; rfl)) (h0 w' hmem)
      obtain ⟨-, -, -, -, -, -, r7, r8, -⟩ := round_ok h1
      obtain ⟨s', h2, h3⟩ := ih s1 ws' (by rw [h1w]; exact hp') (by simpa using hw) r7 (Or.inl r8)
        (fun x hx => h0 x (List.mem_of_mem_tail hx))
      refine ⟨s', ?_, h3⟩
      unfold loop
      rw [if_pos hle, h1]
      exact h2

end Aeolis.Runner
