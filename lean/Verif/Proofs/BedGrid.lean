import Verif.Model.BedGrid
import Verif.Proofs.BedUpdate

/-!
The grid code of `bed.update` acts on every cell like the cell code.
-/

set_option linter.unusedSectionVars false

namespace Aeolis.Bed

open Finset

variable {K : Type*} [Field K] [LinearOrder K] [IsStrictOrderedRing K] [FloorRing K] {nf : ℕ}
  {C : Type*} [Fintype C]

/-- The values of one cell. -/
def GridExch.slice (g : GridExch C K nf) (c : C) : Exch K nf := ⟨g.m c, g.dm c, g.pickup c⟩

theorem nGt_anti (dm mx : K) {i j : ℕ} (h : i ≤ j) (hj : nGt dm mx j) : nGt dm mx i := by
  unfold nGt at *
  split_ifs at * with h0
  · exact hj
  · have : (i : ℤ) ≤ j := by exact_mod_cast h
    omega

theorem slice_case1 (g : GridExch C K nf) (c : C) : (gridCase1 g).slice c = case1 (g.slice c) := by
  unfold gridCase1 case1 GridExch.slice masked
  dsimp only
  by_cases h : ∃ c, 0 < g.dm c ∧ 0 < ∑ f, ero (g.pickup c) f
  · rw [if_pos h]
    dsimp only
    by_cases hc : 0 < g.dm c ∧ 0 < ∑ f, ero (g.pickup c) f
    · simp only [if_pos hc]
    · simp only [if_neg hc]
  · rw [if_neg h, if_neg (fun hc => h ⟨c, hc⟩)]

theorem slice_step (nl : ℕ) (mx : C → K) (d : C → Fin nf → K) (i : ℕ) (ix : C → Prop) [DecidablePred ix]
    (g : GridExch C K nf) (c : C) :
    (gridStep nl mx d i ix g).slice c =
      if ix c then case2Step nl (mx c) (d c) i (g.slice c) else g.slice c := by
  unfold gridStep case2Step GridExch.slice masked
  dsimp only
  by_cases h : ix c
  · simp only [if_pos h, Function.update_self]
  · simp only [if_neg h]

theorem slice_loop (nl : ℕ) (dm mx : C → K) (d : C → Fin nf → K) (l : List ℕ) (hl : l.Pairwise (· ≤ ·))
    (g : GridExch C K nf) (c : C) :
    (gridLoop nl dm mx d l g).slice c =
      l.foldl (fun acc i => if nGt (dm c) (mx c) i then case2Step nl (mx c) (d c) i acc else acc)
        (g.slice c) := by
  induction l generalizing g with
  | nil => rfl
  | cons i is ih =>
    obtain ⟨hi, his⟩ := List.pairwise_cons.1 hl
    unfold gridLoop
    by_cases h : ∃ c, nGt (dm c) (mx c) i
    · rw [if_pos h, ih his, slice_step, List.foldl_cons]
    · rw [if_neg h, List.foldl_cons, if_neg (fun hc => h ⟨c, hc⟩)]
      have hno : ∀ j ∈ is, ¬ nGt (dm c) (mx c) j := fun j hj hc => h ⟨c, nGt_anti _ _ (hi j hj) hc⟩
      clear ih his hi hl
      generalize g.slice c = e
      induction is generalizing e with
      | nil => rfl
      | cons j js ih' =>
        rw [List.foldl_cons, if_neg (hno j (by simp))]
        exact ih' (fun j hj => hno j (by simp [hj])) e

theorem loop_dm (nl : ℕ) (dm mx : C → K) (d : C → Fin nf → K) (l : List ℕ) (g : GridExch C K nf) :
    (gridLoop nl dm mx d l g).dm = g.dm := by
  induction l generalizing g with
  | nil => rfl
  | cons i is ih =>
    unfold gridLoop
    split
    · rw [ih]; rfl
    · rfl

theorem slice_case2 (nl : ℕ) (g : GridExch C K nf) (c : C) (h0 : 0 ≤ ∑ f, g.m c 0 f) :
    (gridCase2 nl g).slice c = case2 nl (g.slice c) := by
  have hloop := slice_loop nl g.dm (fun c => ∑ f, g.m c 0 f) (fun c => normalize 0 (g.pickup c))
    (List.range nl) (List.pairwise_lt_range.imp (fun h => h.le)) g c
  have hdm := loop_dm nl g.dm (fun c => ∑ f, g.m c 0 f) (fun c => normalize 0 (g.pickup c))
    (List.range nl) g
  unfold gridCase2 case2
  dsimp only
  by_cases h : ∃ c, nGt (g.dm c) (∑ f, g.m c 0 f) 0
  · rw [if_pos h]
    have hs : (∑ f, (g.slice c).m 0 f) = ∑ f, g.m c 0 f := rfl
    have hd : (g.slice c).dm = g.dm c := rfl
    rw [hs, hd]
    have hp : (g.slice c).pickup = g.pickup c := rfl
    rw [hp]
    unfold GridExch.slice masked
    unfold GridExch.slice at hloop
    by_cases hc : nGt (g.dm c) (∑ f, g.m c 0 f) 0
    · rw [if_pos hc, ← hloop]
      dsimp only
      by_cases hx : (∑ f, g.m c 0 f) < g.dm c
      · have hex : ∃ c, (∑ f, g.m c 0 f) < g.dm c := ⟨c, hx⟩
        simp only [if_pos hx, if_pos hex]
      · simp only [if_neg hx]
        by_cases hex : ∃ c, (∑ f, g.m c 0 f) < g.dm c
        · simp only [if_pos hex, if_neg hx]
        · simp only [if_neg hex]
    · rw [if_neg hc]
      have hx : ¬ (∑ f, g.m c 0 f) < g.dm c := fun hx => hc (nGt_zero_of_lt _ _ h0 hx)
      have hno : ∀ i ∈ List.range nl, ¬ nGt (g.dm c) (∑ f, g.m c 0 f) i :=
        fun i _ hi => hc (nGt_anti _ _ (Nat.zero_le i) hi)
      have hid : ∀ (l : List ℕ) (e : Exch K nf), (∀ i ∈ l, ¬ nGt (g.dm c) (∑ f, g.m c 0 f) i) →
          l.foldl (fun acc i => if nGt (g.dm c) (∑ f, g.m c 0 f) i then
            case2Step nl (∑ f, g.m c 0 f) (normalize 0 (g.pickup c)) i acc else acc) e = e := by
        intro l
        induction l with
        | nil => intros; rfl
        | cons j js ih =>
          intro e he
          rw [List.foldl_cons, if_neg (he j (by simp))]
          exact ih e (fun i hi => he i (by simp [hi]))
      rw [hid _ _ hno] at hloop
      simp only [if_neg hx]
      have hm := congrArg Exch.m hloop
      have hpk := congrArg Exch.pickup hloop
      have hdd := congrFun hdm c
      dsimp only at hm hpk
      rw [hm, hdd]
      congr 1
      by_cases hex : ∃ c, (∑ f, g.m c 0 f) < g.dm c
      · rw [if_pos hex, if_neg hx, hpk]
      · rw [if_neg hex, hpk]
  · rw [if_neg h]
    have hc : ¬ nGt (g.slice c).dm (∑ f, (g.slice c).m 0 f) 0 := fun hc => h ⟨c, hc⟩
    rw [if_neg hc]

theorem gridAdd_apply (ix : C → Prop) [DecidablePred ix] (k : ℕ) (v : C → Fin nf → K)
    (m : C → Mass K nf) (c : C) :
    gridAdd ix k v m c = if ix c then addLayer (m c) k (v c) else m c := rfl

theorem arrange_apply (nl : ℕ) (ixEro ixDep : C → Prop) [DecidablePred ixEro] [DecidablePred ixDep]
    (dm : C → K) (d m : C → Mass K nf) (c : C) :
    gridArrange nl ixEro ixDep dm d m c =
      arrangeLayers nl (decide (ixEro c)) (decide (ixDep c)) (dm c) (d c) (m c) := by
  unfold gridArrange arrangeLayers
  dsimp only
  rw [gridAdd_apply]
  have hfold : ∀ (l : List ℕ) (m : C → Mass K nf),
      l.foldl (fun m i =>
        gridAdd ixDep i (fun c f => dm c * d c (i - 1) f)
          (gridAdd ixDep (i - 1) (fun c f => -(dm c * d c (i - 1) f))
            (gridAdd ixEro i (fun c f => dm c * d c i f)
              (gridAdd ixEro (i - 1) (fun c f => -(dm c * d c i f)) m)))) m c =
      l.foldl (arrangeStep (decide (ixEro c)) (decide (ixDep c)) (dm c) (d c)) (m c) := by
    intro l
    induction l with
    | nil => intro m; rfl
    | cons i is ih =>
      intro m
      rw [List.foldl_cons, ih, List.foldl_cons]
      congr 1
      unfold arrangeStep
      simp only [gridAdd_apply]
      by_cases h1 : ixEro c <;> by_cases h2 : ixDep c <;> simp [h1, h2]
  rw [hfold]
  by_cases h2 : ixDep c <;> simp [h2]

/-- Case 1 keeps the total of the top layer. -/
theorem case1_top (e : Exch K nf) (hdm : e.dm = exchMass e.pickup) :
    ∑ f, (case1 e).m 0 f = ∑ f, e.m 0 f := (case1_spec e hdm).total

theorem gridUpdate_apply (p : Params K nf) (src : C → Source K nf) (s : C → Cell K nf) (c : C)
    (h0 : 0 ≤ ∑ f, (s c).mass 0 f) :
    gridUpdate p src s c = update { p with source := src c } (s c) := by
  unfold gridUpdate update
  dsimp only
  have h1 := slice_case1 (⟨fun c => (s c).mass, fun c => exchMass (s c).pickup,
    fun c => (s c).pickup⟩ : GridExch C K nf) c
  have h2 := slice_case2 p.nl (gridCase1 (⟨fun c => (s c).mass, fun c => exchMass (s c).pickup,
    fun c => (s c).pickup⟩ : GridExch C K nf)) c (by
      have : (gridCase1 (⟨fun c => (s c).mass, fun c => exchMass (s c).pickup,
        fun c => (s c).pickup⟩ : GridExch C K nf)).m c =
          (case1 ⟨(s c).mass, exchMass (s c).pickup, (s c).pickup⟩).m := congrArg Exch.m h1
      rw [this, case1_top _ rfl]
      exact h0)
  rw [h1] at h2
  have h3 : (gridCase2 p.nl (gridCase1 (⟨fun c => (s c).mass, fun c => exchMass (s c).pickup,
    fun c => (s c).pickup⟩ : GridExch C K nf))).slice c =
      preventNegativeMass p.nl ⟨(s c).mass, exchMass (s c).pickup, (s c).pickup⟩ := h2
  have hm := congrArg Exch.m h3
  have hp := congrArg Exch.pickup h3
  have hd := congrArg Exch.dm h3
  simp only [GridExch.slice] at hm hp hd
  simp only [gridAdd_apply, arrange_apply, hm, hp, hd]
  by_cases he : exchMass (s c).pickup < 0
  · simp [he]
  · simp [he]

end Aeolis.Bed
