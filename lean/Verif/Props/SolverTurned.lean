import Verif.Props.SolverReversed

/-!
C159, continued: rows numbered from the other side.
-/

set_option linter.unusedSectionVars false

namespace Aeolis.Props

open Aeolis.Solver Finset

variable {K : Type*} [Field K] [LinearOrder K] [IsStrictOrderedRing K]

/-- The grid with the rows numbered from the other side: the velocities across the rows change sign. -/
def seenFromSide (a : Adv K) : Adv K :=
  { a with
    ds := fun i j => a.ds (a.ny - i) j, dn := fun i j => a.dn (a.ny - i) j, dsdni := fun i j => a.dsdni (a.ny - i) j
    us := fun i j => a.us (a.ny - i) j, un := fun i j => -a.un (a.ny - i) j }

/-- The other inputs with the rows numbered from the other side. -/
def inputsFromSide (ny : ℕ) (v : Rhs K) : Rhs K where
  w := fun i j => v.w (ny - i) j
  Cu := fun i j => v.Cu (ny - i) j
  Cuf := fun i j => v.Cuf (ny - i) j
  S := fun i j => v.S (ny - i) j
  lw := fun i j => v.lw (ny - i) j
  lCu := fun i j => v.lCu (ny - i) j
  lCuf := fun i j => v.lCuf (ny - i) j
  lCt := fun i j => v.lCt (ny - i) j
  offFlux := fun i => v.offFlux (ny - i)
  onFlux := fun i => v.onFlux (ny - i)
  offConst := fun i => v.offConst (ny - i)
  onConst := fun i => v.onConst (ny - i)

/-- The same velocity across the rows, and cells of the same shape, in all rows. -/
structure AlikeRows (a : Adv K) : Prop where
  un : ∀ i ≤ a.ny, ∀ j ≤ a.nx, a.un i j = a.un 0 j
  cells : ∀ i ≤ a.ny, ∀ j ≤ a.nx, a.ds i j * a.dsdni i j = a.ds 0 j * a.dsdni 0 j

/-- The conditions at the ends with the rows numbered from the other side. -/
def rowsTurned (ny : ℕ) (bc : BcRows K) : BcRows K :=
  ⟨fun i => bc.offP1 (ny - i), fun i => bc.offP2 (ny - i), fun i => bc.onM1 (ny - i), fun i => bc.onM2 (ny - i), bc.latUnit⟩

section Entries

variable {a : Adv K} {i j : ℕ}

theorem AlikeRows.facN (h : AlikeRows a) (hi : i ≤ a.ny) (hj : j ≤ a.nx) : a.facN i j = a.facN 0 j := by
  have := h.cells i hi j hj
  unfold Adv.facN
  linear_combination a.dt * this

/-- Direction across the rows, seen from the other side; where there is no wind it does not matter. -/
theorem ixn_fromSide (hβ : 1 ≤ |a.beta|) : (seenFromSide a).ixn i j * a.un (a.ny - i) j = (1 - a.ixn (a.ny - i) j) * a.un (a.ny - i) j := by
  unfold Adv.ixn
  change (if 1 ≤ |a.beta| then (if 0 ≤ -a.un (a.ny - i) j then (1 : K) else 0) else |a.beta|) * _ = _
  rw [if_pos hβ, if_pos hβ]
  rcases lt_trichotomy (a.un (a.ny - i) j) 0 with h | h | h
  · rw [if_pos (by linarith), if_neg (by linarith)]; ring
  · rw [h]; ring
  · rw [if_neg (by linarith), if_pos h.le]; ring

theorem sgn_fromSide (hβ : 1 ≤ |a.beta|) : (seenFromSide a).sgn i j * -a.un (a.ny - i) j = a.sgn (a.ny - i) j * a.un (a.ny - i) j := by
  have := ixn_fromSide (i := i) (j := j) hβ
  unfold Adv.sgn
  change (if 1 ≤ |a.beta| then _ else _) * _ = _
  rw [if_pos hβ, if_pos hβ]
  linear_combination -2 * this

theorem prev_fromSide {ny : ℕ} (hi : i ≤ ny) : ny - prevRow ny i = nextRow ny (ny - i) := by
  unfold prevRow nextRow
  split_ifs <;> omega

theorem next_fromSide {ny : ℕ} (hi : i ≤ ny) : ny - nextRow ny i = prevRow ny (ny - i) := by
  unfold prevRow nextRow
  split_ifs <;> omega

theorem prevRow_le {ny : ℕ} (hi : i ≤ ny) : prevRow ny i ≤ ny := by unfold prevRow; split_ifs <;> omega

theorem nextRow_le {ny : ℕ} (hi : i ≤ ny) : nextRow ny i ≤ ny := by unfold nextRow; split_ifs <;> omega

theorem unPlus_alike (h : AlikeRows a) (hi : i ≤ a.ny) (hj : j ≤ a.nx) : a.unPlus i j = a.un 0 j := by
  unfold Adv.unPlus
  split_ifs
  · rfl
  · exact h.un _ (by omega) _ hj

theorem unMin_alike (h : AlikeRows a) (hi : i ≤ a.ny) (hj : j ≤ a.nx) : a.unMin i j = a.un 0 j := by
  unfold Adv.unMin
  split_ifs
  · exact h.un _ le_rfl _ hj
  · exact h.un _ (by omega) _ hj

theorem AlikeRows.fromSide (h : AlikeRows a) : AlikeRows (seenFromSide a) where
  un := fun i _ j hj => by
    change -a.un (a.ny - i) j = -a.un (a.ny - 0) j
    rw [h.un _ (Nat.sub_le _ _) j hj, h.un (a.ny - 0) (Nat.sub_le _ _) j hj]
  cells := fun i _ j hj => by
    change a.ds (a.ny - i) j * a.dsdni (a.ny - i) j = a.ds (a.ny - 0) j * a.dsdni (a.ny - 0) j
    rw [h.cells _ (Nat.sub_le _ _) j hj, h.cells (a.ny - 0) (Nat.sub_le _ _) j hj]

theorem row_fromSide (hβ : 1 ≤ |a.beta|) (bc : BcRows K) (hl : bc.latUnit = false) (x : ℕ → ℕ → K) :
    rowPart (seenFromSide a) (rowsTurned a.ny bc) (fun i j => x (a.ny - i) j) i j = rowPart a bc x (a.ny - i) j := by
  have l1 : ¬ (seenFromSide a).latRow (rowsTurned a.ny bc) i := fun h => by have := h.1; rw [show (rowsTurned a.ny bc).latUnit = bc.latUnit from rfl, hl] at this; cases this
  have l2 : ¬ a.latRow bc (a.ny - i) := fun h => by have := h.1; rw [hl] at this; cases this
  unfold rowPart
  have h0 : (seenFromSide a).A0 (rowsTurned a.ny bc) i j = a.A0 bc (a.ny - i) j := by
    unfold Adv.A0
    rw [if_neg l1, if_neg l2]
    change (if j = 0 ∨ j = a.nx then (1 : K) else 1 + (a.sgs (a.ny - i) j * (a.facS (a.ny - i) j * a.us (a.ny - i) j) +
      (seenFromSide a).sgn i j * (a.facN (a.ny - i) j * -a.un (a.ny - i) j) + a.Ti) * a.alpha) = _
    have := sgn_fromSide (i := i) (j := j) hβ
    split_ifs
    · rfl
    · linear_combination a.facN (a.ny - i) j * a.alpha * this
  have h1 : (seenFromSide a).Am1 (rowsTurned a.ny bc) i j = a.Am1 bc (a.ny - i) j := by
    unfold Adv.Am1
    rw [if_neg l1, if_neg l2]
    rfl
  have h2 : (seenFromSide a).Ap1 (rowsTurned a.ny bc) i j = a.Ap1 bc (a.ny - i) j := by
    unfold Adv.Ap1
    rw [if_neg l1, if_neg l2]
    rfl
  rw [h0, h1, h2]
  rfl

theorem across_fromSide (h : AlikeRows a) (hβ : 1 ≤ |a.beta|) (bc : BcRows K) (hl : bc.latUnit = false) (x : ℕ → ℕ → K) (hi : i ≤ a.ny) (hj : j ≤ a.nx) :
    acrossPart (seenFromSide a) (rowsTurned a.ny bc) (fun i j => x (a.ny - i) j) i j = acrossPart a bc x (a.ny - i) j := by
  have l1 : ∀ i, ¬ (seenFromSide a).latRow (rowsTurned a.ny bc) i := fun i h => by
    have := h.1; rw [show (rowsTurned a.ny bc).latUnit = bc.latUnit from rfl, hl] at this; cases this
  have l2 : ∀ i, ¬ a.latRow bc i := fun i h => by have := h.1; rw [hl] at this; cases this
  have hs := h.fromSide
  have u0 : ∀ k ≤ a.ny, a.un k j = a.un 0 j := fun k hk => h.un k hk j hj
  -- the entries of either grid
  have m1 : ∀ k ≤ a.ny, a.Amx bc k j = if j = 0 ∨ j = a.nx then 0 else -(a.facN 0 j * a.un 0 j) * a.alpha * a.ixn 0 j := fun k hk => by
    unfold Adv.Amx
    rw [if_neg (l2 k), unPlus_alike h hk hj, h.facN hk hj]
    have : a.ixn k j = a.ixn 0 j := by unfold Adv.ixn; rw [u0 k hk]
    rw [this]
  have m2 : ∀ k ≤ a.ny, a.Apx bc k j = if j = 0 ∨ j = a.nx then 0 else a.facN 0 j * a.un 0 j * a.alpha * (1 - a.ixn 0 j) := fun k hk => by
    unfold Adv.Apx
    rw [if_neg (l2 k), unMin_alike h hk hj, h.facN hk hj]
    have : a.ixn k j = a.ixn 0 j := by unfold Adv.ixn; rw [u0 k hk]
    rw [this]
  have f0 : (seenFromSide a).facN 0 j = a.facN 0 j := h.facN (i := a.ny - 0) (Nat.sub_le _ _) hj
  have g0 : (seenFromSide a).un 0 j = -a.un 0 j := congrArg Neg.neg (u0 _ (Nat.sub_le _ _))
  have x0 : (seenFromSide a).ixn 0 j * a.un 0 j = (1 - a.ixn 0 j) * a.un 0 j := by
    have := ixn_fromSide (a := a) (i := 0) (j := j) hβ
    have e : a.ixn (a.ny - 0) j = a.ixn 0 j := by unfold Adv.ixn; rw [u0 _ (Nat.sub_le _ _)]
    rwa [u0 _ (Nat.sub_le _ _), e] at this
  have n1 : ∀ k ≤ a.ny, (seenFromSide a).Amx (rowsTurned a.ny bc) k j = if j = 0 ∨ j = a.nx then 0 else a.facN 0 j * a.un 0 j * a.alpha * (1 - a.ixn 0 j) :=
    fun k hk => by
    unfold Adv.Amx
    rw [if_neg (l1 k), unPlus_alike hs hk hj, hs.facN hk hj, f0, g0]
    have : (seenFromSide a).ixn k j = (seenFromSide a).ixn 0 j := by unfold Adv.ixn; rw [hs.un k hk j hj]
    rw [this]
    change (if j = 0 ∨ j = a.nx then (0 : K) else -(a.facN 0 j * -a.un 0 j) * a.alpha * (seenFromSide a).ixn 0 j) = _
    split_ifs
    · rfl
    · linear_combination a.facN 0 j * a.alpha * x0
  have n2 : ∀ k ≤ a.ny, (seenFromSide a).Apx (rowsTurned a.ny bc) k j = if j = 0 ∨ j = a.nx then 0 else -(a.facN 0 j * a.un 0 j) * a.alpha * a.ixn 0 j :=
    fun k hk => by
    unfold Adv.Apx
    rw [if_neg (l1 k), unMin_alike hs hk hj, hs.facN hk hj, f0, g0]
    have : (seenFromSide a).ixn k j = (seenFromSide a).ixn 0 j := by unfold Adv.ixn; rw [hs.un k hk j hj]
    rw [this]
    change (if j = 0 ∨ j = a.nx then (0 : K) else a.facN 0 j * -a.un 0 j * a.alpha * (1 - (seenFromSide a).ixn 0 j)) = _
    split_ifs
    · rfl
    · linear_combination a.facN 0 j * a.alpha * x0
  unfold acrossPart
  change (if 0 < a.ny then _ else _) = _
  split_ifs with hy
  · change (seenFromSide a).Amx (rowsTurned a.ny bc) i j * x (a.ny - prevRow a.ny i) j +
      (seenFromSide a).Apx (rowsTurned a.ny bc) (nextRow a.ny i) j * x (a.ny - nextRow a.ny i) j = _
    rw [n1 i hi, n2 _ (nextRow_le hi), m1 _ (Nat.sub_le _ _), m2 _ (nextRow_le (Nat.sub_le _ _)), prev_fromSide hi, next_fromSide hi]
    ring
  · rfl

theorem rhs_fromSide (h : AlikeRows a) (hβ : 1 ≤ |a.beta|) (b : Bounds) (v : Rhs K) (hi : i ≤ a.ny) (hj : j ≤ a.nx) :
    (seenFromSide a).rhs b (inputsFromSide a.ny v) i j = a.rhs b v (a.ny - i) j := by
  have hs := h.fromSide
  have hex : (seenFromSide a).yEx (inputsFromSide a.ny v) i j = a.yEx v (a.ny - i) j := by
    unfold Adv.yEx
    rw [unPlus_alike h (Nat.sub_le _ _) hj, unMin_alike h (Nat.sub_le _ _) hj, unPlus_alike hs hi hj, unMin_alike hs hi hj]
    have g0 : (seenFromSide a).un 0 j = -a.un 0 j := congrArg Neg.neg (h.un _ (Nat.sub_le _ _) j hj)
    have x0 := ixn_fromSide (a := a) (i := i) (j := j) hβ
    have s0 := sgn_fromSide (a := a) (i := i) (j := j) hβ
    rw [h.un _ (Nat.sub_le _ _) j hj] at x0 s0
    rw [g0, h.un (a.ny - i) (Nat.sub_le _ _) j hj]
    change (v.lw (a.ny - i) j * v.lCuf (a.ny - i) j * a.Ti) * (1 - v.S (a.ny - i) j) + (v.lw (a.ny - i) j * v.lCu (a.ny - i) j * a.Ti) * v.S (a.ny - i) j
      - (a.sgs (a.ny - i) j * (a.facS (a.ny - i) j * a.us (a.ny - i) j) + (seenFromSide a).sgn i j * (a.facN (a.ny - i) j * -a.un (a.ny - i) j) + a.Ti) *
        v.lCt (a.ny - i) j
      + a.ixs (a.ny - i) j * (a.facS (a.ny - i) j * a.usPlus (a.ny - i) j) * v.lCt (a.ny - i) (j - 1)
      - (1 - a.ixs (a.ny - i) j) * (a.facS (a.ny - i) j * a.usMin (a.ny - i) j) * v.lCt (a.ny - i) (j + 1)
      + (seenFromSide a).ixn i j * (a.facN (a.ny - i) j * -a.un 0 j) * v.lCt (a.ny - prevRow a.ny i) j
      - (1 - (seenFromSide a).ixn i j) * (a.facN (a.ny - i) j * -a.un 0 j) * v.lCt (a.ny - nextRow a.ny i) j = _
    rw [h.un _ (Nat.sub_le _ _) j hj, prev_fromSide hi, next_fromSide hi]
    linear_combination (-a.facN (a.ny - i) j * v.lCt (a.ny - i) j) * s0 - a.facN (a.ny - i) j * (v.lCt (nextRow a.ny (a.ny - i)) j + v.lCt (prevRow a.ny (a.ny - i)) j) * x0
  unfold Adv.rhs
  rw [hex]
  rfl

end Entries

theorem boundaries_rows {ny : ℕ} (b : Bounds) (qoff qon : ℕ → K) (bc : BcRows K) (hb : boundaries b qoff qon = .ok bc) :
    boundaries b (fun i => qoff (ny - i)) (fun i => qon (ny - i)) = .ok (rowsTurned ny bc) := by
  obtain ⟨off, on, lat⟩ := b
  have h1 : ∀ o, offshore off qoff = .ok o → offshore off (fun i => qoff (ny - i)) = .ok (fun i => o.1 (ny - i), fun i => o.2 (ny - i)) := by
    intro o ho
    unfold offshore at ho ⊢
    split_ifs at ho ⊢ <;> (obtain rfl := Except.ok.inj ho; rfl)
  have h2 : ∀ o, onshore off on qon = .ok o → onshore off on (fun i => qon (ny - i)) = .ok (fun i => o.1 (ny - i), fun i => o.2 (ny - i)) := by
    intro o ho
    unfold onshore at ho ⊢
    split_ifs at ho ⊢ <;> (obtain rfl := Except.ok.inj ho; rfl)
  unfold boundaries at hb ⊢
  dsimp only at hb ⊢
  cases ho : offshore off qoff with
  | error e => rw [ho] at hb; cases hb
  | ok o =>
    rw [ho] at hb
    cases hn : onshore off on qon with
    | error e => rw [hn] at hb; cases hb
    | ok n =>
      rw [hn] at hb
      rw [h1 o ho, h2 n hn]
      cases hl : lateral lat with
      | error e => rw [hl] at hb; cases hb
      | ok l =>
        rw [hl] at hb
        obtain rfl := Except.ok.inj hb
        rfl

/-- **C159** The same for the rows of a grid with circular lateral boundaries: numbered from the other side, with the velocities across the rows reversed,
the concentrations are the same, numbered from the other side. The velocity across the rows may differ between columns but not between rows (the code does
not treat the two directions alike otherwise, C51). -/
theorem C159_turned_rows (a : Adv K) (b : Bounds) (bc : BcRows K) (hn : 2 ≤ a.nx) (hny : a.ny ≠ 1) (hβ : 1 ≤ |a.beta|) (h : AlikeRows a)
    (hb : boundaries b a.offRatio a.onRatio = .ok bc) (hlat : b.lat = "circular") (v : Rhs K) (x : ℕ → ℕ → K) (hx : Solves a b bc v x) :
    ∃ bc', boundaries b (seenFromSide a).offRatio (seenFromSide a).onRatio = .ok bc' ∧
      Solves (seenFromSide a) b bc' (inputsFromSide a.ny v) fun i j => x (a.ny - i) j := by
  refine ⟨_, boundaries_rows (ny := a.ny) b _ _ bc hb, ?_⟩
  have hl : bc.latUnit = false := by
    unfold boundaries at hb
    rw [hlat] at hb
    split at hb
    · cases hb
    · split at hb
      · cases hb
      · simp only [lateral] at hb
        simp at hb
        rw [← hb]
  rw [solves_iff a b bc v x hn hny] at hx
  rw [solves_iff (seenFromSide a) _ _ _ _ hn hny]
  intro i hi j hj
  have hj : j ≤ a.nx := hj
  have hi : i ≤ a.ny := hi
  rw [row_fromSide hβ bc hl x, across_fromSide h hβ bc hl x hi hj, rhs_fromSide h hβ b v hi hj]
  exact hx _ (Nat.sub_le _ _) j hj

/-! ### Wind from any quarter -/

/-- Transport on a planar grid with rows alike: along the rows everywhere from the sea or everywhere from the land, across the rows everywhere to one side. -/
structure OneQuarter (a : Adv K) : Prop where
  nx : 2 ≤ a.nx
  ny : a.ny ≠ 1
  dt : 0 ≤ a.dt
  T : 0 ≤ a.T
  alpha : 0 ≤ a.alpha
  beta : 1 ≤ |a.beta|
  ds : ∀ i ≤ a.ny, ∀ j ≤ a.nx, 0 ≤ a.ds i j
  dn : ∀ i ≤ a.ny, ∀ j ≤ a.nx, 0 ≤ a.dn i j
  dsdni : ∀ i ≤ a.ny, ∀ j ≤ a.nx, 0 ≤ a.dsdni i j
  rows : AlikeRows a
  un : (∀ i ≤ a.ny, ∀ j ≤ a.nx, 0 ≤ a.un i j) ∨ (∀ i ≤ a.ny, ∀ j ≤ a.nx, a.un i j ≤ 0)

/-- The end the sand comes from has a given flux or concentration. -/
def FedUpwind (a : Adv K) (b : Bounds) : Prop :=
  ((∀ i ≤ a.ny, ∀ j ≤ a.nx, 0 ≤ a.us i j) ∧ (b.off = "flux" ∨ b.off = "constant")) ∨
  ((∀ i ≤ a.ny, ∀ j ≤ a.nx, a.us i j < 0) ∧ (b.on = "flux" ∨ b.on = "constant") ∧ b.off ≠ "noflux")

theorem oneQuarter_no_less (a : Adv K) (b : Bounds) (bc : BcRows K) (h : OneQuarter a) (hun : ∀ i ≤ a.ny, ∀ j ≤ a.nx, 0 ≤ a.un i j) (hα : a.alpha = 1)
    (hb : boundaries b a.offRatio a.onRatio = .ok bc) (hfed : FedUpwind a b) (v v' : Rhs K) (hv : NoLess a v v') (x x' : ℕ → ℕ → K)
    (hx : Solves a b bc v x) (hx' : Solves a b bc v' x') {i j : ℕ} (hi : i ≤ a.ny) (hj : j ≤ a.nx) (hfirst : 0 < j ∨ b.off ≠ "gradient")
    (hlast : j < a.nx ∨ b.on ≠ "gradient") : x i j ≤ x' i j := by
  have hw : ∀ j ≤ a.nx, a.un 0 j ≤ a.un a.ny j := fun j hj => (h.rows.un _ le_rfl j hj).ge
  rcases hfed with ⟨hu, ho⟩ | ⟨hu, ho, hnf⟩
  · exact C150_no_less a b _ _ bc ⟨h.nx, h.ny, h.dt, h.T, h.alpha, h.beta, h.ds, h.dn, h.dsdni, hu, fun _ => hun, fun _ => hw, fun _ => h.rows.cells⟩ hα hb
      (ho.imp id .inr) v v' hv x x' hx hx' hi hj (hlast.imp id .inl)
  · exact C159_offshore_no_less a b bc ⟨h.nx, h.ny, h.dt, h.T, h.alpha, h.beta, h.ds, h.dn, h.dsdni, hu, fun _ => hun, fun _ => hw, fun _ => h.rows.cells⟩ hα
      hb ho hnf v v' hv x x' hx hx' hi hj hfirst

/-- **C159** With wind from any quarter, more capacity, more sand in the air before the step or more sand coming in at the ends never means less sand in
the air; only extrapolated ends are exempt. -/
theorem C159_any_quarter_no_less (a : Adv K) (b : Bounds) (bc : BcRows K) (h : OneQuarter a) (hα : a.alpha = 1)
    (hb : boundaries b a.offRatio a.onRatio = .ok bc) (hlat : b.lat = "circular") (hfed : FedUpwind a b) (v v' : Rhs K) (hv : NoLess a v v')
    (x x' : ℕ → ℕ → K) (hx : Solves a b bc v x) (hx' : Solves a b bc v' x') {i j : ℕ} (hi : i ≤ a.ny) (hj : j ≤ a.nx)
    (hfirst : 0 < j ∨ b.off ≠ "gradient") (hlast : j < a.nx ∨ b.on ≠ "gradient") : x i j ≤ x' i j := by
  rcases h.un with hun | hun
  · exact oneQuarter_no_less a b bc h hun hα hb hfed v v' hv x x' hx hx' hi hj hfirst hlast
  · obtain ⟨bc', hb', hs⟩ := C159_turned_rows a b bc h.nx h.ny h.beta h.rows hb hlat v x hx
    obtain ⟨bc'', hb'', hs'⟩ := C159_turned_rows a b bc h.nx h.ny h.beta h.rows hb hlat v' x' hx'
    obtain rfl : bc' = bc'' := Except.ok.inj (hb'.symm.trans hb'')
    have hun' : ∀ i ≤ a.ny, ∀ j ≤ a.nx, 0 ≤ (seenFromSide a).un i j := fun i _ j hj => neg_nonneg.mpr (hun _ (Nat.sub_le _ _) j hj)
    have := oneQuarter_no_less (seenFromSide a) b bc'
      ⟨h.nx, h.ny, h.dt, h.T, h.alpha, h.beta, fun i _ j hj => h.ds _ (Nat.sub_le _ _) j hj, fun i _ j hj => h.dn _ (Nat.sub_le _ _) j hj,
        fun i _ j hj => h.dsdni _ (Nat.sub_le _ _) j hj, h.rows.fromSide, .inl hun'⟩ hun' hα hb'
      (hfed.imp (fun q => ⟨fun i _ j hj => q.1 _ (Nat.sub_le _ _) j hj, q.2⟩) fun q => ⟨fun i _ j hj => q.1 _ (Nat.sub_le _ _) j hj, q.2⟩)
      (inputsFromSide a.ny v) (inputsFromSide a.ny v')
      ⟨fun i _ j hj => hv.air _ (Nat.sub_le _ _) j hj, fun i _ j hj => hv.capacity _ (Nat.sub_le _ _) j hj, fun i _ => hv.offFlux _ (Nat.sub_le _ _),
        fun i _ => hv.onFlux _ (Nat.sub_le _ _), fun i _ => hv.offConst _ (Nat.sub_le _ _), fun i _ => hv.onConst _ (Nat.sub_le _ _)⟩
      _ _ hs hs' (i := a.ny - i) (j := j) (Nat.sub_le _ _) hj hfirst hlast
    rwa [Nat.sub_sub_self hi] at this

/-- **C159** With wind from any quarter the concentrations are nowhere negative, extrapolated ends excepted. -/
theorem C159_any_quarter_nonneg (a : Adv K) (b : Bounds) (bc : BcRows K) (h : OneQuarter a) (hα : a.alpha = 1)
    (hb : boundaries b a.offRatio a.onRatio = .ok bc) (hlat : b.lat = "circular") (hfed : FedUpwind a b) (v : Rhs K)
    (hcap : ∀ i ≤ a.ny, ∀ j ≤ a.nx, 0 ≤ weightedCapacity v i j) (hair : ∀ i ≤ a.ny, ∀ j ≤ a.nx, 0 ≤ v.lCt i j)
    (hends : ∀ i ≤ a.ny, 0 ≤ v.offFlux i ∧ 0 ≤ v.onFlux i ∧ 0 ≤ v.offConst i ∧ 0 ≤ v.onConst i) (x : ℕ → ℕ → K) (hx : Solves a b bc v x)
    {i j : ℕ} (hi : i ≤ a.ny) (hj : j ≤ a.nx) (hfirst : 0 < j ∨ b.off ≠ "gradient") (hlast : j < a.nx ∨ b.on ≠ "gradient") : 0 ≤ x i j := by
  let z : Rhs K := ⟨0, 0, 0, 0, 0, 0, 0, 0, 0, 0, 0, 0⟩
  have hz : Solves a b bc z 0 := by
    refine ⟨_, matrix_ok a bc h.nx h.ny, ?_⟩
    funext c
    unfold Adv.rhs Adv.yIm Adv.yEx
    simp [z, Matrix.mulVec, dotProduct]
  exact C159_any_quarter_no_less a b bc h hα hb hlat hfed z v
    ⟨hair, fun i hi j hj => by simpa [z, weightedCapacity] using hcap i hi j hj, fun i hi => (hends i hi).1, fun i hi => (hends i hi).2.1,
      fun i hi => (hends i hi).2.2.1, fun i hi => (hends i hi).2.2.2⟩ 0 x hz hx hi hj hfirst hlast

/-- **C159** With wind from any quarter the equation has exactly one solution. -/
theorem C159_any_quarter_unique (a : Adv K) (b : Bounds) (bc : BcRows K) (h : OneQuarter a) (hα : a.alpha = 1)
    (hb : boundaries b a.offRatio a.onRatio = .ok bc) (hlat : b.lat = "circular") (hfed : FedUpwind a b) (hoff : b.off ≠ "gradient")
    (hon : b.on ≠ "gradient") : ∃ A, a.matrix bc = .ok A ∧ ∀ y, ∃! X, A.mulVec X = y := by
  have hA := matrix_ok a bc h.nx h.ny
  refine ⟨_, hA, ?_⟩
  set A : Matrix (Fin ((a.ny + 1) * (a.nx + 1))) (Fin ((a.ny + 1) * (a.nx + 1))) K := fun r c => diagsEntry (a.diagonals bc) r c with hAdef
  have hinj : Function.Injective A.mulVec := by
    intro X Y hXY
    have h0 : A.mulVec (X - Y) = 0 := by rw [Matrix.mulVec_sub]; exact sub_eq_zero.mpr hXY
    let z : Rhs K := ⟨0, 0, 0, 0, 0, 0, 0, 0, 0, 0, 0, 0⟩
    let x : ℕ → ℕ → K := fun i j => if hc : i * (a.nx + 1) + j < (a.ny + 1) * (a.nx + 1) then (X - Y) ⟨i * (a.nx + 1) + j, hc⟩ else 0
    have hx : ∀ c : Fin ((a.ny + 1) * (a.nx + 1)), x ((c : ℕ) / (a.nx + 1)) ((c : ℕ) % (a.nx + 1)) = (X - Y) c := fun c => by
      have e : (c : ℕ) / (a.nx + 1) * (a.nx + 1) + (c : ℕ) % (a.nx + 1) = c := Nat.div_add_mod' _ _
      simp only [x, e, c.2, dif_pos]
    have hs : Solves a b bc z x := by
      refine ⟨A, hA, ?_⟩
      rw [show (fun c : Fin ((a.ny + 1) * (a.nx + 1)) => x ((c : ℕ) / (a.nx + 1)) ((c : ℕ) % (a.nx + 1))) = X - Y from funext hx, h0]
      funext c
      unfold Adv.rhs Adv.yIm Adv.yEx
      simp [z]
    have hz : Solves a b bc z 0 := by
      refine ⟨_, hA, ?_⟩
      funext c
      unfold Adv.rhs Adv.yIm Adv.yEx
      simp [z, Matrix.mulVec, dotProduct]
    have r : NoLess a z z := ⟨fun _ _ _ _ => le_rfl, fun _ _ _ _ => le_rfl, fun _ _ => le_rfl, fun _ _ => le_rfl, fun _ _ => le_rfl, fun _ _ => le_rfl⟩
    funext c
    have hi : (c : ℕ) / (a.nx + 1) ≤ a.ny := Nat.lt_succ_iff.mp ((Nat.div_lt_iff_lt_mul (Nat.succ_pos _)).mpr c.2)
    have hj : (c : ℕ) % (a.nx + 1) ≤ a.nx := Nat.lt_succ_iff.mp (Nat.mod_lt _ (Nat.succ_pos _))
    refine sub_eq_zero.mp ?_
    change (X - Y) c = 0
    rw [← hx c]
    exact le_antisymm (C159_any_quarter_no_less a b bc h hα hb hlat hfed z z r x 0 hs hz hi hj (.inr hoff) (.inr hon))
      (C159_any_quarter_no_less a b bc h hα hb hlat hfed z z r 0 x hz hs hi hj (.inr hoff) (.inr hon))
  have hu := Matrix.mulVec_injective_iff_isUnit.mp hinj
  have hsur := Matrix.mulVec_surjective_iff_isUnit.mpr hu
  intro y
  obtain ⟨X, hX⟩ := hsur y
  exact ⟨X, hX, fun Y hY => hinj (hY.trans hX.symm)⟩

/-- Wind from the land and towards lower rows on a grid of three by four cells. -/
def fromTheLandDown : Adv ℚ := ⟨3, 2, 60, 1, 1, 1, fun _ _ => 1, fun _ _ => 1, fun _ _ => 1, fun _ _ => -1 / 60, fun _ j => -(j : ℚ)⟩

theorem fromTheLandDown_quarter : OneQuarter fromTheLandDown := by
  refine ⟨by decide, by decide, by norm_num [fromTheLandDown], by norm_num [fromTheLandDown], by norm_num [fromTheLandDown], by norm_num [fromTheLandDown],
    fun _ _ _ _ => by norm_num [fromTheLandDown], fun _ _ _ _ => by norm_num [fromTheLandDown], fun _ _ _ _ => by norm_num [fromTheLandDown],
    ⟨fun _ _ _ _ => rfl, fun _ _ _ _ => rfl⟩, .inr fun _ _ j _ => ?_⟩
  exact neg_nonpos.mpr (Nat.cast_nonneg j)

theorem fromTheLandDown_fed : FedUpwind fromTheLandDown ⟨"uniform", "constant", "circular"⟩ :=
  .inr ⟨fun _ _ _ _ => by norm_num [fromTheLandDown], .inr rfl, by decide⟩

example (x : ℕ → ℕ → ℚ) (hx : Solver.Solves fromTheLandDown ⟨"uniform", "constant", "circular"⟩ ⟨fun _ => -1, fun _ => 0, fun _ => 0, fun _ => 0, false⟩
    landValues x) : 0 ≤ x 1 2 :=
  C159_any_quarter_nonneg fromTheLandDown _ _ fromTheLandDown_quarter rfl rfl rfl fromTheLandDown_fed landValues
    (fun _ _ _ _ => by norm_num [weightedCapacity, landValues]) (fun _ _ _ _ => le_rfl) (fun _ _ => by norm_num [landValues]) x hx
    (by simp [fromTheLandDown]) (by simp [fromTheLandDown]) (.inl two_pos) (.inr (by decide))

example : ∃ A, fromTheLandDown.matrix ⟨fun _ => -1, fun _ => 0, fun _ => 0, fun _ => 0, false⟩ = .ok A ∧ ∀ y, ∃! X, A.mulVec X = y :=
  C159_any_quarter_unique fromTheLandDown ⟨"uniform", "constant", "circular"⟩ _ fromTheLandDown_quarter rfl rfl rfl fromTheLandDown_fed (by decide)
    (by decide)

example (x : ℕ → ℕ → ℚ) (hx : Solver.Solves fromTheLandDown ⟨"uniform", "constant", "circular"⟩ ⟨fun _ => -1, fun _ => 0, fun _ => 0, fun _ => 0, false⟩
    landValues x) : ∃ bc', boundaries ⟨"uniform", "constant", "circular"⟩ (seenFromSide fromTheLandDown).offRatio (seenFromSide fromTheLandDown).onRatio =
      .ok bc' ∧ Solver.Solves (seenFromSide fromTheLandDown) ⟨"uniform", "constant", "circular"⟩ bc' (inputsFromSide 2 landValues) fun i j => x (2 - i) j :=
  C159_turned_rows fromTheLandDown ⟨"uniform", "constant", "circular"⟩ _ (by decide) (by decide) (by norm_num [fromTheLandDown])
    fromTheLandDown_quarter.rows rfl rfl landValues x hx

end Aeolis.Props
