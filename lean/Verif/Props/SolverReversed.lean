import Verif.Props.SolverOrder
import Verif.Props.SolverSystem

/-!
C159: transport with the wind from the other side is the same transport on a grid numbered from the other side.
-/

set_option linter.unusedSectionVars false

namespace Aeolis.Props

open Aeolis.Solver Finset

variable {K : Type*} [Field K] [LinearOrder K] [IsStrictOrderedRing K]

/-- The grid with the columns numbered from the other side: the velocities along the rows change sign. -/
def seenFromLand (a : Adv K) : Adv K :=
  { a with
    ds := fun i j => a.ds i (a.nx - j), dn := fun i j => a.dn i (a.nx - j), dsdni := fun i j => a.dsdni i (a.nx - j)
    us := fun i j => -a.us i (a.nx - j), un := fun i j => a.un i (a.nx - j) }

/-- The other inputs with the columns numbered from the other side. -/
def inputsFromLand (nx : ℕ) (v : Rhs K) : Rhs K where
  w := fun i j => v.w i (nx - j)
  Cu := fun i j => v.Cu i (nx - j)
  Cuf := fun i j => v.Cuf i (nx - j)
  S := fun i j => v.S i (nx - j)
  lw := fun i j => v.lw i (nx - j)
  lCu := fun i j => v.lCu i (nx - j)
  lCuf := fun i j => v.lCuf i (nx - j)
  lCt := fun i j => v.lCt i (nx - j)
  offFlux := v.onFlux
  onFlux := v.offFlux
  offConst := v.onConst
  onConst := v.offConst

/-- The conditions at the ends exchanged. -/
def endsSwapped (bc : BcRows K) : BcRows K := ⟨bc.onM1, bc.onM2, bc.offP1, bc.offP2, bc.latUnit⟩

section Entries

variable {a : Adv K} {i j : ℕ}

theorem ixs_fromLand (hβ : 1 ≤ |a.beta|) (hj : j ≤ a.nx) (hu : a.us i (a.nx - j) ≠ 0) : (seenFromLand a).ixs i j = 1 - a.ixs i (a.nx - j) := by
  unfold Adv.ixs
  change (if 1 ≤ |a.beta| then (if 0 ≤ -a.us i (a.nx - j) then (1 : K) else 0) else |a.beta|) = _
  rw [if_pos hβ, if_pos hβ]
  rcases lt_or_gt_of_ne hu with h | h
  · rw [if_pos (by linarith), if_neg (by linarith)]; ring
  · rw [if_neg (by linarith), if_pos h.le]; ring

theorem sgs_fromLand (hβ : 1 ≤ |a.beta|) (hj : j ≤ a.nx) (hu : a.us i (a.nx - j) ≠ 0) : (seenFromLand a).sgs i j = -a.sgs i (a.nx - j) := by
  unfold Adv.sgs
  rw [ixs_fromLand hβ hj hu]
  change (if 1 ≤ |a.beta| then _ else _) = _
  rw [if_pos hβ, if_pos hβ]
  ring

theorem usPlus_fromLand (h1 : 1 ≤ j) (h2 : j < a.nx) : (seenFromLand a).usPlus i j = -a.usMin i (a.nx - j) := by
  unfold Adv.usPlus Adv.usMin
  rw [if_neg (by omega), if_neg (by omega)]
  change -a.us i (a.nx - (j - 1)) = _
  congr 2
  omega

theorem usMin_fromLand (h1 : 1 ≤ j) (h2 : j < a.nx) : (seenFromLand a).usMin i j = -a.usPlus i (a.nx - j) := by
  unfold Adv.usPlus Adv.usMin
  rw [if_neg (by omega : ¬ a.nx - j = 0)]
  change (if j = a.nx then _ else _) = _
  rw [if_neg (by omega)]
  change -a.us i (a.nx - (j + 1)) = _
  congr 2

theorem row_fromLand (hβ : 1 ≤ |a.beta|) (bc : BcRows K) (hn : 2 ≤ a.nx) (hu : ∀ i ≤ a.ny, ∀ j, 1 ≤ j → j < a.nx → a.us i j ≠ 0) (x : ℕ → ℕ → K) (hi : i ≤ a.ny)
    (hj : j ≤ a.nx) : rowPart (seenFromLand a) (endsSwapped bc) (fun i j => x i (a.nx - j)) i j = rowPart a bc x i (a.nx - j) := by
  unfold rowPart
  have hlat : (seenFromLand a).latRow (endsSwapped bc) i ↔ a.latRow bc i := Iff.rfl
  have o1 : ∀ k, (endsSwapped bc).offP1 k = bc.onM1 k := fun _ => rfl
  have o2 : ∀ k, (endsSwapped bc).offP2 k = bc.onM2 k := fun _ => rfl
  have o3 : ∀ k, (endsSwapped bc).onM1 k = bc.offP1 k := fun _ => rfl
  have o4 : ∀ k, (endsSwapped bc).onM2 k = bc.offP2 k := fun _ => rfl
  rcases Nat.eq_zero_or_pos j with rfl | h1
  · have hz : a.nx ≠ 0 := by omega
    have hz' : (seenFromLand a).nx ≠ 0 := hz
    simp only [Adv.A0, Adv.Am1, Adv.Ap1, Adv.Am2, Adv.Ap2, hlat, o1, o2, Nat.sub_zero, hz, hz'.symm, hz.symm, if_true, if_false, true_or,
      or_true, zero_add]
    split_ifs <;> ring
  · rcases Nat.lt_or_ge j a.nx with h2 | h2
    · have e0 : ¬ (j = 0 ∨ j = a.nx) := by omega
      have e0' : ¬ (a.nx - j = 0 ∨ a.nx - j = a.nx) := by omega
      have e1 : j ≠ 0 := by omega
      have e2 : j ≠ a.nx := by omega
      have e2' : j ≠ (seenFromLand a).nx := e2
      have e3 : a.nx - j ≠ 0 := by omega
      have e4 : a.nx - j ≠ a.nx := by omega
      have e5 : a.nx - (j - 1) = a.nx - j + 1 := by omega
      have e6 : a.nx - (j + 1) = a.nx - j - 1 := by omega
      have e7 : a.nx - j < a.nx := by omega
      have hne := hu i hi (a.nx - j) (by omega) e7
      simp only [Adv.A0, Adv.Am1, Adv.Ap1, Adv.Am2, Adv.Ap2, hlat, e1, e2, e2', e3, e4, e5, e6, if_false, or_self,
        sgs_fromLand hβ hj hne, ixs_fromLand hβ hj hne, usPlus_fromLand h1 h2, usMin_fromLand h1 h2]
      change (if a.latRow bc i then (1 : K) else 1 + (-a.sgs i (a.nx - j) * (a.facS i (a.nx - j) * -a.us i (a.nx - j)) +
          a.sgn i (a.nx - j) * (a.facN i (a.nx - j) * a.un i (a.nx - j)) + a.Ti) * a.alpha) * _ +
        (if a.latRow bc i then (0 : K) else -(a.facS i (a.nx - j) * -a.usMin i (a.nx - j)) * a.alpha * (1 - a.ixs i (a.nx - j))) * _ +
        (if a.latRow bc i then (0 : K) else a.facS i (a.nx - j) * -a.usPlus i (a.nx - j) * a.alpha * (1 - (1 - a.ixs i (a.nx - j)))) * _ +
        0 * _ + 0 * _ = _
      split_ifs <;> ring
    · obtain rfl : j = a.nx := le_antisymm hj h2
      have hz : a.nx ≠ 0 := by omega
      have hz' : a.nx = (seenFromLand a).nx := rfl
      have e1 : a.nx - (a.nx - 2) = 2 := by omega
      have e2 : a.nx - (a.nx - 1) = 1 := by omega
      simp only [Adv.A0, Adv.Am1, Adv.Ap1, Adv.Am2, Adv.Ap2, hlat, o3, o4, Nat.sub_self, hz, ← hz', hz.symm, if_true, if_false, true_or,
        or_true, zero_add, e1, e2]
      split_ifs <;> ring

theorem across_fromLand (bc : BcRows K) (x : ℕ → ℕ → K) (hj : j ≤ a.nx) :
    acrossPart (seenFromLand a) (endsSwapped bc) (fun i j => x i (a.nx - j)) i j = acrossPart a bc x i (a.nx - j) := by
  have he : (j = 0 ∨ j = a.nx) ↔ (a.nx - j = 0 ∨ a.nx - j = a.nx) := by omega
  have h1 : ∀ k, (seenFromLand a).Amx (endsSwapped bc) k j = a.Amx bc k (a.nx - j) := fun k => by
    unfold Adv.Amx
    rw [← if_congr he rfl rfl]
    rfl
  have h2 : ∀ k, (seenFromLand a).Apx (endsSwapped bc) k j = a.Apx bc k (a.nx - j) := fun k => by
    unfold Adv.Apx
    rw [← if_congr he rfl rfl]
    rfl
  unfold acrossPart
  simp only [h1, h2]
  rfl

theorem rhs_fromLand (hβ : 1 ≤ |a.beta|) (b : Bounds) (hn : 2 ≤ a.nx) (hu : ∀ i ≤ a.ny, ∀ j, 1 ≤ j → j < a.nx → a.us i j ≠ 0) (v : Rhs K) (hi : i ≤ a.ny) (hj : j ≤ a.nx) :
    (seenFromLand a).rhs ⟨b.on, b.off, b.lat⟩ (inputsFromLand a.nx v) i j = a.rhs b v i (a.nx - j) := by
  rcases Nat.eq_zero_or_pos j with rfl | h1
  · have hz : a.nx ≠ 0 := by omega
    have hz' : ¬ 0 = (seenFromLand a).nx := fun h => hz h.symm
    unfold Adv.rhs
    simp only [Nat.sub_zero, hz, hz', and_true, and_false, if_false, inputsFromLand, lt_self_iff_false, nonpos_iff_eq_zero, one_ne_zero, false_and]
  · rcases Nat.lt_or_ge j a.nx with h2 | h2
    · have e1 : j ≠ 0 := by omega
      have e2 : j ≠ a.nx := by omega
      have e2' : j ≠ (seenFromLand a).nx := e2
      have e3 : a.nx - j ≠ 0 := by omega
      have e4 : a.nx - j ≠ a.nx := by omega
      have e7 : a.nx - j < a.nx := by omega
      have hne := hu i hi (a.nx - j) (by omega) e7
      have hin : 1 ≤ j ∧ j < (seenFromLand a).nx := ⟨h1, h2⟩
      have hin' : 1 ≤ a.nx - j ∧ a.nx - j < a.nx := ⟨by omega, e7⟩
      have e5 : a.nx - (j - 1) = a.nx - j + 1 := by omega
      have e6 : a.nx - (j + 1) = a.nx - j - 1 := by omega
      have hex : (seenFromLand a).yEx (inputsFromLand a.nx v) i j = a.yEx v i (a.nx - j) := by
        unfold Adv.yEx
        rw [sgs_fromLand hβ hj hne, ixs_fromLand hβ hj hne, usPlus_fromLand h1 h2, usMin_fromLand h1 h2]
        change (v.lw i (a.nx - j) * v.lCuf i (a.nx - j) * a.Ti) * (1 - v.S i (a.nx - j)) + (v.lw i (a.nx - j) * v.lCu i (a.nx - j) * a.Ti) * v.S i (a.nx - j)
          - (-a.sgs i (a.nx - j) * (a.facS i (a.nx - j) * -a.us i (a.nx - j)) + a.sgn i (a.nx - j) * (a.facN i (a.nx - j) * a.un i (a.nx - j)) + a.Ti) *
            v.lCt i (a.nx - j)
          + (1 - a.ixs i (a.nx - j)) * (a.facS i (a.nx - j) * -a.usMin i (a.nx - j)) * v.lCt i (a.nx - (j - 1))
          - (1 - (1 - a.ixs i (a.nx - j))) * (a.facS i (a.nx - j) * -a.usPlus i (a.nx - j)) * v.lCt i (a.nx - (j + 1))
          + a.ixn i (a.nx - j) * (a.facN i (a.nx - j) * a.unPlus i (a.nx - j)) * v.lCt (prevRow a.ny i) (a.nx - j)
          - (1 - a.ixn i (a.nx - j)) * (a.facN i (a.nx - j) * a.unMin i (a.nx - j)) * v.lCt (nextRow a.ny i) (a.nx - j) = _
        rw [e5, e6]
        ring
      unfold Adv.rhs
      simp only [e1, e2', e3, e4, and_false, if_false, if_pos hin, if_pos hin', hex]
      rfl
    · obtain rfl : j = a.nx := le_antisymm hj h2
      have hz : a.nx ≠ 0 := by omega
      have hz' : a.nx = (seenFromLand a).nx := rfl
      unfold Adv.rhs
      simp only [Nat.sub_self, hz, hz.symm, ← hz', and_true, and_false, if_false, inputsFromLand, lt_self_iff_false, nonpos_iff_eq_zero, one_ne_zero,
        false_and]

end Entries

/-- The conditions at the ends, exchanged. -/
theorem boundaries_fromLand (b : Bounds) (qoff qon : ℕ → K) (bc : BcRows K) (hb : boundaries b qoff qon = .ok bc) (hoff : b.off ≠ "noflux") :
    boundaries ⟨b.on, b.off, b.lat⟩ qon qoff = .ok (endsSwapped bc) := by
  obtain ⟨off, on, lat⟩ := b
  have hoff : off ≠ "noflux" := hoff
  have h1 : ∀ o, offshore off qoff = .ok o → onshore on off qoff = .ok o ∨ on = "noflux" := by
    intro o ho
    unfold offshore at ho
    unfold onshore
    by_cases hnf : on = "noflux"
    · exact .inr hnf
    · left
      simp only [hoff, hnf, or_false] at ho ⊢
      by_cases c : off = "circular"
      · subst c
        simp at ho
      · split_ifs at ho ⊢ <;> first | exact ho | cases ho
  have h2 : ∀ n, onshore off on qon = .ok n → offshore on qon = .ok n ∧ on ≠ "noflux" := by
    intro n hn
    unfold onshore at hn
    unfold offshore
    simp only [hoff, or_false] at hn
    have : on ≠ "noflux" := by
      rintro rfl
      simp only [String.reduceEq, if_false] at hn
      split_ifs at hn
    simp only [this, or_false]
    refine ⟨?_, fun h => this h⟩
    split_ifs at hn ⊢ <;> first | exact hn | cases hn
  unfold boundaries at hb ⊢
  dsimp only at hb ⊢
  cases ho : offshore off qoff with
  | error e => rw [ho] at hb; cases hb
  | ok o =>
    rw [ho] at hb
    cases hn : onshore off on qon with
    | error e => rw [hn] at hb; cases hb
    | ok n =>
      rw [hn] at hb
      obtain ⟨g1, g2⟩ := h2 n hn
      rw [g1, (h1 o ho).resolve_right g2]
      cases hl : lateral lat with
      | error e => rw [hl] at hb; cases hb
      | ok l =>
        rw [hl] at hb
        obtain rfl := Except.ok.inj hb
        rfl

/-- **C159** Sand blown from the land to the sea is sand blown from the sea to the land, seen from the other side: with the columns numbered from the other
side, the velocities along the rows reversed and the conditions at the two ends exchanged, the concentrations are the same, numbered from the other side.
Any implicitness, upwind scheme; the velocity is not zero inside the grid. -/
theorem C159_reversed (a : Adv K) (b : Bounds) (bc : BcRows K) (hn : 2 ≤ a.nx) (hny : a.ny ≠ 1) (hβ : 1 ≤ |a.beta|)
    (hu : ∀ i ≤ a.ny, ∀ j, 1 ≤ j → j < a.nx → a.us i j ≠ 0) (hb : boundaries b a.offRatio a.onRatio = .ok bc) (hoff : b.off ≠ "noflux") (v : Rhs K)
    (x : ℕ → ℕ → K) (hx : Solves a b bc v x) :
    ∃ bc', boundaries ⟨b.on, b.off, b.lat⟩ (seenFromLand a).offRatio (seenFromLand a).onRatio = .ok bc' ∧
      Solves (seenFromLand a) ⟨b.on, b.off, b.lat⟩ bc' (inputsFromLand a.nx v) fun i j => x i (a.nx - j) := by
  have e1 : (seenFromLand a).offRatio = a.onRatio := rfl
  have e2 : (seenFromLand a).onRatio = a.offRatio := by
    funext i
    change a.ds i (a.nx - (a.nx - 1)) / a.ds i (a.nx - (a.nx - 2)) = a.ds i 1 / a.ds i 2
    congr 2 <;> omega
  rw [e1, e2]
  refine ⟨_, boundaries_fromLand b _ _ bc hb hoff, ?_⟩
  rw [solves_iff a b bc v x hn hny] at hx
  rw [solves_iff (seenFromLand a) _ _ _ _ hn hny]
  intro i hi j hj
  have hj : j ≤ a.nx := hj
  have hi : i ≤ a.ny := hi
  rw [row_fromLand hβ bc hn hu x hi hj, across_fromLand bc x hj, rhs_fromLand hβ b hn hu v hi hj]
  exact hx i hi _ (Nat.sub_le _ _)

/-! ### Wind from the land on planar grids -/

/-- Transport from the land to the sea on a grid with as much or more transport along the shore out of the last row as in the first (the mirror image of
`Onshore`). -/
structure Offshore (a : Adv K) : Prop where
  nx : 2 ≤ a.nx
  ny : a.ny ≠ 1
  dt : 0 ≤ a.dt
  T : 0 ≤ a.T
  alpha : 0 ≤ a.alpha
  beta : 1 ≤ |a.beta|
  ds : ∀ i ≤ a.ny, ∀ j ≤ a.nx, 0 ≤ a.ds i j
  dn : ∀ i ≤ a.ny, ∀ j ≤ a.nx, 0 ≤ a.dn i j
  dsdni : ∀ i ≤ a.ny, ∀ j ≤ a.nx, 0 ≤ a.dsdni i j
  us : ∀ i ≤ a.ny, ∀ j ≤ a.nx, a.us i j < 0
  un : 0 < a.ny → ∀ i ≤ a.ny, ∀ j ≤ a.nx, 0 ≤ a.un i j
  wrap : 0 < a.ny → ∀ j ≤ a.nx, a.un 0 j ≤ a.un a.ny j
  cells : 0 < a.ny → ∀ i ≤ a.ny, ∀ j ≤ a.nx, a.ds i j * a.dsdni i j = a.ds 0 j * a.dsdni 0 j

theorem Offshore.fromLand {a : Adv K} (h : Offshore a) : Onshore (seenFromLand a) where
  nx := h.nx
  ny := h.ny
  dt := h.dt
  T := h.T
  alpha := h.alpha
  beta := h.beta
  ds := fun i hi j _ => h.ds i hi _ (Nat.sub_le _ _)
  dn := fun i hi j _ => h.dn i hi _ (Nat.sub_le _ _)
  dsdni := fun i hi j _ => h.dsdni i hi _ (Nat.sub_le _ _)
  us := fun i hi j _ => neg_nonneg.mpr (h.us i hi _ (Nat.sub_le _ _)).le
  un := fun hy i hi j _ => h.un hy i hi _ (Nat.sub_le _ _)
  wrap := fun hy j _ => h.wrap hy _ (Nat.sub_le _ _)
  cells := fun hy i hi j _ => h.cells hy i hi _ (Nat.sub_le _ _)

/-- **C159** With wind from the land and a given concentration at the landward end the system of a planar grid has exactly one solution. -/
theorem C159_offshore_unique (a : Adv K) (b : Bounds) (bc : BcRows K) (h : Offshore a) (hb : boundaries b a.offRatio a.onRatio = .ok bc)
    (hon : b.on = "flux" ∨ b.on = "constant") (hoff : b.off ≠ "noflux") :
    ∃ A, a.matrix bc = .ok A ∧ ∀ y, ∃! X, A.mulVec X = y := by
  have hA := matrix_ok a bc h.nx h.ny
  refine ⟨_, hA, ?_⟩
  set A : Matrix (Fin ((a.ny + 1) * (a.nx + 1))) (Fin ((a.ny + 1) * (a.nx + 1))) K := fun r c => diagsEntry (a.diagonals bc) r c with hAdef
  have hinj : Function.Injective A.mulVec := by
    intro X Y hXY
    have h0 : A.mulVec (X - Y) = 0 := by rw [Matrix.mulVec_sub]; exact sub_eq_zero.mpr hXY
    let z : Rhs K := ⟨0, 0, 0, 0, 0, 0, 0, 0, 0, 0, 0, 0⟩
    let x : ℕ → ℕ → K := fun i j => if hc : i * (a.nx + 1) + j < (a.ny + 1) * (a.nx + 1) then (X - Y) ⟨i * (a.nx + 1) + j, hc⟩ else 0
    have hx : ∀ c : Fin ((a.ny + 1) * (a.nx + 1)), x ((c : ℕ) / (a.nx + 1)) ((c : ℕ) % (a.nx + 1)) = (X - Y) c := fun c => by
      have e : (c : ℕ) / (a.nx + 1) * (a.nx + 1) + (c : ℕ) % (a.nx + 1) = c := Nat.div_add_mod' _ _
      simp only [x, e, c.2, dif_pos]
    have hs : Solves a b bc z x := by
      refine ⟨A, hA, ?_⟩
      rw [show (fun c : Fin ((a.ny + 1) * (a.nx + 1)) => x ((c : ℕ) / (a.nx + 1)) ((c : ℕ) % (a.nx + 1))) = X - Y from funext hx, h0]
      funext c
      unfold Adv.rhs Adv.yIm Adv.yEx
      simp [z]
    obtain ⟨bc', hb', hs'⟩ := C159_reversed a b bc h.nx h.ny h.beta (fun i hi j _ hj => (h.us i hi j hj.le).ne) hb hoff z x hs
    have h0' := fun i hi j hj => C153_nothing (seenFromLand a) _ _ _ bc' h.fromLand hb' (hon.imp id .inr) (inputsFromLand a.nx z)
      ⟨rfl, rfl, rfl, rfl, rfl, rfl, rfl, rfl, rfl⟩ _ hs' (i := i) (j := j) hi hj
    funext c
    have hi : (c : ℕ) / (a.nx + 1) ≤ a.ny := Nat.lt_succ_iff.mp ((Nat.div_lt_iff_lt_mul (Nat.succ_pos _)).mpr c.2)
    have hj : (c : ℕ) % (a.nx + 1) ≤ a.nx := Nat.lt_succ_iff.mp (Nat.mod_lt _ (Nat.succ_pos _))
    have := h0' _ hi (a.nx - (c : ℕ) % (a.nx + 1)) (Nat.sub_le _ _)
    rw [Nat.sub_sub_self hj, hx c] at this
    exact sub_eq_zero.mp this
  have hu := Matrix.mulVec_injective_iff_isUnit.mp hinj
  have hsur := Matrix.mulVec_surjective_iff_isUnit.mpr hu
  intro y
  obtain ⟨X, hX⟩ := hsur y
  exact ⟨X, hX, fun Y hY => hinj (hY.trans hX.symm)⟩

/-- **C159** With wind from the land, more capacity, more sand in the air before the step or more sand coming in at the ends never means less sand in the
air; the first column is exempt only where it is extrapolated. -/
theorem C159_offshore_no_less (a : Adv K) (b : Bounds) (bc : BcRows K) (h : Offshore a) (hα : a.alpha = 1)
    (hb : boundaries b a.offRatio a.onRatio = .ok bc) (hon : b.on = "flux" ∨ b.on = "constant") (hoff : b.off ≠ "noflux") (v v' : Rhs K)
    (hv : NoLess a v v') (x x' : ℕ → ℕ → K) (hx : Solves a b bc v x) (hx' : Solves a b bc v' x') {i j : ℕ} (hi : i ≤ a.ny) (hj : j ≤ a.nx)
    (hfirst : 0 < j ∨ b.off ≠ "gradient") : x i j ≤ x' i j := by
  have hu : ∀ i ≤ a.ny, ∀ j, 1 ≤ j → j < a.nx → a.us i j ≠ 0 := fun i hi j _ hj => (h.us i hi j hj.le).ne
  obtain ⟨bc', hb', hs⟩ := C159_reversed a b bc h.nx h.ny h.beta hu hb hoff v x hx
  obtain ⟨bc'', hb'', hs'⟩ := C159_reversed a b bc h.nx h.ny h.beta hu hb hoff v' x' hx'
  obtain rfl : bc' = bc'' := Except.ok.inj (hb'.symm.trans hb'')
  have := C150_no_less (seenFromLand a) _ _ _ bc' h.fromLand hα hb' (hon.imp id .inr) (inputsFromLand a.nx v) (inputsFromLand a.nx v')
    ⟨fun i hi j _ => hv.air i hi _ (Nat.sub_le _ _), fun i hi j _ => hv.capacity i hi _ (Nat.sub_le _ _), hv.onFlux, hv.offFlux, hv.onConst, hv.offConst⟩
    _ _ hs hs' (i := i) (j := a.nx - j) hi (Nat.sub_le _ _) (hfirst.imp (fun h0 => by
      change a.nx - j < a.nx
      have := h.nx
      omega) fun hg => .inl hg)
  rwa [Nat.sub_sub_self hj] at this

/-- **C159** With wind from the land the concentrations are nowhere negative. -/
theorem C159_offshore_nonneg (a : Adv K) (b : Bounds) (bc : BcRows K) (h : Offshore a) (hα : a.alpha = 1)
    (hb : boundaries b a.offRatio a.onRatio = .ok bc) (hon : b.on = "flux" ∨ b.on = "constant") (hoff : b.off ≠ "noflux") (v : Rhs K)
    (hcap : ∀ i ≤ a.ny, ∀ j ≤ a.nx, 0 ≤ weightedCapacity v i j) (hair : ∀ i ≤ a.ny, ∀ j ≤ a.nx, 0 ≤ v.lCt i j)
    (hends : ∀ i ≤ a.ny, 0 ≤ v.offFlux i ∧ 0 ≤ v.onFlux i ∧ 0 ≤ v.offConst i ∧ 0 ≤ v.onConst i) (x : ℕ → ℕ → K) (hx : Solves a b bc v x)
    {i j : ℕ} (hi : i ≤ a.ny) (hj : j ≤ a.nx) (hfirst : 0 < j ∨ b.off ≠ "gradient") : 0 ≤ x i j := by
  let z : Rhs K := ⟨0, 0, 0, 0, 0, 0, 0, 0, 0, 0, 0, 0⟩
  have hz : Solves a b bc z 0 := by
    refine ⟨_, matrix_ok a bc h.nx h.ny, ?_⟩
    funext c
    unfold Adv.rhs Adv.yIm Adv.yEx
    simp [z, Matrix.mulVec, dotProduct]
  exact C159_offshore_no_less a b bc h hα hb hon hoff z v
    ⟨hair, fun i hi j hj => by simpa [z, weightedCapacity] using hcap i hi j hj, fun i hi => (hends i hi).1, fun i hi => (hends i hi).2.1,
      fun i hi => (hends i hi).2.2.1, fun i hi => (hends i hi).2.2.2⟩ 0 x hz hx hi hj hfirst

/-- Wind from the land on a transect of four cells, sand coming from the landward end. -/
def fromTheLand : Adv ℚ := ⟨3, 0, 60, 1, 1, 1, fun _ _ => 1, fun _ _ => 1, fun _ _ => 1, fun _ _ => -1 / 60, fun _ _ => 0⟩

theorem fromTheLand_offshore : Offshore fromTheLand := by
  constructor <;> norm_num [fromTheLand]

/-- Capacity four, concentration one at the landward end. -/
def landValues : Rhs ℚ := ⟨fun _ _ => 1, fun _ _ => 4, fun _ _ => 4, fun _ _ => 1, fun _ _ => 1, fun _ _ => 4, fun _ _ => 4, fun _ _ => 0,
  fun _ => 0, fun _ => 0, fun _ => 0, fun _ => 1⟩

example (x : ℕ → ℕ → ℚ) (hx : Solver.Solves fromTheLand ⟨"uniform", "constant", "circular"⟩ ⟨fun _ => -1, fun _ => 0, fun _ => 0, fun _ => 0, false⟩
    landValues x) : 0 ≤ x 0 1 :=
  C159_offshore_nonneg fromTheLand _ _ fromTheLand_offshore rfl rfl (.inr rfl) (by decide) landValues
    (fun _ _ _ _ => by norm_num [weightedCapacity, landValues]) (fun _ _ _ _ => le_rfl) (fun _ _ => by norm_num [landValues]) x hx le_rfl
    (by simp [fromTheLand]) (.inl one_pos)

/-- There is such a solution. -/
example : ∃ A, fromTheLand.matrix ⟨fun _ => -1, fun _ => 0, fun _ => 0, fun _ => 0, false⟩ = .ok A ∧ ∀ y, ∃! X, A.mulVec X = y :=
  C159_offshore_unique fromTheLand ⟨"uniform", "constant", "circular"⟩ _ fromTheLand_offshore rfl (.inr rfl) (by decide)

/-- More sand from the land: nowhere less sand in the air. -/
example (x x' : ℕ → ℕ → ℚ) (hx : Solver.Solves fromTheLand ⟨"uniform", "constant", "circular"⟩ ⟨fun _ => -1, fun _ => 0, fun _ => 0, fun _ => 0, false⟩
      landValues x)
    (hx' : Solver.Solves fromTheLand ⟨"uniform", "constant", "circular"⟩ ⟨fun _ => -1, fun _ => 0, fun _ => 0, fun _ => 0, false⟩
      { landValues with onConst := fun _ => 2 } x') : x 0 0 ≤ x' 0 0 :=
  C159_offshore_no_less fromTheLand _ _ fromTheLand_offshore rfl rfl (.inr rfl) (by decide) landValues { landValues with onConst := fun _ => 2 }
    ⟨fun _ _ _ _ => le_rfl, fun _ _ _ _ => le_rfl, fun _ _ => le_rfl, fun _ _ => le_rfl, fun _ _ => le_rfl, fun _ _ => by norm_num [landValues]⟩
    x x' hx hx' le_rfl (by simp [fromTheLand]) (.inr (by decide))

/-- The same wind seen from the other side. -/
example (x : ℕ → ℕ → ℚ) (hx : Solver.Solves fromTheLand ⟨"uniform", "constant", "circular"⟩ ⟨fun _ => -1, fun _ => 0, fun _ => 0, fun _ => 0, false⟩
    landValues x) : ∃ bc', boundaries ⟨"constant", "uniform", "circular"⟩ (seenFromLand fromTheLand).offRatio (seenFromLand fromTheLand).onRatio = .ok bc' ∧
      Solver.Solves (seenFromLand fromTheLand) ⟨"constant", "uniform", "circular"⟩ bc' (inputsFromLand 3 landValues) fun i j => x i (3 - j) :=
  C159_reversed fromTheLand ⟨"uniform", "constant", "circular"⟩ _ (by decide) (by decide) (by simp [fromTheLand]) (fun _ _ _ _ _ => by norm_num [fromTheLand])
    rfl (by decide) landValues x hx

end Aeolis.Props
