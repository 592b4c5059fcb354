import Verif.Props.SolverOrder

/-!
C154: rows with equal inputs have the concentrations of the transect.
-/

set_option linter.unusedSectionVars false

namespace Aeolis.Props

open Finset Aeolis.Solver

variable {K : Type*} [Field K] [LinearOrder K] [IsStrictOrderedRing K]

/-- With equal rows what leaves a row across it comes in from the other side. -/
theorem equal_rows_row (a : Adv K) (bc : BcRows K) (v : Rhs K) (h : EqualRows a v) (hy : 0 < a.ny) (hbeta : 1 ≤ |a.beta|) (hl : bc.latUnit = false)
    (hp1 : ∀ i, bc.offP1 i = bc.offP1 0) (hp2 : ∀ i, bc.offP2 i = bc.offP2 0) (hm1 : ∀ i, bc.onM1 i = bc.onM1 0) (hm2 : ∀ i, bc.onM2 i = bc.onM2 0)
    (y : ℕ → ℕ → K) {i : ℕ} (hi : i ≤ a.ny) (j : ℕ) :
    rowPart a bc (fun _ j => y 0 j) i j + acrossPart a bc (fun _ j => y 0 j) i j =
      rowPart (oneRow a) bc y 0 j + acrossPart (oneRow a) bc y 0 j := by
  have hnl : ∀ i, ¬ a.latRow bc i := fun i hr => by have := hr.1; rw [hl] at this; cases this
  have hnl' : ∀ i, ¬ (oneRow a).latRow bc i := fun i hr => by have := hr.1; rw [hl] at this; cases this
  have e1 : (oneRow a).us = a.us := rfl
  have hpr : prevRow a.ny i ≤ a.ny := by unfold prevRow; split <;> omega
  have hnr : nextRow a.ny i ≤ a.ny := by unfold nextRow; split <;> omega
  have u1 : ∀ i ≤ a.ny, ∀ j, a.unPlus i j = a.un 0 j := fun i hi j => by
    unfold Adv.unPlus
    split
    · rfl
    · exact h.un _ (by omega) _
  have u2 : ∀ i ≤ a.ny, ∀ j, a.unMin i j = a.un 0 j := fun i hi j => by
    unfold Adv.unMin
    split
    · exact h.un _ le_rfl _
    · exact h.un _ (by omega) _
  have u3 : ∀ i ≤ a.ny, ∀ j, a.usPlus i j = a.usPlus 0 j := fun i hi j => by unfold Adv.usPlus; rw [h.us i hi, h.us i hi]
  have u4 : ∀ i ≤ a.ny, ∀ j, a.usMin i j = a.usMin 0 j := fun i hi j => by unfold Adv.usMin; rw [h.us i hi, h.us i hi]
  have f1 : ∀ i ≤ a.ny, ∀ j, a.facS i j = a.facS 0 j := fun i hi j => by unfold Adv.facS; rw [h.dn i hi, h.dsdni i hi]
  have f2 : ∀ i ≤ a.ny, ∀ j, a.facN i j = a.facN 0 j := fun i hi j => by unfold Adv.facN; rw [h.ds i hi, h.dsdni i hi]
  have i1 : ∀ i ≤ a.ny, ∀ j, a.ixs i j = a.ixs 0 j := fun i hi j => by unfold Adv.ixs; rw [h.us i hi]
  have i2 : ∀ i ≤ a.ny, ∀ j, a.ixn i j = a.ixn 0 j := fun i hi j => by unfold Adv.ixn; rw [h.un i hi]
  have s1 : ∀ i ≤ a.ny, ∀ j, a.sgs i j = a.sgs 0 j := fun i hi j => by unfold Adv.sgs; rw [i1 i hi]
  have s2 : ∀ i ≤ a.ny, ∀ j, a.sgn i j = 2 * a.ixn 0 j - 1 := fun i hi j => by unfold Adv.sgn; rw [if_pos hbeta, i2 i hi]
  have o1 : ∀ j, (oneRow a).usPlus 0 j = a.usPlus 0 j := fun _ => rfl
  have o2 : ∀ j, (oneRow a).usMin 0 j = a.usMin 0 j := fun _ => rfl
  have o3 : ∀ j, (oneRow a).facS 0 j = a.facS 0 j := fun _ => rfl
  have o4 : ∀ j, (oneRow a).ixs 0 j = a.ixs 0 j := fun _ => rfl
  have o5 : ∀ j, (oneRow a).sgs 0 j = a.sgs 0 j := fun _ => rfl
  have o6 : (oneRow a).nx = a.nx := rfl
  have o7 : (oneRow a).Ti = a.Ti := rfl
  have o8 : (oneRow a).alpha = a.alpha := rfl
  have o9 : ∀ i j, (oneRow a).un i j = 0 := fun _ _ => rfl
  have o10 : ¬ 0 < (oneRow a).ny := lt_irrefl 0
  unfold rowPart acrossPart
  rw [if_pos hy, if_neg o10]
  unfold Adv.A0 Adv.Am1 Adv.Ap1 Adv.Am2 Adv.Ap2 Adv.Amx Adv.Apx
  simp only [hnl, hnl', if_false, u1 i hi, u2 _ hnr, u3 i hi, u4 i hi, f1 i hi, f2 i hi, f2 _ hnr, i1 i hi, i2 i hi, i2 _ hnr, s1 i hi, s2 i hi, o1, o2, o3, o4,
    o5, o6, o7, o8, o9, e1, h.us i hi, h.un i hi, hp1 i, hp2 i, hm1 i, hm2 i]
  split_ifs <;> ring

theorem equal_rows_rhs (a : Adv K) (b : Bounds) (v : Rhs K) (h : EqualRows a v) (hbeta : 1 ≤ |a.beta|) {i : ℕ} (hi : i ≤ a.ny) (j : ℕ) :
    a.rhs b v i j = (oneRow a).rhs b v 0 j := by
  have hpr : prevRow a.ny i ≤ a.ny := by unfold prevRow; split <;> omega
  have hnr : nextRow a.ny i ≤ a.ny := by unfold nextRow; split <;> omega
  have u1 : ∀ i ≤ a.ny, ∀ j, a.unPlus i j = a.un 0 j := fun i hi j => by
    unfold Adv.unPlus
    split
    · rfl
    · exact h.un _ (by omega) _
  have u2 : ∀ i ≤ a.ny, ∀ j, a.unMin i j = a.un 0 j := fun i hi j => by
    unfold Adv.unMin
    split
    · exact h.un _ le_rfl _
    · exact h.un _ (by omega) _
  have u3 : ∀ i ≤ a.ny, ∀ j, a.usPlus i j = a.usPlus 0 j := fun i hi j => by unfold Adv.usPlus; rw [h.us i hi, h.us i hi]
  have u4 : ∀ i ≤ a.ny, ∀ j, a.usMin i j = a.usMin 0 j := fun i hi j => by unfold Adv.usMin; rw [h.us i hi, h.us i hi]
  have f1 : ∀ i ≤ a.ny, ∀ j, a.facS i j = a.facS 0 j := fun i hi j => by unfold Adv.facS; rw [h.dn i hi, h.dsdni i hi]
  have f2 : ∀ i ≤ a.ny, ∀ j, a.facN i j = a.facN 0 j := fun i hi j => by unfold Adv.facN; rw [h.ds i hi, h.dsdni i hi]
  have i1 : ∀ i ≤ a.ny, ∀ j, a.ixs i j = a.ixs 0 j := fun i hi j => by unfold Adv.ixs; rw [h.us i hi]
  have i2 : ∀ i ≤ a.ny, ∀ j, a.ixn i j = a.ixn 0 j := fun i hi j => by unfold Adv.ixn; rw [h.un i hi]
  have s1 : ∀ i ≤ a.ny, ∀ j, a.sgs i j = a.sgs 0 j := fun i hi j => by unfold Adv.sgs; rw [i1 i hi]
  have s2 : ∀ i ≤ a.ny, ∀ j, a.sgn i j = 2 * a.ixn 0 j - 1 := fun i hi j => by unfold Adv.sgn; rw [if_pos hbeta, i2 i hi]
  have o1 : ∀ j, (oneRow a).usPlus 0 j = a.usPlus 0 j := fun _ => rfl
  have o2 : ∀ j, (oneRow a).usMin 0 j = a.usMin 0 j := fun _ => rfl
  have o3 : ∀ j, (oneRow a).facS 0 j = a.facS 0 j := fun _ => rfl
  have o4 : ∀ j, (oneRow a).ixs 0 j = a.ixs 0 j := fun _ => rfl
  have o5 : ∀ j, (oneRow a).sgs 0 j = a.sgs 0 j := fun _ => rfl
  have o6 : (oneRow a).nx = a.nx := rfl
  have o7 : (oneRow a).Ti = a.Ti := rfl
  have o8 : (oneRow a).alpha = a.alpha := rfl
  have o9 : ∀ i j, (oneRow a).un i j = 0 := fun _ _ => rfl
  have o10 : (oneRow a).us = a.us := rfl
  have o11 : ∀ i j, (oneRow a).unPlus i j = 0 := fun i j => by unfold Adv.unPlus; split <;> rfl
  have o12 : ∀ i j, (oneRow a).unMin i j = 0 := fun i j => by unfold Adv.unMin; split <;> rfl
  unfold Adv.rhs Adv.yIm Adv.yEx
  have z0 : prevRow (oneRow a).ny 0 = 0 := rfl
  have z1 : nextRow (oneRow a).ny 0 = 0 := rfl
  simp only [u1 i hi, u2 i hi, u3 i hi, u4 i hi, f1 i hi, f2 i hi, i1 i hi, i2 i hi, s1 i hi, s2 i hi, o1, o2, o3, o4, o5, o6, o7, o8, o9, o10, o11,
    o12, h.us i hi, h.un i hi, h.w i hi, h.Cu i hi, h.Cuf i hi, h.S i hi, h.lw i hi, h.lCu i hi, h.lCuf i hi, h.lCt i hi, h.lCt _ hpr, h.lCt _ hnr,
    z0, z1, h.offFlux i hi, h.onFlux i hi, h.offConst i hi, h.onConst i hi]
  split_ifs <;> ring

/-- **C154** On a planar grid with circular sides, equal inputs in all rows give equal concentrations in all rows: those of a transect with
nothing moving across it, whatever the wind along the shore. -/
theorem C154_equal_rows (a : Adv K) (b : Bounds) (qoff qon : ℕ → K) (bc : BcRows K) (h : Onshore a) (hy : 0 < a.ny)
    (hb : boundaries b qoff qon = .ok bc) (hoff : b.off = "flux" ∨ b.off = "noflux" ∨ b.off = "constant")
    (hon : b.on ≠ "gradient" ∨ b.off = "noflux") (hlat : b.lat = "circular") (v : Rhs K) (hv : EqualRows a v)
    (x : ℕ → ℕ → K) (hx : Solves a b bc v x) (y : ℕ → ℕ → K) (hy' : Solves (oneRow a) b bc v y) {i j : ℕ} (hi : i ≤ a.ny) (hj : j ≤ a.nx) :
    x i j = y 0 j := by
  obtain ⟨h1, h2⟩ := offshore_zero b qoff qon bc hb hoff
  obtain ⟨-, g2⟩ := onshore_simple b qoff qon bc hb hon
  have hlast := onshore_last b qoff qon bc hb hon
  have hl := lateral_circular b qoff qon bc hb hlat
  have hm1 : ∀ i, bc.onM1 i = bc.onM1 0 := fun i => by rcases hlast with e | ⟨-, e⟩ <;> rw [e i, e 0]
  rw [solves_iff (oneRow a) b bc v y h.nx (show (0 : ℕ) ≠ 1 by decide)] at hy'
  have hY : Solves a b bc v (fun _ j => y 0 j) := by
    rw [solves_iff a b bc v _ h.nx h.ny]
    intro i hi j hj
    rw [equal_rows_row a bc v hv hy h.beta hl (fun i => by rw [h1, h1]) (fun i => by rw [h2, h2]) hm1 (fun i => by rw [g2, g2]) y hi,
      equal_rows_rhs a b v hv h.beta hi, hy' 0 (Nat.zero_le _) j hj]
  obtain ⟨A, hA, e⟩ := hx
  obtain ⟨A', hA', e'⟩ := hY
  obtain rfl : A = A' := Except.ok.inj (hA.symm.trans hA')
  obtain ⟨A'', hA'', hu⟩ := C48_unique_solution a b qoff qon bc h hb hoff
  obtain rfl : A = A'' := Except.ok.inj (hA.symm.trans hA'')
  have key := congrFun ((hu _).unique e e') ⟨i * (a.nx + 1) + j, index_lt a hi hj⟩
  have e1 : (i * (a.nx + 1) + j) / (a.nx + 1) = i := by
    rw [mul_comm, Nat.mul_add_div (by omega), Nat.div_eq_of_lt (by omega), add_zero]
  have e2 : (i * (a.nx + 1) + j) % (a.nx + 1) = j := by
    rw [mul_comm, Nat.mul_add_mod, Nat.mod_eq_of_lt (by omega)]
  simpa only [e1, e2] using key

/-- **C154** On a transect, wind along the shore takes sand away that nothing replaces: for the implicit scheme and non-negative
inputs the concentrations are nowhere above those of the rows of a planar grid with the same inputs, and below them wherever there
is sand in the air and transport along the shore. -/
theorem C154_transect_loses (a : Adv K) (b : Bounds) (qoff qon : ℕ → K) (bc : BcRows K) (h : Onshore a) (hy : a.ny = 0) (hα : a.alpha = 1)
    (hb : boundaries b qoff qon = .ok bc) (hoff : b.off = "flux" ∨ b.off = "noflux" ∨ b.off = "constant") (hlat : b.lat = "circular")
    (v : Rhs K) (x y : ℕ → ℕ → K) (hx : Solves a b bc v x) (hpos : ∀ j < a.nx, 0 ≤ x 0 j) (hy' : Solves (oneRow a) b bc v y) :
    (∀ j < a.nx, x 0 j ≤ y 0 j) ∧
      ∀ j, 1 ≤ j → j < a.nx → 0 < a.dt * a.ds 0 j * a.dsdni 0 j → a.un 0 j ≠ 0 → 0 < x 0 j → x 0 j < y 0 j := by
  obtain ⟨h1, h2⟩ := offshore_zero b qoff qon bc hb hoff
  have hl := lateral_circular b qoff qon bc hb hlat
  have h' : Onshore (oneRow a) :=
    ⟨h.nx, show (0 : ℕ) ≠ 1 by decide, h.dt, h.T, h.alpha, h.beta, fun i hi => h.ds i (by have : i ≤ 0 := hi; omega),
      fun i hi => h.dn i (by have : i ≤ 0 := hi; omega), fun i hi => h.dsdni i (by have : i ≤ 0 := hi; omega),
      fun i hi => h.us i (by have : i ≤ 0 := hi; omega), fun hn => absurd hn (lt_irrefl 0), fun hn => absurd hn (lt_irrefl 0),
      fun hn => absurd hn (lt_irrefl 0)⟩
  rw [solves_iff a b bc v x h.nx h.ny] at hx
  rw [solves_iff (oneRow a) b bc v y h'.nx h'.ny] at hy'
  have hz : 0 ≤ a.ny := Nat.zero_le _
  have hnl : ∀ i, ¬ a.latRow bc i := fun i hr => by have := hr.1; rw [hl] at this; cases this
  have hnl' : ∀ i, ¬ (oneRow a).latRow bc i := fun i hr => by have := hr.1; rw [hl] at this; cases this
  have hny : ¬ 0 < a.ny := by omega
  have hny' : ¬ 0 < (oneRow a).ny := lt_irrefl 0
  have hsg : ∀ j, a.sgn 0 j * (a.facN 0 j * a.un 0 j) = a.facN 0 j * |a.un 0 j| := fun j => by
    unfold Adv.sgn Adv.ixn
    rw [if_pos h.beta, if_pos h.beta]
    split
    · rename_i hu; rw [abs_of_nonneg hu]; ring
    · rename_i hu; rw [abs_of_neg (not_le.mp hu)]; ring
  have hrhs : ∀ j, (oneRow a).rhs b v 0 j = a.rhs b v 0 j := fun j => by
    unfold Adv.rhs
    rw [show (oneRow a).alpha = a.alpha from rfl, hα, sub_self, zero_mul, zero_mul]
    rfl
  -- the row of the system without transport along the shore
  have hrow : ∀ (x : ℕ → ℕ → K) j, j ≤ a.nx → rowPart a bc x 0 j + acrossPart a bc x 0 j =
      rowPart (oneRow a) bc x 0 j + acrossPart (oneRow a) bc x 0 j +
        (if j = 0 ∨ j = a.nx then 0 else a.facN 0 j * |a.un 0 j| * x 0 j) := by
    intro x j _
    unfold rowPart acrossPart
    rw [if_neg hny, if_neg hny']
    have c1 : a.Am1 bc 0 j = (oneRow a).Am1 bc 0 j := by unfold Adv.Am1; rw [if_neg (hnl 0), if_neg (hnl' 0)]; rfl
    have c2 : a.Ap1 bc 0 j = (oneRow a).Ap1 bc 0 j := by unfold Adv.Ap1; rw [if_neg (hnl 0), if_neg (hnl' 0)]; rfl
    have c3 : a.Am2 bc 0 j = (oneRow a).Am2 bc 0 j := rfl
    have c4 : a.Ap2 bc 0 j = (oneRow a).Ap2 bc 0 j := rfl
    have c5 : a.A0 bc 0 j = (oneRow a).A0 bc 0 j + (if j = 0 ∨ j = a.nx then 0 else a.facN 0 j * |a.un 0 j|) := by
      unfold Adv.A0
      rw [if_neg (hnl 0), if_neg (hnl' 0), show (oneRow a).nx = a.nx from rfl]
      split
      · ring
      · rw [hsg j, show (oneRow a).un 0 j = 0 from rfl, show (oneRow a).alpha = a.alpha from rfl, hα,
          show (oneRow a).sgs 0 j = a.sgs 0 j from rfl, show (oneRow a).facS 0 j = a.facS 0 j from rfl, show (oneRow a).us = a.us from rfl,
          show (oneRow a).Ti = a.Ti from rfl]
        ring
    rw [c1, c2, c3, c4, c5]
    split <;> ring
  have hextra : ∀ j < a.nx, 0 ≤ (if j = 0 ∨ j = a.nx then 0 else a.facN 0 j * |a.un 0 j| * x 0 j) := fun j hj => by
    split
    · exact le_rfl
    · exact mul_nonneg (mul_nonneg (mul_nonneg (mul_nonneg h.dt (h.ds 0 hz j hj.le)) (h.dsdni 0 hz j hj.le)) (abs_nonneg _)) (hpos j hj)
  have hd : ∀ j < a.nx, rowPart (oneRow a) bc (fun i j => 1 * y i j + -1 * x i j) 0 j + acrossPart (oneRow a) bc (fun i j => 1 * y i j + -1 * x i j) 0 j =
      (if j = 0 ∨ j = a.nx then 0 else a.facN 0 j * |a.un 0 j| * x 0 j) := fun j hj => by
    have k1 := hx 0 hz j hj.le
    rw [hrow x j hj.le] at k1
    have k2 := hy' 0 le_rfl j hj.le
    rw [hrhs j] at k2
    rw [rows_combine]
    linarith
  have hle := onshore_columns (oneRow a) bc h' (fun i j => 1 * y i j + -1 * x i j) (fun i _ => h1 i) (fun i _ => h2 i)
    (fun i hi j hj => by
      obtain rfl : i = 0 := Nat.le_zero.mp hi
      rw [hd j hj]; exact hextra j hj)
  have hle' : ∀ j < a.nx, 0 ≤ 1 * y 0 j + -1 * x 0 j := fun j hj => hle j hj 0 le_rfl
  refine ⟨fun j hj => by have := hle' j hj; linarith, fun j h0 hj hf hu hp => ?_⟩
  have hT : Transect (oneRow a) := ⟨h'.nx, rfl, h.dt, h.T, h.alpha, h.beta, h'.ds 0 le_rfl, h'.dn 0 le_rfl, h'.dsdni 0 le_rfl⟩
  have e := hd j hj
  rw [if_neg (by omega)] at e
  have t := transect_row (oneRow a) bc hT hl (fun i j => 1 * y i j + -1 * x i j) h0 hj
  rw [e, if_pos (show 0 ≤ (oneRow a).us 0 j from h.us 0 hz j hj.le)] at t
  have hgain : 0 < a.facN 0 j * |a.un 0 j| * x 0 j := mul_pos (mul_pos hf (abs_pos.mpr hu)) hp
  have hside : 0 ≤ (oneRow a).side j * (oneRow a).us 0 (j - 1) * (1 * y 0 (j - 1) + -1 * x 0 (j - 1)) :=
    mul_nonneg (mul_nonneg (mul_nonneg (mul_nonneg (mul_nonneg h.dt (h.dn 0 hz j hj.le)) (h.dsdni 0 hz j hj.le)) h.alpha)
      (h.us 0 hz (j - 1) (by omega))) (hle' (j - 1) (by omega))
  by_contra hcon
  have hz0 : 1 * y 0 j + -1 * x 0 j = 0 := by linarith [not_lt.mp hcon, hle' j hj]
  simp only [hz0, mul_zero] at t
  linarith

/-! ### A beach of three rows -/

/-- Three rows of four cells with a wind that blows obliquely onshore. -/
def exOblique : Adv ℚ :=
  { nx := 3, ny := 2, dt := 1, T := 1, alpha := 1, beta := 1, ds := fun _ _ => 1, dn := fun _ _ => 1, dsdni := fun _ _ => 1,
    us := fun _ _ => 1, un := fun _ _ => 2 }

theorem exOblique_onshore : Onshore exOblique := by constructor <;> simp [exOblique]

theorem exOblique_rows : EqualRows exOblique steadyLineValues := by constructor <;> intros <;> rfl

/-- All rows have the concentrations of the transect. -/
example (x y : ℕ → ℕ → ℚ)
    (hx : Solver.Solves exOblique ⟨"constant", "uniform", "circular"⟩ ⟨fun _ => 0, fun _ => 0, fun _ => -1, fun _ => 0, false⟩ steadyLineValues x)
    (hy : Solver.Solves (oneRow exOblique) ⟨"constant", "uniform", "circular"⟩ ⟨fun _ => 0, fun _ => 0, fun _ => -1, fun _ => 0, false⟩
      steadyLineValues y) : x 1 2 = y 0 2 :=
  C154_equal_rows exOblique _ (fun _ => 1) (fun _ => 1) _ exOblique_onshore (by simp [exOblique]) rfl (.inr (.inr rfl)) (.inl (by decide)) rfl _
    exOblique_rows x hx y hy (by simp [exOblique]) (by simp [exOblique])

/-- The same wind on a transect: concentrations 4/5 and 24/25 instead of 4/3 and 16/9 in the inner cells. -/
theorem C154_transect_differs :
    Solver.Solves { exOblique with ny := 0 } ⟨"constant", "uniform", "circular"⟩ ⟨fun _ => 0, fun _ => 0, fun _ => -1, fun _ => 0, false⟩ steadyLineValues
      (fun _ j => if j = 0 then 0 else if j = 1 then 4 / 5 else 24 / 25) ∧
    Solver.Solves (oneRow exOblique) ⟨"constant", "uniform", "circular"⟩ ⟨fun _ => 0, fun _ => 0, fun _ => -1, fun _ => 0, false⟩ steadyLineValues
      (fun _ j => if j = 0 then 0 else if j = 1 then 4 / 3 else 16 / 9) := by
  constructor <;>
  · rw [solves_iff _ _ _ _ _ (by simp [exOblique, oneRow]) (by simp [exOblique, oneRow])]
    intro i hi j hj
    obtain rfl : i = 0 := Nat.le_zero.mp hi
    have hj' : j ≤ 3 := hj
    interval_cases j <;>
      norm_num [rowPart, acrossPart, Adv.A0, Adv.Am1, Adv.Ap1, Adv.Am2, Adv.Ap2, Adv.latRow, exOblique, oneRow, Adv.sgs, Adv.sgn, Adv.ixs, Adv.ixn,
        Adv.facS, Adv.facN, Adv.Ti, Adv.usPlus, Adv.usMin, Adv.rhs, Adv.yIm, steadyLineValues]

end Aeolis.Props
