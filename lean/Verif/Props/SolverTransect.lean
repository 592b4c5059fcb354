import Verif.Proofs.SolverTransect
import Verif.Props.SolverSystem

/-!
C48: transects with transport in any direction.
-/

set_option linter.unusedSectionVars false

namespace Aeolis.Props

open Finset Aeolis.Solver

variable {K : Type*} [Field K] [LinearOrder K] [IsStrictOrderedRing K]

theorem onshore_prescribed (b : Bounds) (qoff qon : ℕ → K) (bc : BcRows K) (hb : boundaries b qoff qon = .ok bc)
    (h : b.on = "flux" ∨ b.on = "constant" ∨ b.off = "noflux") : (∀ i, bc.onM1 i = 0) ∧ ∀ i, bc.onM2 i = 0 := by
  unfold boundaries at hb
  split at hb
  · cases hb
  · split at hb
    · cases hb
    · rename_i n hn
      split at hb
      · cases hb
      · cases hb
        unfold onshore at hn
        rcases h with h | h | h <;> simp [h] at hn
        · obtain rfl := hn; exact ⟨fun _ => rfl, fun _ => rfl⟩
        · obtain rfl := hn; exact ⟨fun _ => rfl, fun _ => rfl⟩
        · obtain rfl := hn; exact ⟨fun _ => rfl, fun _ => rfl⟩

/-- **C48** On a transect the system has exactly one solution for every right hand side, whatever the directions of the transport in its
cells, if the concentration is prescribed at the seaward end, and at the landward end if the transport next to it is offshore. -/
theorem C48_any_direction (a : Adv K) (b : Bounds) (qoff qon : ℕ → K) (bc : BcRows K) (h : Transect a)
    (hb : boundaries b qoff qon = .ok bc) (hoff : b.off = "flux" ∨ b.off = "noflux" ∨ b.off = "constant")
    (hon : (b.on = "flux" ∨ b.on = "constant" ∨ b.off = "noflux") ∨ 0 ≤ a.us 0 (a.nx - 1)) :
    ∃ A, a.matrix bc = .ok A ∧ ∀ y, ∃! X, A.mulVec X = y := by
  obtain ⟨h1, h2⟩ := offshore_zero b qoff qon bc hb hoff
  have hA := matrix_ok a bc h.nx (by rw [h.ny]; exact zero_ne_one)
  refine ⟨_, hA, ?_⟩
  set A : Matrix (Fin ((a.ny + 1) * (a.nx + 1))) (Fin ((a.ny + 1) * (a.nx + 1))) K :=
    fun r c => diagsEntry (a.diagonals bc) r c with hAdef
  have hinj : Function.Injective A.mulVec := by
    intro X Y hXY
    have : A.mulVec (X - Y) = 0 := by rw [Matrix.mulVec_sub]; exact sub_eq_zero.mpr hXY
    refine sub_eq_zero.mp (transect_injective a bc h A hA (h1 0) (h2 0) (hon.imp_left fun e => ?_) _ this)
    have := onshore_prescribed b qoff qon bc hb e
    exact ⟨this.1 0, this.2 0⟩
  have hu := Matrix.mulVec_injective_iff_isUnit.mp hinj
  have hsur := Matrix.mulVec_surjective_iff_isUnit.mpr hu
  intro y
  obtain ⟨X, hX⟩ := hsur y
  exact ⟨X, hX, fun Y hY => hinj (hY.trans hX.symm)⟩

/-- **C48** If moreover the transport nowhere diverges (in particular if it is onshore everywhere or offshore everywhere), solutions for
right hand sides that are not negative are not negative. -/
theorem C48_any_direction_nonneg (a : Adv K) (b : Bounds) (qoff qon : ℕ → K) (bc : BcRows K) (h : Transect a) (hdiv : NonDiverging a)
    (hb : boundaries b qoff qon = .ok bc) (hoff : b.off = "flux" ∨ b.off = "noflux" ∨ b.off = "constant")
    (hon : (b.on = "flux" ∨ b.on = "constant" ∨ b.off = "noflux") ∨ 0 ≤ a.us 0 (a.nx - 1) ∧ b.on ≠ "gradient")
    (A : Matrix (Fin ((a.ny + 1) * (a.nx + 1))) (Fin ((a.ny + 1) * (a.nx + 1))) K) (hA : a.matrix bc = .ok A)
    (X : Fin ((a.ny + 1) * (a.nx + 1)) → K) (hX : ∀ c, 0 ≤ A.mulVec X c) : ∀ c, 0 ≤ X c := by
  obtain ⟨h1, h2⟩ := offshore_zero b qoff qon bc hb hoff
  refine transect_nonneg a bc h hdiv A hA (h1 0) (h2 0) (hon.imp (fun e => ?_) fun e => ⟨e.1, ?_⟩) X hX
  · have := onshore_prescribed b qoff qon bc hb e
    exact ⟨this.1 0, this.2 0⟩
  · have := onshore_simple b qoff qon bc hb (Or.inl e.2)
    exact ⟨this.1 0, this.2 0⟩

/-- The transect on which the wind diverges: one solution, although it can be negative (`C48_diverging_negative`). -/
example : ∃ A, exDiverge.matrix (⟨fun _ => 0, fun _ => 0, fun _ => 0, fun _ => 0, false⟩ : BcRows ℚ) = .ok A ∧ ∀ y, ∃! X, A.mulVec X = y :=
  C48_any_direction exDiverge ⟨"constant", "constant", "circular"⟩ (fun _ => 1) (fun _ => 1) _
    ⟨by simp [exDiverge], rfl, by simp [exDiverge], by simp [exDiverge], by simp [exDiverge], by simp [exDiverge],
      fun _ _ => by simp [exDiverge], fun _ _ => by simp [exDiverge], fun _ _ => by simp [exDiverge]⟩ rfl (Or.inr (Or.inr rfl))
    (Or.inl (Or.inr (Or.inl rfl)))

/-- A transect with offshore wind that grows stronger in seaward direction. -/
def exOffshore : Adv ℚ :=
  { nx := 4, ny := 0, dt := 1, T := 1, alpha := 1, beta := 1, ds := fun _ _ => 1, dn := fun _ _ => 1, dsdni := fun _ _ => 1,
    un := fun _ _ => 1, us := fun _ j => (j : ℚ) - 5 }

example (A : Matrix (Fin ((exOffshore.ny + 1) * (exOffshore.nx + 1))) (Fin ((exOffshore.ny + 1) * (exOffshore.nx + 1))) ℚ)
    (hA : exOffshore.matrix (⟨fun _ => 0, fun _ => 0, fun _ => 0, fun _ => 0, false⟩ : BcRows ℚ) = .ok A)
    (X : Fin ((exOffshore.ny + 1) * (exOffshore.nx + 1)) → ℚ) (hX : A.mulVec X = fun _ => 1) : ∀ c, 0 ≤ X c :=
  C48_any_direction_nonneg exOffshore ⟨"flux", "flux", "circular"⟩ (fun _ => 1) (fun _ => 1) _
    ⟨by simp [exOffshore], rfl, by simp [exOffshore], by simp [exOffshore], by simp [exOffshore], by simp [exOffshore],
      fun _ _ => by simp [exOffshore], fun _ _ => by simp [exOffshore], fun _ _ => by simp [exOffshore]⟩
    (fun j hj _ => by
      have : j < 4 := hj
      show ((j + 1 : ℕ) : ℚ) - 5 < 0
      have h4 : ((j + 1 : ℕ) : ℚ) ≤ 4 := by exact_mod_cast this
      linarith) rfl (Or.inl rfl) (Or.inl (Or.inl rfl)) A hA X fun c => by rw [hX]; exact zero_le_one

end Aeolis.Props
