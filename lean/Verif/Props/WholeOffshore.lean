import Verif.Props.WholeBudget
import Verif.Props.WholeTrace

/-!
Wind that turns between onshore and offshore on a transect: the properties of the whole chain hold for it as well; and the systems of a transect
can be solved for wind from any direction, also where it diverges, and for every implicitness.
-/

set_option linter.unusedSectionVars false

namespace Aeolis.Props

open Finset Aeolis.Spec Aeolis.Sand Aeolis.Solver Aeolis.Whole

variable {nx nf : ℕ}

/-- **C132** The systems of a transect with prescribed values at the ends can be solved, whatever the wind in each cell, the implicitness
parameter and the cell sizes. -/
theorem C132_solvable (C : Whole.Config nf) (hnx : 2 ≤ nx) (hT : 0 < C.T) (halpha : 0 ≤ C.alpha) (hbeta : 1 ≤ |C.beta|)
    (hsize : ∀ j ≤ nx, 0 ≤ C.ds 0 j ∧ 0 ≤ C.dn 0 j ∧ 0 ≤ C.dsdni 0 j)
    (hoff : C.bounds.off = "flux" ∨ C.bounds.off = "noflux" ∨ C.bounds.off = "constant")
    (hon : C.bounds.on = "flux" ∨ C.bounds.on = "constant" ∨ C.bounds.off = "noflux")
    (E : Env nx 0 nf) (hdt : 0 ≤ E.dt) (speed : Fin (cells nx 0) → Fin nf → Transport.Speed) (A) (hA : matrices C E speed = .ok A) (f : Fin nf) :
    IsUnit (A f) := by
  obtain ⟨bc, hbc, hm⟩ := matrices_bounds hA (Nat.lt_of_le_of_lt (Nat.zero_le _) f.2)
  obtain ⟨A', hA', huniq⟩ := C48_any_direction (system C E speed f) C.bounds _ _ bc
    ⟨hnx, rfl, hdt, hT.le, halpha, hbeta, fun j hj => (hsize j hj).1, fun j hj => (hsize j hj).2.1, fun j hj => (hsize j hj).2.2⟩ (hbc f) hoff
    (Or.inl hon)
  have e : A f = A' := Except.ok.inj ((hm f).symm.trans hA')
  rw [e]
  refine Matrix.mulVec_injective_iff_isUnit.mp fun X Y hXY => ?_
  exact (huniq _).unique rfl hXY.symm

/-! ### Example -/

/-- The storm of the examples, from the sea or from the land. -/
noncomputable def turning (back : Bool) (moist : Fin (cells 2 0) → ℝ) : Env 2 0 1 :=
  { duneEnv 2 0 0.5 moist with wind := fun _ => if back then ⟨10, -10, 0, 0.5, -0.5, 0, 0.5⟩ else ⟨10, 10, 0, 0.5, 0.5, 0, 0.5⟩ }

theorem turning_speed (back : Bool) (moist : Fin (cells 2 0) → ℝ) (c : Fin (cells 2 0)) (f : Fin 1) (v : Transport.Speed)
    (h : Transport.grainspeed duneConfig.tr ((turning back moist).wind c) ((turning back moist).duran c f) = .ok v) :
    v = ⟨10, if back then -10 else 10, 0⟩ := by
  unfold Transport.grainspeed at h
  rw [show duneConfig.tr.methodGrainspeed = "windspeed" from rfl, if_neg (by decide), if_pos rfl] at h
  rw [← Except.ok.inj h]
  cases back <;> rfl

theorem turning_ok (back : Bool) (moist : Fin (cells 2 0) → ℝ) : EnvOk duneConfig (turning back moist) := by
  refine C125_any_direction duneConfig rfl _ (by norm_num [turning, duneEnv]) (Or.inl rfl) (if back then -10 else 10) ?_ ?_ ?_
  · intro c
    cases back <;> norm_num [turning]
  · intro c
    cases back <;> norm_num [turning]
  · intro c
    norm_num [turning, duneEnv]

theorem turning_below (back : Bool) (moist : Fin (cells 2 0) → ℝ) :
    Steadying duneConfig (turning back moist) ∧ Copes 2 0 duneConfig 0.0025 159 (turning back moist).dt ∧
      ∀ τ ρ, transport byInverse duneConfig (turning back moist) τ = some (.ok ρ) →
        (∀ c f, (ρ.cap c f).Cu ≤ 0.0025 ∧ (ρ.cap c f).Cuf ≤ 0.0025) ∧ EndsBelow duneConfig 0.0025 ρ := by
  refine ⟨⟨fun c c' _ _ f s s' h1 h2 => ?_, fun h => absurd h (lt_irrefl 0)⟩, copes_one (by norm_num [duneConfig, duneEnv, turning]), fun τ ρ hρ => ?_⟩
  · rw [turning_speed _ _ _ _ _ h1, turning_speed _ _ _ _ _ h2]
  have hP := transport_ok.mp hρ
  have hu : ∀ c f, (ρ.speed c f) = ⟨10, if back then -10 else 10, 0⟩ := by
    intro c f
    refine turning_speed back moist c f _ ?_
    simpa [duneConfig_ok.transport.2] using hP.speed c f
  refine ⟨fun c f => ?_, ⟨fun c _ f => ⟨fun _ => ?_, fun h => ?_⟩, fun c _ f => ⟨fun _ => ?_, fun h => ?_⟩⟩⟩
  · have := bagnold_le duneConfig_ok (turning_ok back moist) rfl hP c f (by rw [hu]; norm_num)
    rw [hu] at this
    have e : duneConfig.tr.Cb * (duneConfig.tr.rhoa / duneConfig.tr.g) * ((turning back moist).wind c).ustar ^ 3 * (1 / 10) *
        duneConfig.tr.accfac ≤ (0.0025 : ℝ) := by
      cases back <;> norm_num [duneConfig, exTransport, turning]
    exact ⟨this.1.trans e, this.2.1.trans e⟩
  · show (0 : ℝ) * _ ≤ _
    norm_num
  · exact absurd h (by decide)
  · show (0 : ℝ) * _ ≤ _
    norm_num
  · exact absurd h (by decide)

/-- Storms of any number and length, from the sea and from the land in any order: the run exists, stays sound, the concentrations stay below the
capacity, the balance holds and no sand is created. -/
example (back : ℕ → Bool) (moist : ℕ → Fin (cells 2 0) → ℝ) :
    ∃ σ : ℕ → Whole.State 2 0 1, σ 0 = duneState 2 0 ∧
      (∀ k, Whole.step byInverse duneConfig (turning (back k) (moist k)) (σ k) = some (.ok (σ (k + 1)))) ∧
      ∀ n, sandMass duneConfig (σ 0) + ∑ k ∈ range n, throughput duneConfig (turning (back k) (moist k)) (σ (k + 1)) ≤
          sandMass duneConfig (σ n) ∧
        sandMass duneConfig (σ n) ≤ sandMass duneConfig (σ 0) + n * 1e-6 := by
  obtain ⟨σ, h0, h⟩ := states_exist byInverse duneConfig duneConfig_ok duneConfig_names duneGrid
    (fun k => turning (back k) (moist k)) (fun k _ => turning_ok (back k) (moist k)) (duneState 2 0) fun _ _ => le_rfl
  refine ⟨σ, h0, h, fun n => ?_⟩
  obtain ⟨a, b⟩ := C131_fractions byInverse byInverse_exact duneConfig duneConfig_ok duneGrid dune_balance 159 0.0025 (by norm_num)
    (by norm_num) (fun k => turning (back k) (moist k)) σ n
    (fun k _ _ => ⟨turning_ok (back k) (moist k), Or.inl rfl,
      (turning_below (back k) (moist k)).1, (turning_below (back k) (moist k)).2.1, (turning_below (back k) (moist k)).2.2⟩)
    (by rw [h0]; exact duneState_sound 2 0) (by rw [h0]; intro c f; norm_num [duneState]) fun k _ => h k
  have e : duneConfig.setup.bed.maxError * (1 : ℕ) * innerArea 2 0 duneConfig = 1e-6 := by
    unfold innerArea
    norm_num [duneConfig]
  rw [e] at b
  have a := a fun _ _ _ _ => rfl
  exact ⟨by linarith, (b fun _ _ _ => le_rfl).2 fun k _ _ => ⟨fun _ => rfl, fun _ => rfl, Or.inr ⟨fun _ => rfl, fun _ => rfl⟩⟩⟩

/-- The systems of the storms from the land can be solved. -/
example (moist : Fin (cells 2 0) → ℝ) (speed : Fin (cells 2 0) → Fin 1 → Transport.Speed) (A)
    (hA : matrices duneConfig (turning true moist) speed = .ok A) : IsUnit (A 0) :=
  C132_solvable duneConfig le_rfl one_pos (by norm_num [duneConfig]) (by norm_num [duneConfig])
    (fun _ _ => by norm_num [duneConfig]) (Or.inl rfl) (Or.inl rfl) _ (by norm_num [turning, duneEnv]) speed A hA 0

end Aeolis.Props
