import Verif.Model.SandStep
import Verif.Props.BedMore
import Verif.Props.BedLarge
import Verif.Props.Weights
import Verif.Props.SandBudget
import Verif.Props.SolverSystem

/-!
C122: what never changes in a run.
-/

set_option linter.unusedSectionVars false

namespace Aeolis.Props

open Finset Aeolis.Spec Aeolis.Sand Aeolis.Solver

variable {K : Type*} [Field K] [LinearOrder K] [IsStrictOrderedRing K] [FloorRing K] {nx ny nf : ℕ}

/-- A physical state: in every cell each layer holds the mass `M`, no fraction has a negative mass, and no concentration is negative. -/
structure Physical (nl : ℕ) (M : K) (σ : State K nx ny nf) : Prop where
  layers : ∀ c, ∀ k < nl, layerTotal (σ.bed c).mass k = M
  mass : ∀ c, ∀ k < nl, ∀ f, 0 ≤ (σ.bed c).mass k f
  air : ∀ c f, 0 ≤ σ.Ct c f

/-- A sensible configuration: at least one layer and one fraction, a source of sand below the bed. -/
structure Setup.Sensible (S : Setup K nf) : Prop where
  layers : 0 < S.bed.nl
  fractions : 0 < nf
  thick : ∀ k, 0 ≤ S.thlyr k
  source : ∀ f, 0 ≤ S.bed.source.raw f
  sourceSum : (∑ f, S.bed.source.raw f) ≠ 0

/-- What a time step needs: positive time scales, non-negative equilibrium concentrations and starting weights, and solutions of the
linear systems that are not negative in total. -/
structure Forcing.Sensible (F : Forcing K nx ny nf) : Prop where
  time : 0 < F.solver.T ∧ 0 < F.solver.dt ∧ 0 ≤ F.solver.maxError
  Cu : ∀ c f, 0 ≤ F.solver.Cu c f
  weights : ∀ c f, 0 ≤ F.w c f
  lin : ∀ f w, (∀ c, 0 ≤ w c) → 0 ≤ ∑ c, preventTinyNegatives F.solver.maxError 0 (F.solver.lin f w c)

/-- The solver converges (no warning), and the deposition in no cell equals the mass of a layer to the last digit. -/
def Forcing.Converges (M : K) (S : Setup K nf) (F : Forcing K nx ny nf) (σ : State K nx ny nf) : Prop :=
  F.windy = true → ∀ o, solve (solverInput F (mix S F σ)) σ.Ct F.pk F.w = .ok o →
    (∀ f, o.conv f = true) ∧ ∀ c, -∑ f, o.pickup c f ≠ M

/-- One update of the bed of a cell with layers of equal mass, whatever the deposition. -/
theorem update_physical (p : Bed.Params K nf) (M : K) (hM : 0 ≤ M) (hnl : 0 < p.nl) (hs : ∀ f, 0 ≤ p.source.raw f)
    (hsum : (∑ f, p.source.raw f) ≠ 0) (s : Bed.Cell K nf) (hl : ∀ k < p.nl, layerTotal s.mass k = M)
    (hn : ∀ k < p.nl, ∀ f, 0 ≤ s.mass k f) (ha : ∀ f, s.pickup f ≤ s.mass 0 f) (hne : -∑ f, s.pickup f ≠ M) :
    (∀ k < p.nl, layerTotal (Bed.update p s).mass k = M) ∧ ∀ k < p.nl, ∀ f, 0 ≤ (Bed.update p s).mass k f := by
  have h0 : layerTotal s.mass 0 = M := hl 0 hnl
  rcases lt_or_gt_of_ne hne with h | h
  · have hadm : Admissible p.nl s.mass s.pickup := by
      refine ⟨hnl, hn, ha, fun k hk => ?_, fun _ => by rw [h0]; exact h⟩
      rw [hl k hk, abs_le]
      refine ⟨by linarith, ?_⟩
      rw [← h0]
      exact sum_le_sum fun f _ => ha f
    exact ⟨fun k hk => by rw [C33_layer_mass_constant p s hadm hs hsum k hk, hl k hk], C35_no_negative_mass p s hadm hs⟩
  · have := C33_layer_mass_constant_large_deposit p s M hM hnl hn ha hl h
    exact ⟨fun k hk => (this k hk).1, fun k hk => (this k hk).2⟩

theorem mix_physical (S : Setup K nf) (M : K) (h : Setup.Sensible S) (F : Forcing K nx ny nf) (σ : State K nx ny nf)
    (hσ : Physical S.bed.nl M σ) : Physical S.bed.nl M (mix S F σ) :=
  ⟨fun c => C38_mixing_keeps_equal_layer_mass _ _ _ _ _ _ _ M (hσ.layers c),
    fun c => C38_mixing_nonneg _ _ _ _ _ _ _ h.thick (hσ.mass c), hσ.air⟩

/-- **C122** A time step with any waves, wind, transport capacity, deposition and change of bed levels keeps the state physical: every
layer of every cell keeps its mass, no fraction gets a negative mass and no concentration becomes negative. -/
theorem C122_step (S : Setup K nf) (M : K) (hM : 0 ≤ M) (h : Setup.Sensible S) (F : Forcing K nx ny nf) (hF : Forcing.Sensible F)
    (σ σ' : State K nx ny nf) (hσ : Physical S.bed.nl M σ) (hc : Forcing.Converges M S F σ) (hr : fullStep S F σ = .ok σ') :
    Physical S.bed.nl M σ' := by
  have h1 := mix_physical S M h F σ hσ
  unfold fullStep at hr
  simp only [bind, Except.bind, pure, Except.pure] at hr
  cases hw : F.windy with
  | false =>
    rw [hw] at hr
    simp only [Bool.false_eq_true, if_false] at hr
    rw [← Except.ok.inj hr]
    exact ⟨h1.layers, h1.mass, h1.air⟩
  | true =>
    rw [hw] at hr
    simp only [if_true] at hr
    unfold step at hr
    simp only [bind, Except.bind, pure, Except.pure] at hr
    have hCt : (mix S F σ).Ct = σ.Ct := rfl
    cases ho : solve (solverInput F (mix S F σ)) (mix S F σ).Ct F.pk F.w with
    | error e => rw [ho] at hr; cases hr
    | ok o =>
      rw [ho] at hr
      simp only at hr
      obtain ⟨hconv, hne⟩ := hc hw o (by rw [← hCt]; exact ho)
      have hok : SolveOk (solverInput F (mix S F σ)) :=
        ⟨hF.time.1, hF.time.2.1, hF.time.2.2, hF.Cu, fun c f => h1.mass c 0 h.layers f, hF.lin⟩
      obtain ⟨_, _, hair, hpk⟩ := C81_solve _ hok _ F.pk F.w hF.weights h.fractions o ho
      rw [← Except.ok.inj hr]
      have hcell : ∀ c, _ := fun c => update_physical S.bed M hM h.layers h.source h.sourceSum
        { (mix S F σ).bed c with pickup := o.pickup c } (h1.layers c) (h1.mass c) (fun f => hpk f (hconv f) c) (hne c)
      exact ⟨fun c => (hcell c).1, fun c => (hcell c).2, hair⟩

/-- **C122** The same for any number of time steps. -/
theorem C122_run (S : Setup K nf) (M : K) (hM : 0 ≤ M) (h : Setup.Sensible S) (Fs : List (Forcing K nx ny nf))
    (hF : ∀ F ∈ Fs, Forcing.Sensible F) (σ σ' : State K nx ny nf) (hσ : Physical S.bed.nl M σ)
    (hc : ∀ before F after σ₁, Fs = before ++ F :: after → run S before σ = .ok σ₁ → Forcing.Converges M S F σ₁)
    (hr : run S Fs σ = .ok σ') : Physical S.bed.nl M σ' := by
  induction Fs generalizing σ with
  | nil => rw [← Except.ok.inj hr]; exact hσ
  | cons F Fs ih =>
    unfold run at hr
    rw [List.foldlM_cons] at hr
    simp only [bind, Except.bind] at hr
    cases h1 : fullStep S F σ with
    | error e => rw [h1] at hr; cases hr
    | ok σ₁ =>
      rw [h1] at hr
      have hp := C122_step S M hM h F (hF F (by simp)) σ σ₁ hσ (hc [] F Fs σ rfl rfl) h1
      refine ih (fun F' h' => hF F' (by simp [h'])) σ₁ hp (fun before F' after σ₂ he hb => ?_) hr
      refine hc (F :: before) F' after σ₂ (by rw [he]; rfl) ?_
      unfold run at hb ⊢
      rw [List.foldlM_cons]
      simp only [bind, Except.bind, h1]
      exact hb

/-- **C122** The state at the start of a run is physical: layers of equal thickness with one grain size distribution, no sand in the
air. -/
theorem C122_start (nl : ℕ) (rho por th : K) (int : Bool) (g : Fin nf → K) (hr : 0 ≤ rho) (hp : por ≤ 1) (ht : 0 ≤ th)
    (hg : ∀ f, 0 ≤ g f) (hs : (∑ f, g f) ≠ 0) (m : Bed.Mass K nf) (hm : Bed.initMass nl rho por (fun _ => th) int none (.single g) = some m)
    (σ : State K nx ny nf) (hb : ∀ c, (σ.bed c).mass = m) (hC : ∀ c f, σ.Ct c f = 0) :
    Physical nl (rho * (1 - por) * th) σ ∧ 0 ≤ rho * (1 - por) * th := by
  obtain ⟨m', h1, h2⟩ := C32_initial_composition_single nl rho por (fun _ => th) int g hr hp (fun _ => ht) hg hs
  rw [hm] at h1
  obtain rfl := Option.some.inj h1
  refine ⟨⟨fun c k _ => ?_, fun c k _ f => ?_, fun c f => by rw [hC]⟩, mul_nonneg (mul_nonneg hr (by linarith)) ht⟩
  · rw [hb]; exact (h2 k).1
  · rw [hb]; exact (h2 k).2.2 f

/-- **C122** A step always returns if the solver may iterate at least once. -/
theorem C122_total (S : Setup K nf) (F : Forcing K nx ny nf) (hi : 1 ≤ F.solver.maxIter) (σ : State K nx ny nf) :
    ∃ σ', fullStep S F σ = .ok σ' := by
  unfold fullStep
  cases hw : F.windy with
  | false => exact ⟨_, rfl⟩
  | true =>
    obtain ⟨o, ho⟩ := C81_total (solverInput F (mix S F σ)) hi (mix S F σ).Ct F.pk F.w
    simp only [if_true, step, bind, Except.bind, ho]
    exact ⟨_, rfl⟩

/-- Non-negative values in the right-hand side for one fraction. -/
structure NonnegInputs (v : Rhs K) : Prop where
  Cu : ∀ i j, 0 ≤ v.Cu i j
  Cuf : ∀ i j, 0 ≤ v.Cuf i j
  S : ∀ i j, 0 ≤ v.S i j ∧ v.S i j ≤ 1
  lCt : ∀ i j, 0 ≤ v.lCt i j
  ends : ∀ i, 0 ≤ v.offFlux i ∧ 0 ≤ v.onFlux i ∧ 0 ≤ v.offConst i ∧ 0 ≤ v.onConst i

/-- **C122** The condition on the solutions of the linear systems holds for onshore wind, Euler backward and every exact linear solver,
unless the landward end is extrapolated: no concentration is negative at all. -/
theorem C122_onshore (F : Forcing K nx ny nf) (sys : Fin nf → Adv K) (b : Bounds) (qoff qon : ℕ → K) (bc : BcRows K) (rhs : Fin nf → Rhs K)
    (hb : boundaries b qoff qon = .ok bc) (hoff : b.off = "flux" ∨ b.off = "noflux" ∨ b.off = "constant")
    (hon : b.on ≠ "gradient" ∨ b.off = "noflux")
    (hsys : ∀ f, Onshore (sys f) ∧ (sys f).nx = nx ∧ (sys f).ny = ny ∧ (sys f).alpha = 1) (hv : ∀ f, NonnegInputs (rhs f))
    (hlin : ∀ f w, (∀ c, 0 ≤ w c) → Solves (sys f) b bc { rhs f with w := onGrid (nx := nx) (ny := ny) w }
      (onGrid (nx := nx) (ny := ny) (F.solver.lin f w))) (f : Fin nf) (w : Fin (cells nx ny) → K) (hw : ∀ c, 0 ≤ w c) :
    (∀ c, 0 ≤ F.solver.lin f w c) ∧ 0 ≤ ∑ c, preventTinyNegatives F.solver.maxError 0 (F.solver.lin f w c) := by
  have key : ∀ c, 0 ≤ F.solver.lin f w c := by
    obtain ⟨hs, h1, h2, h3⟩ := hsys f
    obtain ⟨A, hA, hX⟩ := hlin f w hw
    have hw' : ∀ i j, 0 ≤ onGrid (nx := nx) (ny := ny) w i j := by
      intro i j; unfold onGrid; split
      · exact hw _
      · exact le_rfl
    have hTi : 0 ≤ (sys f).Ti := div_nonneg hs.dt hs.T
    have hy : ∀ i j, 0 ≤ (sys f).rhs b { rhs f with w := onGrid (nx := nx) (ny := ny) w } i j := by
      intro i j
      have e := (hv f).ends i
      have hin : 0 ≤ (sys f).yIm { rhs f with w := onGrid (nx := nx) (ny := ny) w } i j :=
        add_nonneg (mul_nonneg (mul_nonneg (mul_nonneg (hw' i j) ((hv f).Cuf i j)) hTi) (by linarith [((hv f).S i j).2]))
          (mul_nonneg (mul_nonneg (mul_nonneg (hw' i j) ((hv f).Cu i j)) hTi) ((hv f).S i j).1)
      have hm : 0 ≤ (rhs f).lCt i j + (sys f).alpha * (sys f).yIm { rhs f with w := onGrid (nx := nx) (ny := ny) w } i j +
          (1 - (sys f).alpha) * (sys f).yEx { rhs f with w := onGrid (nx := nx) (ny := ny) w } i j := by
        rw [h3]
        have := (hv f).lCt i j
        linarith
      unfold Adv.rhs
      simp only
      split_ifs <;> first | exact e.1 | exact e.2.1 | exact e.2.2.1 | exact e.2.2.2 | exact hm | exact le_rfl
    have hn := C48_nonneg (sys f) b qoff qon bc hs hb hoff A hA _ (fun c => by rw [hX]; exact hy _ _)
    intro c
    have hc : (c : ℕ) < ((sys f).ny + 1) * ((sys f).nx + 1) := by rw [h1, h2]; exact c.2
    have := hn ⟨c, hc⟩ (Or.inr hon)
    simp only [h1, onGrid, Nat.div_add_mod'] at this
    rw [dif_pos c.2] at this
    exact this
  refine ⟨key, sum_nonneg fun c _ => ?_⟩
  unfold preventTinyNegatives
  split
  · exact le_rfl
  · exact key c

/-! ### Waves and wind over the transect of three cells -/

/-- One layer of a centimetre, mixed by waves. -/
def shortBeachSetup : Setup ℚ 1 := { bed := exParams1, mixing := true, facDOD := 1 / 10, thlyr := fun _ => 1 / 100 }

/-- Waves of half a metre, onshore wind, bed levels left alone. -/
def shortBeachForcing : Forcing ℚ 2 0 1 :=
  { hsmix := fun _ => 1 / 2, windy := true, solver := shortBeachStep.solver, pk := shortBeachStep.pk, w := shortBeachStep.w,
    levels := id }

theorem shortBeachForcing_converges : Forcing.Converges 10 shortBeachSetup shortBeachForcing shortBeachState := by
  intro _ o ho
  have : (solve (solverInput shortBeachForcing (mix shortBeachSetup shortBeachForcing shortBeachState)) shortBeachState.Ct
      shortBeachForcing.pk shortBeachForcing.w).toOption.map
      (fun o => decide ((∀ f, o.conv f = true) ∧ ∀ c, -∑ f, o.pickup c f ≠ 10)) = some true := by decide +kernel
  rw [ho] at this
  simpa [Except.toOption] using this

theorem shortBeachForcing_sensible : Forcing.Sensible shortBeachForcing where
  time := by norm_num [shortBeachForcing, shortBeachStep]
  Cu _ _ := by norm_num [shortBeachForcing, shortBeachStep]
  weights _ _ := by norm_num [shortBeachForcing, shortBeachStep]
  lin f w hw := by
    refine sum_nonneg fun c _ => ?_
    have : 0 ≤ shortBeachForcing.solver.lin f w c := by
      show (0 : ℚ) ≤ if (c : ℕ) = 0 then 0 else w 1 / 3
      split
      · exact le_rfl
      · exact div_nonneg (hw 1) (by norm_num)
    unfold preventTinyNegatives
    split
    · exact le_rfl
    · exact this

example : ∃ σ', fullStep shortBeachSetup shortBeachForcing shortBeachState = .ok σ' ∧ Physical 1 10 σ' := by
  obtain ⟨σ', h⟩ := C122_total shortBeachSetup shortBeachForcing (by norm_num [shortBeachForcing, shortBeachStep]) shortBeachState
  refine ⟨σ', h, C122_step shortBeachSetup 10 (by norm_num) ⟨by norm_num [shortBeachSetup, exParams1], by norm_num,
    fun _ => by norm_num [shortBeachSetup], fun _ => by norm_num [shortBeachSetup, exParams1, Bed.Source.raw],
    by norm_num [shortBeachSetup, exParams1, Bed.Source.raw]⟩ shortBeachForcing shortBeachForcing_sensible shortBeachState σ'
    ⟨fun _ _ _ => ?_, fun _ _ _ _ => by norm_num [shortBeachState], fun _ _ => by norm_num [shortBeachState]⟩
    shortBeachForcing_converges h⟩
  norm_num [layerTotal, shortBeachState]

example : ∀ c, 0 ≤ shortBeachForcing.solver.lin 0 (fun _ => 1) c := by
  refine (C122_onshore shortBeachForcing shortBeachStep.sys shortBeachStep.bounds (fun _ => 0) (fun _ => 0) shortBeachStep.bc
    shortBeachStep.rhs rfl (Or.inl rfl) (Or.inl (by decide)) (fun f => ⟨?_, rfl, rfl, rfl⟩) (fun f => ?_) (fun f w _ => ?_) 0
    (fun _ => 1) (fun _ => by norm_num)).1
  · exact
      { nx := by norm_num [shortBeachStep], ny := by norm_num [shortBeachStep], dt := by norm_num [shortBeachStep],
        T := by norm_num [shortBeachStep], alpha := by norm_num [shortBeachStep], beta := by norm_num [shortBeachStep],
        ds := fun _ _ _ _ => by norm_num [shortBeachStep], dn := fun _ _ _ _ => by norm_num [shortBeachStep],
        dsdni := fun _ _ _ _ => by norm_num [shortBeachStep], us := fun _ _ _ _ => by norm_num [shortBeachStep],
        un := fun _ _ _ _ _ => by norm_num [shortBeachStep], wrap := fun _ _ _ => by norm_num [shortBeachStep],
        cells := fun _ _ _ _ _ => by norm_num [shortBeachStep] }
  · have h : ∀ i j, (0 : ℚ) ≤ onGrid (nx := 2) (ny := 0) (fun _ => 1) i j := by
      intro i j; unfold onGrid; split <;> norm_num
    exact ⟨h, h, fun _ _ => by norm_num [shortBeachStep], fun _ _ => le_rfl, fun _ => ⟨le_rfl, le_rfl, le_rfl, le_rfl⟩⟩
  · obtain rfl : f = 0 := Subsingleton.elim _ _
    exact shortBeach_lin w

/-- A bed with little of the first fraction. -/
def scarceSetup : Setup ℚ 2 :=
  { bed := { nl := 1, rhog := 2650, porosity := 2 / 5, maxError := 1 / 1000000, source := .uniform ![1, 1], processBedupdate := true,
             processTide := false },
    mixing := false, facDOD := 1 / 10, thlyr := fun _ => 1 / 100 }

/-- Strong wind over the bed with little of the first fraction; one iteration. -/
def scarceForcing : Forcing ℚ 0 0 2 :=
  { hsmix := fun _ => 0, windy := true, pk := fun _ _ => 0, w := fun _ => ![1, 0], levels := id,
    solver := { T := 1, dt := 1, maxError := 1 / 1000000, maxIter := 1, Cu := fun _ _ => 3, mass := fun _ _ => 0, lin := fun _ _ _ => 0 } }

/-- The bed with little of the first fraction. -/
def scarceState : State ℚ 0 0 2 :=
  { bed := fun _ => { mass := fun _ => ![1 / 2, 19 / 2], pickup := fun _ => 0, zb := 1, zs := 0, dzb := 0 }, Ct := fun _ _ => 0 }

/-- **C122** Convergence is needed: if the solver stops before (a warning only), a mass can become negative. -/
theorem C122_unconverged_negative : ∃ (S : Setup ℚ 2) (F : Forcing ℚ 0 0 2) (σ σ' : State ℚ 0 0 2), Setup.Sensible S ∧
    Forcing.Sensible F ∧ Physical S.bed.nl 10 σ ∧ fullStep S F σ = .ok σ' ∧ (σ'.bed 0).mass 0 0 < 0 := by
  obtain ⟨σ', h⟩ := C122_total scarceSetup scarceForcing le_rfl scarceState
  refine ⟨scarceSetup, scarceForcing, scarceState, σ', ⟨by norm_num [scarceSetup], by norm_num, fun _ => by norm_num [scarceSetup],
    fun f => ?_, by norm_num [scarceSetup, Bed.Source.raw]⟩, ⟨by norm_num [scarceForcing], fun _ _ => by norm_num [scarceForcing],
    fun _ f => ?_, fun _ _ _ => ?_⟩, ⟨fun _ _ _ => by norm_num [layerTotal, scarceState], fun _ _ _ f => ?_, fun _ _ => le_rfl⟩, h, ?_⟩
  · fin_cases f <;> norm_num [scarceSetup, Bed.Source.raw]
  · fin_cases f <;> norm_num [scarceForcing]
  · refine sum_nonneg fun c _ => ?_
    unfold preventTinyNegatives
    split <;> exact le_rfl
  · fin_cases f <;> norm_num [scarceState]
  · have : (fullStep scarceSetup scarceForcing scarceState).toOption.map (fun σ => decide ((σ.bed 0).mass 0 0 < 0)) = some true := by
      decide +kernel
    rw [h] at this
    simpa [Except.toOption] using this

end Aeolis.Props
