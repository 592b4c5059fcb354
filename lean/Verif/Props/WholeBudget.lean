import Verif.Props.WholeExamples
import Verif.Props.SandBudget
import Verif.Props.SolverEnds

/-!
C131: the balance of sand over the whole chain from wind to bed.
-/

set_option linter.unusedSectionVars false

namespace Aeolis.Props

open Finset Aeolis.Spec Aeolis.Sand Aeolis.Solver Aeolis.Whole

variable {nx ny nf : ℕ}

/-- The grid of a configuration. -/
def domain (nx ny : ℕ) (C : Whole.Config nf) : Domain ℝ := ⟨nx, ny, C.ds, C.dn⟩

/-- What a balance needs: circular lateral ends, cell areas that match the sizes, equal widths in a row, no layer that cannot be eroded, bed
levels that are updated. -/
structure BalanceOk (nx ny : ℕ) (C : Whole.Config nf) : Prop where
  lateral : C.bounds.lat = "circular"
  area : ∀ i ≤ ny, ∀ j ≤ nx, C.ds i j * C.dn i j * C.dsdni i j = 1
  width : ∀ i ≤ ny, ∀ j ≤ nx, C.dn i j = C.dn i 0
  erodible : C.thr.thNelayer = false
  update : C.setup.bed.processBedupdate = true
  density : 0 < C.setup.bed.rhog * (1 - C.setup.bed.porosity)

/-- A transect with wind from any direction, or a grid of equal rows with an alongshore speed that does not vary alongshore. -/
def Rows (C : Whole.Config nf) (E : Env nx ny nf) : Prop :=
  ny = 0 ∨
  (0 < ny ∧ (∀ i ≤ ny, ∀ j ≤ nx, C.ds i j = C.ds 0 j) ∧ (∀ i ≤ ny, C.dn i 0 = C.dn 0 0) ∧
    ∀ c c' : Fin (cells nx ny), (c : ℕ) % (nx + 1) = c' % (nx + 1) → ∀ f s s', Transport.grainspeed C.tr (E.wind c) (E.duran c f) = .ok s →
      Transport.grainspeed C.tr (E.wind c') (E.duran c' f) = .ok s' → s.un = s'.un)

/-- Mass of sand that the wind carries through column `j` of the grid in a time step. -/
noncomputable def carried (C : Whole.Config nf) (E : Env nx ny nf) (σ : Whole.State nx ny nf) (j : ℕ) : ℝ :=
  E.dt * ∑ i ∈ range (ny + 1), C.dn i 0 * ∑ f, onGrid (nx := nx) (ny := ny) (fun c => (σ.speed c f).us) i j *
    onGrid (nx := nx) (ny := ny) (fun c => σ.sand.Ct c f) i j

/-- Mass of sand that leaves a transect sideways in a time step; on a grid what leaves a row enters the next. -/
noncomputable def sideways (C : Whole.Config nf) (E : Env nx ny nf) (σ : Whole.State nx ny nf) : ℝ :=
  if ny = 0 then E.dt * ∑ j ∈ Ico 1 nx, C.ds 0 j * ∑ f, |onGrid (nx := nx) (ny := ny) (fun c => (σ.speed c f).un) 0 j| *
    onGrid (nx := nx) (ny := ny) (fun c => σ.sand.Ct c f) 0 j else 0

/-- Mass of sand that enters between the first and the last column through the ends in a time step less what leaves, by the grain speeds and
concentrations at its end, less what is lost where the wind changes direction and what leaves a transect sideways. -/
noncomputable def passed (C : Whole.Config nf) (E : Env nx ny nf) (σ : Whole.State nx ny nf) : ℝ :=
  ∑ f, supply (system C E σ.speed f) (onGrid (nx := nx) (ny := ny) fun c => σ.sand.Ct c f)

/-- Mass of the sand between the first and last column: bed level times bulk density, and what is in the air. -/
noncomputable def sandMass (C : Whole.Config nf) (σ : Whole.State nx ny nf) : ℝ :=
  ∑ i ∈ range (ny + 1), ∑ j ∈ Ico 1 nx, C.ds i j * C.dn i j *
    (C.setup.bed.rhog * (1 - C.setup.bed.porosity) * onGrid (nx := nx) (ny := ny) (fun c => (σ.sand.bed c).zb) i j +
      ∑ f, onGrid (nx := nx) (ny := ny) (fun c => σ.sand.Ct c f) i j)

/-- Area between the first and last column. -/
noncomputable def innerArea (nx ny : ℕ) (C : Whole.Config nf) : ℝ := ∑ i ∈ range (ny + 1), ∑ j ∈ Ico 1 nx, C.ds i j * C.dn i j

/-- No cell receives more sand than its top layer holds. -/
def Gentle (sp : LinSolve nx ny) (C : Whole.Config nf) (E : Env nx ny nf) (σ : Whole.State nx ny nf) : Prop :=
  ∀ σ', transport sp C E σ = some (.ok σ') → ∀ A o, matrices C E σ'.speed = .ok A →
    solve (solverIn sp C E σ σ'.cap σ'.speed A) σ.sand.Ct (fun c => (σ.sand.bed c).pickup) (initialWeights C E σ σ'.cap) = .ok o →
    ∀ c, -∑ f, o.pickup c f < layerTotal (σ.sand.bed c).mass 0

theorem onGrid_index (X : Fin (cells nx ny) → ℝ) (c : Fin (cells nx ny)) :
    onGrid (nx := nx) (ny := ny) X ((c : ℕ) / (nx + 1)) ((c : ℕ) % (nx + 1)) = X c := by
  unfold onGrid
  have h : (c : ℕ) / (nx + 1) * (nx + 1) + (c : ℕ) % (nx + 1) = c := Nat.div_add_mod' _ _
  rw [dif_pos (by rw [h]; exact c.2)]
  congr 1
  exact Fin.ext h

/-- The step of the chain as a step of the balance of bed and air. -/
noncomputable def asStep (sp : LinSolve nx ny) (C : Whole.Config nf) (E : Env nx ny nf) (σ σ' : Whole.State nx ny nf) (bc : BcRows ℝ)
    (A : Fin nf → Matrix (Fin (cells nx ny)) (Fin (cells nx ny)) ℝ) : Sand.Step ℝ nx ny nf where
  sys f := system C E σ'.speed f
  bounds := C.bounds
  bc := bc
  rhs f := values C E σ σ'.cap σ'.speed f fun _ => 0
  solver := solverIn sp C E σ σ'.cap σ'.speed A
  pk c := (σ.sand.bed c).pickup
  w := initialWeights C E σ σ'.cap

theorem matrices_bounds {C : Whole.Config nf} {E : Env nx ny nf} {speed : Fin (cells nx ny) → Fin nf → Transport.Speed}
    {A : Fin nf → Matrix (Fin (cells nx ny)) (Fin (cells nx ny)) ℝ} (hA : matrices C E speed = .ok A) (hf : 0 < nf) :
    ∃ bc, (∀ f, boundaries C.bounds (system C E speed f).offRatio (system C E speed f).onRatio = .ok bc) ∧
      ∀ f, (system C E speed f).matrix bc = .ok (A f) := by
  have h0 := collect_ok.mp hA ⟨0, hf⟩
  split at h0
  · cases h0
  rename_i bc hb
  refine ⟨bc, fun f => hb, fun f => ?_⟩
  have h1 := collect_ok.mp hA f
  rw [show boundaries C.bounds (system C E speed f).offRatio (system C E speed f).onRatio = .ok bc from hb] at h1
  exact h1

theorem asStep_fits (sp : LinSolve nx ny) (hsp : Exact sp) (C : Whole.Config nf) (hC : ConfigOk C) (hG : GridOk nx ny C)
    (hB : BalanceOk nx ny C) (M : ℝ) (E : Env nx ny nf) (hE : EnvOk C E) (hside : Rows C E) (σ σ' : Whole.State nx ny nf)
    (hσ : Sound C.setup.bed.nl M σ) (hP : Parts sp C E σ σ') (bc : BcRows ℝ)
    (A : Fin nf → Matrix (Fin (cells nx ny)) (Fin (cells nx ny)) ℝ) (hA : matrices C E σ'.speed = .ok A)
    (hbc : ∀ f, boundaries C.bounds (system C E σ'.speed f).offRatio (system C E σ'.speed f).onRatio = .ok bc)
    (hm : ∀ f, (system C E σ'.speed f).matrix bc = .ok (A f)) (hf : 0 < nf) :
    Step.Fits (domain nx ny C) σ.sand (asStep sp C E σ σ' bc A) := by
  have hs : ∀ c f, Transport.grainspeed C.tr (E.wind c) (E.duran c f) = .ok (σ'.speed c f) := by
    intro c f
    simpa [hC.transport.2] using hP.speed c f
  obtain ⟨hcap, hsame⟩ := transport_cap hC hE (fun c f => (hσ.cap c f).2.2) hP
  have hthr := step_thresholds hC hE hP
  have heq : ∀ c f, (σ'.cap c f).Cuf = (σ'.cap c f).Cu := by
    intro c f
    refine (cap_of_thresholds hC.toNumericsOk hE (fun c f => (hσ.cap c f).2.2) hP (fun c => (hthr c).1) c f).2.1 ?_
    obtain ⟨u, _, h1, _, h2, _⟩ := compute_first C.thr (thrCell E σ c) (σ.thr c) (σ'.thr c) hC.threshold.1 hC.threshold.2.1
      hC.threshold.2.2.1 (hP.thr c)
    rw [h1, h2 (by simp [hB.erodible])]
  have hmass : ∀ c f, 0 ≤ (σ.sand.bed c).mass 0 f := fun c f => hσ.sand.mass c 0 hC.setup.layers f
  exact
    { nx := fun _ => rfl, ny := fun _ => rfl, ds := fun _ => rfl, dn := fun _ => rfl, dsPos := hG.ds, dnPos := hG.dn, dt := fun _ => rfl
      T := fun _ => rfl, alpha := fun _ => hC.scheme.1
      flow := fun f => ⟨hG.columns, hC.scheme.2, hC.T.ne', by
          have := hbc f
          unfold boundaries at this
          split at this
          · cases this
          · split at this
            · cases this
            · rw [hB.lateral] at this
              simp only [lateral] at this
              norm_num at this
              show bc.latUnit = false
              rw [← Except.ok.inj this], hB.area, hB.width⟩
      side := fun f => by
        rcases hside with h1 | ⟨h1, h2, h3, h4⟩
        · exact Or.inl h1
        · refine Or.inr ⟨h1, h2, h3, fun i hi j hj => ?_⟩
          show onGrid (nx := nx) (ny := ny) (fun c => (σ'.speed c f).un) i j = onGrid (nx := nx) (ny := ny) (fun c => (σ'.speed c f).un) 0 j
          have hi : i ≤ ny := hi
          have hj : j ≤ nx := hj
          obtain ⟨k1, _⟩ := grid_at (nx := nx) (ny := ny) hi hj
          obtain ⟨k2, _⟩ := grid_at (nx := nx) (ny := ny) (Nat.zero_le ny) hj
          unfold onGrid
          rw [dif_pos k1, dif_pos k2]
          refine h4 ⟨_, k1⟩ ⟨_, k2⟩ ?_ f _ _ (hs _ f) (hs _ f)
          simp
      Cuf := fun f => by
        funext i j
        show onGrid (nx := nx) (ny := ny) (fun c => (σ'.cap c f).Cuf) i j = onGrid (nx := nx) (ny := ny) (fun c => (σ'.cap c f).Cu) i j
        simp only [heq]
      Cu := fun _ _ _ => rfl, lCt := fun _ _ _ => rfl, mass := fun _ _ => rfl, massPos := hmass, CuPos := fun c f => (hcap c f).1
      timePos := ⟨hC.T, hE.dt, hC.err⟩
      weights := fun c f => by
        show 0 ≤ initialWeights C E σ σ'.cap c f
        unfold initialWeights
        split
        · exact hC.dist f
        · exact C44_nonneg C.bi _ _ _ hC.bi.1 hC.bi.2 (hσ.sand.air c) (fun f => (hcap c f).1) (hmass c) f
      lin := fun f w hw => by
        refine ⟨⟨A f, hm f, ?_⟩, fun c => lin_nonneg hsp hC.toNumericsOk hG hE hs hcap hsame hσ.sand.air hA f w hw c⟩
        have h := (lin_solves hsp σ σ'.cap hC.toNumericsOk hG hE hs hA f w).2
        refine Eq.trans ?_ h
        congr 1
        funext c
        exact onGrid_index ((solverIn sp C E σ σ'.cap σ'.speed A).lin f w) c }

/-- With onshore wind the supply is what enters with the first column less what leaves with the last but one and sideways. -/
theorem supply_onshore (C : Whole.Config nf) (E : Env nx ny nf) (hE : OnshoreWind C E) (σ' : Whole.State nx ny nf)
    (hs : ∀ c f, Transport.grainspeed C.tr (E.wind c) (E.duran c f) = .ok (σ'.speed c f)) :
    ∑ f, supply (system C E σ'.speed f) (onGrid (nx := nx) (ny := ny) fun c => σ'.sand.Ct c f) =
      carried C E σ' 0 - carried C E σ' (nx - 1) - sideways C E σ' := by
  have hus : ∀ f i j, 0 ≤ onGrid (nx := nx) (ny := ny) (fun c => (σ'.speed c f).us) i j := by
    intro f i j
    unfold onGrid
    split
    · exact (hE.us _ f _ (hs _ f)).1
    · exact le_rfl
  have h1 : ∀ f, supply (system C E σ'.speed f) (onGrid (nx := nx) (ny := ny) fun c => σ'.sand.Ct c f) =
      E.dt * ∑ i ∈ range (ny + 1), C.dn i 0 *
        (onGrid (nx := nx) (ny := ny) (fun c => (σ'.speed c f).us) i 0 * onGrid (nx := nx) (ny := ny) (fun c => σ'.sand.Ct c f) i 0 -
          onGrid (nx := nx) (ny := ny) (fun c => (σ'.speed c f).us) i (nx - 1) *
            onGrid (nx := nx) (ny := ny) (fun c => σ'.sand.Ct c f) i (nx - 1)) -
        E.dt * aside (system C E σ'.speed f) (onGrid (nx := nx) (ny := ny) fun c => σ'.sand.Ct c f) := by
    intro f
    have hu : ∀ i j, 0 ≤ (system C E σ'.speed f).us i j := hus f
    have e1 : ∀ x i, entering (system C E σ'.speed f) x i = (system C E σ'.speed f).us i 0 * x i 0 :=
      fun x i => if_pos (hu i 1)
    have e2 : ∀ x i, leaving (system C E σ'.speed f) x i = (system C E σ'.speed f).us i (nx - 1) * x i (nx - 1) :=
      fun x i => if_pos (hu i (nx - 1))
    have e3 : ∀ x i j, lostBetween (system C E σ'.speed f) x i j = 0 :=
      fun x i j => if_pos ⟨fun _ => hu i (j + 1), fun _ => hu i j⟩
    unfold supply
    simp only [e1, e2, e3, sum_const_zero, sub_zero]
    exact mul_sub _ _ _
  have h2 : ∑ f, E.dt * aside (system C E σ'.speed f) (onGrid (nx := nx) (ny := ny) fun c => σ'.sand.Ct c f) = sideways C E σ' := by
    unfold sideways aside
    by_cases hy : ny = 0
    · rw [if_pos hy, ← mul_sum]
      congr 1
      have : ∀ f, (if (system C E σ'.speed f).ny = 0 then ∑ j ∈ Ico 1 (system C E σ'.speed f).nx,
          (system C E σ'.speed f).ds 0 j * |(system C E σ'.speed f).un 0 j| * onGrid (nx := nx) (ny := ny) (fun c => σ'.sand.Ct c f) 0 j else 0) =
          ∑ j ∈ Ico 1 nx, C.ds 0 j * |onGrid (nx := nx) (ny := ny) (fun c => (σ'.speed c f).un) 0 j| *
            onGrid (nx := nx) (ny := ny) (fun c => σ'.sand.Ct c f) 0 j := fun f => if_pos hy
      simp only [this]
      rw [sum_comm]
      refine sum_congr rfl fun j _ => ?_
      rw [mul_sum]
      exact sum_congr rfl fun f _ => mul_assoc _ _ _
    · rw [if_neg hy]
      exact sum_eq_zero fun f _ => by
        have : ¬ (system C E σ'.speed f).ny = 0 := hy
        rw [if_neg this, mul_zero]
  simp only [h1]
  rw [sum_sub_distrib, h2]
  unfold carried
  rw [← mul_sum, ← mul_sub, sum_comm, ← sum_sub_distrib]
  congr 2
  refine sum_congr rfl fun i _ => ?_
  rw [← mul_sub, ← sum_sub_distrib, mul_sum]

/-- **C131** One computation of the transport: the sand in bed and air together grows by no more than what enters through the ends less what
leaves there or sideways, up to the tolerance of the solver; and by no less, if no cell receives more than its top layer holds.  Neither convergence of the
iteration nor one of the formulations is assumed. -/
theorem C131_transport (sp : LinSolve nx ny) (hsp : Exact sp) (C : Whole.Config nf) (hC : ConfigOk C) (hG : GridOk nx ny C)
    (hB : BalanceOk nx ny C) (M : ℝ) (E : Env nx ny nf) (hE : EnvOk C E) (hside : Rows C E) (σ σ' : Whole.State nx ny nf)
    (hσ : Sound C.setup.bed.nl M σ) (h : transport sp C E σ = some (.ok σ')) :
    sandMass C σ' ≤ sandMass C σ + passed C E σ' + C.setup.bed.maxError * nf * innerArea nx ny C ∧
    (Gentle sp C E σ → sandMass C σ + passed C E σ' ≤ sandMass C σ') ∧
    (OnshoreWind C E → passed C E σ' = carried C E σ' 0 - carried C E σ' (nx - 1) - sideways C E σ') := by
  have hP := transport_ok.mp h
  have hs : ∀ c f, Transport.grainspeed C.tr (E.wind c) (E.duran c f) = .ok (σ'.speed c f) := by
    intro c f
    simpa [hC.transport.2] using hP.speed c f
  obtain ⟨A, o, hA, ho, hsand, _⟩ := hP.out
  obtain ⟨bc, hbc, hm⟩ := matrices_bounds hA hC.setup.fractions
  have hfit := asStep_fits sp hsp C hC hG hB M E hE hside σ σ' hσ hP bc A hA hbc hm hC.setup.fractions
  have hstep : Sand.step C.setup.bed (asStep sp C E σ σ' bc A).solver (asStep sp C E σ σ' bc A).pk (asStep sp C E σ σ' bc A).w σ.sand =
      .ok σ'.sand := by
    unfold Sand.step
    rw [show solve (asStep sp C E σ σ' bc A).solver σ.sand.Ct (asStep sp C E σ σ' bc A).pk (asStep sp C E σ σ' bc A).w = .ok o from ho, hsand]
    rfl
  refine ⟨?_, fun hg => ?_, fun hon => supply_onshore C E hon σ' hs⟩
  · exact C116_step_no_more C.setup.bed (domain nx ny C) σ.sand σ'.sand _ hfit hB.update hB.density.ne' hstep
  · have hmod : (asStep sp C E σ σ' bc A).Modest σ.sand := by
      intro o' ho' c _
      exact hg σ' h A o' hA ho' c
    have := (C116_step C.setup.bed (domain nx ny C) σ.sand σ'.sand _ hfit hmod hB.update hB.density.ne' hstep).1
    have this : 0 ≤ sandMass C σ' - sandMass C σ - passed C E σ' := this
    linarith

/-- The later changes of the levels do not add sand to the bed. -/
def AddsNothing (C : Whole.Config nf) (E : Env nx ny nf) : Prop :=
  ∀ l : Fin (cells nx ny) → ℝ × ℝ × ℝ, ∑ i ∈ range (ny + 1), ∑ j ∈ Ico 1 nx, C.ds i j * C.dn i j * onGrid (fun c => (E.levels l c).1) i j ≤
    ∑ i ∈ range (ny + 1), ∑ j ∈ Ico 1 nx, C.ds i j * C.dn i j * onGrid (fun c => (l c).1) i j

/-- Mass of sand that enters through the ends less what leaves in a time step that ends with state `σ'`; nothing without wind. -/
noncomputable def throughput (C : Whole.Config nf) (E : Env nx ny nf) (σ' : Whole.State nx ny nf) : ℝ :=
  if ∑ c, (E.wind c).uw ≠ 0 then passed C E σ' else 0

theorem sandMass_split (C : Whole.Config nf) (σ : Whole.State nx ny nf) : sandMass C σ =
    C.setup.bed.rhog * (1 - C.setup.bed.porosity) * (∑ i ∈ range (ny + 1), ∑ j ∈ Ico 1 nx, C.ds i j * C.dn i j *
        onGrid (nx := nx) (ny := ny) (fun c => (σ.sand.bed c).zb) i j) +
      ∑ i ∈ range (ny + 1), ∑ j ∈ Ico 1 nx, C.ds i j * C.dn i j * ∑ f, onGrid (nx := nx) (ny := ny) (fun c => σ.sand.Ct c f) i j := by
  unfold sandMass
  rw [mul_sum, ← sum_add_distrib]
  refine sum_congr rfl fun i _ => ?_
  rw [mul_sum, ← sum_add_distrib]
  refine sum_congr rfl fun j _ => ?_
  ring

theorem relevel_total (C : Whole.Config nf) (hρ : 0 < C.setup.bed.rhog * (1 - C.setup.bed.porosity)) (E : Env nx ny nf)
    (τ : Whole.State nx ny nf) : (AddsNothing C E → sandMass C (relevel E τ) ≤
      sandMass C τ) ∧
    ((∀ l c, (E.levels l c).1 = (l c).1) → sandMass C (relevel E τ) = sandMass C τ) := by
  constructor
  · intro h
    rw [sandMass_split, sandMass_split]
    have := h fun c => ((τ.sand.bed c).zb, (τ.sand.bed c).zs, (τ.sand.bed c).dzb)
    have := mul_le_mul_of_nonneg_left this hρ.le
    exact add_le_add this le_rfl
  · intro h
    unfold sandMass
    have : (fun c => ((relevel E τ).sand.bed c).zb) = fun c => (τ.sand.bed c).zb := funext fun c => h _ c
    rw [this]
    rfl

/-- **C131** A whole time step (waves, wind, later changes of the levels that add no sand). -/
theorem C131_step (sp : LinSolve nx ny) (hsp : Exact sp) (C : Whole.Config nf) (hC : ConfigOk C) (hG : GridOk nx ny C)
    (hB : BalanceOk nx ny C) (M : ℝ) (E : Env nx ny nf) (hE : Windy E → EnvOk C E ∧ Rows C E) (σ σ' : Whole.State nx ny nf)
    (hσ : Sound C.setup.bed.nl M σ) (h : Whole.step sp C E σ = some (.ok σ')) :
    (AddsNothing C E → sandMass C σ' ≤ sandMass C σ + throughput C E σ'
      + C.setup.bed.maxError * nf * innerArea nx ny C) ∧
    ((∀ l c, (E.levels l c).1 = (l c).1) → (Windy E → Gentle sp C E (waves C E σ)) →
      sandMass C σ + throughput C E σ' ≤ sandMass C σ') := by
  have h1 := waves_sound C hC M E σ hσ
  have hw : sandMass C (waves C E σ) = sandMass C σ := rfl
  have hpos : 0 ≤ C.setup.bed.maxError * nf * innerArea nx ny C := by
    refine mul_nonneg (mul_nonneg hC.err (Nat.cast_nonneg _)) (sum_nonneg fun i hi => sum_nonneg fun j hj => ?_)
    rw [mem_range] at hi
    rw [mem_Ico] at hj
    have hi : i < ny + 1 := hi
    have hj : 1 ≤ j ∧ j < nx := hj
    exact mul_nonneg (hG.ds i (by omega) j (by omega)) (hG.dn i (by omega) j (by omega))
  unfold Whole.step at h
  simp only at h
  split_ifs at h with hwind
  · match ht : transport sp C E (waves C E σ) with
    | none => simp [ht] at h
    | some (.error e) => simp [ht] at h
    | some (.ok τ) =>
      simp only [ht] at h
      obtain rfl := Except.ok.inj (Option.some.inj h)
      obtain ⟨u, l, _⟩ := C131_transport sp hsp C hC hG hB M E (hE hwind).1 (hE hwind).2 _ τ h1 ht
      have hth : throughput C E (relevel E τ) = passed C E τ := if_pos hwind
      rw [hth, ← hw]
      refine ⟨fun hl => ?_, fun hl hg => ?_⟩
      · have := (relevel_total C hB.density E τ).1 hl
        linarith
      · rw [(relevel_total C hB.density E τ).2 hl]
        have := l (hg hwind)
        linarith
  · obtain rfl := Except.ok.inj (Option.some.inj h)
    have hth : throughput C E (relevel E (waves C E σ)) = 0 := if_neg hwind
    rw [hth, ← hw]
    refine ⟨fun hl => ?_, fun hl _ => ?_⟩
    · have := (relevel_total C hB.density E (waves C E σ)).1 hl
      linarith
    · rw [(relevel_total C hB.density E (waves C E σ)).2 hl]
      linarith

/-- **C131** A run with any number of time steps: the sand in bed and air grows by no more than what enters through the ends less what
leaves, up to the tolerance of the solver in every step; and by no less, if the levels change through the exchange
with the air only and no cell ever receives more than its top layer holds. -/
theorem C131_run (sp : LinSolve nx ny) (hsp : Exact sp) (C : Whole.Config nf) (hC : ConfigOk C) (hG : GridOk nx ny C)
    (hB : BalanceOk nx ny C) (M : ℝ) (hM : 0 ≤ M) (E : ℕ → Env nx ny nf) (σ : ℕ → Whole.State nx ny nf) (n : ℕ)
    (hσ : Sound C.setup.bed.nl M (σ 0)) (hE : ∀ k < n, Windy (E k) → EnvOk C (E k) ∧ Rows C (E k))
    (hc : ∀ k < n, Windy (E k) → Converges sp C M (E k) (waves C (E k) (σ k)))
    (h : ∀ k < n, Whole.step sp C (E k) (σ k) = some (.ok (σ (k + 1)))) :
    ((∀ k < n, AddsNothing C (E k)) → sandMass C (σ n) ≤ sandMass C (σ 0)
      + ∑ k ∈ range n, throughput C (E k) (σ (k + 1)) + n * (C.setup.bed.maxError * nf * innerArea nx ny C)) ∧
    ((∀ k < n, (∀ l c, ((E k).levels l c).1 = (l c).1) ∧ (Windy (E k) → Gentle sp C (E k) (waves C (E k) (σ k)))) →
      sandMass C (σ 0) + ∑ k ∈ range n, throughput C (E k) (σ (k + 1)) ≤
        sandMass C (σ n)) ∧ Sound C.setup.bed.nl M (σ n) := by
  induction n with
  | zero => simp [hσ]
  | succ n ih =>
    obtain ⟨i1, i2, i3⟩ := ih (fun k hk => hE k (by omega)) (fun k hk => hc k (by omega)) fun k hk => h k (by omega)
    obtain ⟨s1, s2⟩ := C131_step sp hsp C hC hG hB M (E n) (hE n (by omega)) (σ n) (σ (n + 1)) i3 (h n (by omega))
    refine ⟨fun hl => ?_, fun hl => ?_, C125_step sp hsp C hC hG M hM (E n) (fun hw => (hE n (by omega) hw).1) (σ n) (σ (n + 1)) i3
      (hc n (by omega)) (h n (by omega))⟩
    · have a := i1 fun k hk => hl k (by omega)
      have b := s1 (hl n (by omega))
      rw [sum_range_succ]
      push_cast
      linarith
    · have a := i2 fun k hk => hl k (by omega)
      have b := s2 (hl n (by omega)).1 (hl n (by omega)).2
      rw [sum_range_succ]
      linarith

/-- No sand is supplied at the seaward end, nor at the landward end if the wind may blow from there. -/
def NothingEnters (C : Whole.Config nf) (E : Env nx ny nf) : Prop :=
  (C.bounds.off = "flux" → C.offshoreFlux = 0) ∧ (C.bounds.off = "constant" → C.constOff = 0) ∧
    (OnshoreWind C E ∨ (C.bounds.on = "flux" → C.onshoreFlux = 0) ∧ (C.bounds.on = "constant" → C.constOn = 0))

/-- If nothing is supplied no sand enters. -/
theorem passed_le (sp : LinSolve nx ny) (hsp : Exact sp) (C : Whole.Config nf) (hC : ConfigOk C) (hG : GridOk nx ny C)
    (hB : BalanceOk nx ny C) (M : ℝ) (E : Env nx ny nf) (hin : NothingEnters C E) (hE : EnvOk C E) (hside : Rows C E)
    (σ σ' : Whole.State nx ny nf) (hσ : Sound C.setup.bed.nl M σ) (h : transport sp C E σ = some (.ok σ')) : passed C E σ' ≤ 0 := by
  have hP := transport_ok.mp h
  have hs : ∀ c f, Transport.grainspeed C.tr (E.wind c) (E.duran c f) = .ok (σ'.speed c f) := by
    intro c f
    simpa [hC.transport.2] using hP.speed c f
  obtain ⟨A, o, hA, ho, hsand, _⟩ := hP.out
  obtain ⟨bc, hbc, hm⟩ := matrices_bounds hA hC.setup.fractions
  have hfit := asStep_fits sp hsp C hC hG hB M E hE hside σ σ' hσ hP bc A hA hbc hm hC.setup.fractions
  unfold passed
  refine sum_nonpos fun f _ => ?_
  obtain ⟨W, hW, e, _⟩ := solve_balance (asStep sp C E σ σ' bc A).solver hC.T hE.dt hC.err hfit.CuPos hfit.massPos
    (fun f w hw => (hfit.lin f w hw).2) σ.sand.Ct (asStep sp C E σ σ' bc A).pk _ hfit.weights o ho f
  have e : (fun c => σ'.sand.Ct c f) = (solverIn sp C E σ σ'.cap σ'.speed A).lin f W := by rw [hsand]; exact e
  have hsol := (hfit.lin f W hW).1
  have hx : ∀ i j, 0 ≤ onGrid (nx := nx) (ny := ny) (fun c => σ'.sand.Ct c f) i j := by
    intro i j
    rw [e]
    unfold onGrid
    split
    · exact (hfit.lin f W hW).2 _
    · exact le_rfl
  have hdn : ∀ i ≤ ny, 0 ≤ C.dn i 0 := fun i hi => hG.dn i hi 0 (Nat.zero_le _)
  unfold supply
  have ha : 0 ≤ aside (system C E σ'.speed f) (onGrid (nx := nx) (ny := ny) fun c => σ'.sand.Ct c f) := by
    unfold aside
    split_ifs with hy
    · refine sum_nonneg fun j hj => mul_nonneg (mul_nonneg ?_ (abs_nonneg _)) (hx 0 j)
      have hj : j < nx := (mem_Ico.mp hj).2
      exact hG.ds 0 (Nat.zero_le _) j hj.le
    · exact le_rfl
  refine mul_nonpos_of_nonneg_of_nonpos hE.dt.le (sub_nonpos.mpr (le_trans (sum_nonpos fun i hi => ?_) ha))
  have hi : i ≤ ny := Nat.le_of_lt_succ (mem_range.mp hi)
  refine mul_nonpos_of_nonneg_of_nonpos (hdn i hi) ?_
  have h1 : entering (system C E σ'.speed f) (onGrid (nx := nx) (ny := ny) fun c => σ'.sand.Ct c f) i ≤ 0 := by
    unfold entering
    split_ifs with h0
    · obtain ⟨a1, a2, a3, _⟩ := C50_offshore_value (system C E σ'.speed f) C.bounds _ _ bc (hbc f) _ _ hsol hG.columns i hi
        (by rw [hB.lateral]; simp)
      have hz : onGrid (nx := nx) (ny := ny) (fun c => σ'.sand.Ct c f) i 0 = 0 := by
        rw [e]
        rcases hC.off with k | k | k
        · refine (a1 k).trans ?_
          show C.offshoreFlux * _ = 0
          rw [hin.1 k, zero_mul]
        · exact a2 k
        · refine (a3 k).trans ?_
          show C.constOff / _ = 0
          rw [hin.2.1 k, zero_div]
      rw [hz, mul_zero]
    · exact mul_nonpos_of_nonpos_of_nonneg (not_le.mp h0).le (hx i 1)
  have h2 : 0 ≤ leaving (system C E σ'.speed f) (onGrid (nx := nx) (ny := ny) fun c => σ'.sand.Ct c f) i := by
    unfold leaving
    split_ifs with h0
    · exact mul_nonneg h0 (hx _ _)
    · have hnot : ¬ OnshoreWind C E := by
        intro hon
        refine h0 ?_
        show 0 ≤ onGrid (nx := nx) (ny := ny) (fun c => (σ'.speed c f).us) i (nx - 1)
        unfold onGrid
        split
        · exact (hon.us _ f _ (hs _ f)).1
        · exact le_rfl
      have hon := hin.2.2.resolve_left hnot
      have htr := hE.direction.resolve_left hnot
      obtain ⟨a1, a2, a3, _⟩ := C50_onshore_value (system C E σ'.speed f) C.bounds _ _ bc (hbc f) _ _ hsol hG.columns i hi
        (by rw [hB.lateral]; simp)
      have hz : onGrid (nx := nx) (ny := ny) (fun c => σ'.sand.Ct c f) i nx = 0 := by
        rw [e]
        have k1 : C.bounds.on = "flux" → onGrid (nx := nx) (ny := ny) ((solverIn sp C E σ σ'.cap σ'.speed A).lin f W) i nx = 0 := by
          intro k
          refine (a1 k).trans ?_
          show C.onshoreFlux * _ = 0
          rw [hon.1 k, zero_mul]
        have k2 : C.bounds.on = "constant" → onGrid (nx := nx) (ny := ny) ((solverIn sp C E σ σ'.cap σ'.speed A).lin f W) i nx = 0 := by
          intro k
          refine (a2 k).trans ?_
          show C.constOn / _ = 0
          rw [hon.2 k, zero_div]
        rcases htr.on with k | k | k
        · exact k1 k
        · exact k2 k
        · by_cases b1 : C.bounds.on = "flux"
          · exact k1 b1
          · by_cases b2 : C.bounds.on = "constant"
            · exact k2 b2
            · exact a3 k b1 b2
      have : (system C E σ'.speed f).us i (system C E σ'.speed f).nx * onGrid (nx := nx) (ny := ny) (fun c => σ'.sand.Ct c f) i nx = 0 := by
        rw [hz, mul_zero]
      exact this.ge
  have h3 : 0 ≤ ∑ j ∈ Ico 1 ((system C E σ'.speed f).nx - 1),
      lostBetween (system C E σ'.speed f) (onGrid (nx := nx) (ny := ny) fun c => σ'.sand.Ct c f) i j := by
    refine sum_nonneg fun j _ => ?_
    unfold lostBetween
    split_ifs
    · exact le_rfl
    · exact add_nonneg (mul_nonneg (abs_nonneg _) (hx _ _)) (mul_nonneg (abs_nonneg _) (hx _ _))
  linarith

theorem throughput_le (sp : LinSolve nx ny) (hsp : Exact sp) (C : Whole.Config nf) (hC : ConfigOk C) (hG : GridOk nx ny C)
    (hB : BalanceOk nx ny C) (M : ℝ)
    (E : Env nx ny nf) (hE : Windy E → EnvOk C E ∧ Rows C E ∧ NothingEnters C E) (σ σ' : Whole.State nx ny nf)
    (hσ : Sound C.setup.bed.nl M σ) (h : Whole.step sp C E σ = some (.ok σ')) : throughput C E σ' ≤ 0 := by
  unfold throughput
  split_ifs with hw
  · unfold Whole.step at h
    simp only [if_pos hw] at h
    match ht : transport sp C E (waves C E σ) with
    | none => simp [ht] at h
    | some (.error e) => simp [ht] at h
    | some (.ok τ) =>
      simp only [ht] at h
      have e := Except.ok.inj (Option.some.inj h)
      rw [← e]
      exact passed_le sp hsp C hC hG hB M E (hE hw).2.2 (hE hw).1 (hE hw).2.1 _ τ (waves_sound C hC M E σ hσ) ht
  · exact le_rfl

/-- **C131** If no sand is supplied at the ends, a run creates none, up to the tolerance of the solver: what lies
in the bed and what is in the air together do not grow. -/
theorem C131_not_created (sp : LinSolve nx ny) (hsp : Exact sp) (C : Whole.Config nf) (hC : ConfigOk C) (hG : GridOk nx ny C)
    (hB : BalanceOk nx ny C) (M : ℝ)
    (hM : 0 ≤ M) (E : ℕ → Env nx ny nf) (σ : ℕ → Whole.State nx ny nf) (n : ℕ)
    (hσ : Sound C.setup.bed.nl M (σ 0)) (hE : ∀ k < n, Windy (E k) → EnvOk C (E k) ∧ Rows C (E k) ∧ NothingEnters C (E k))
    (hl : ∀ k < n, AddsNothing C (E k)) (hc : ∀ k < n, Windy (E k) → Converges sp C M (E k) (waves C (E k) (σ k)))
    (h : ∀ k < n, Whole.step sp C (E k) (σ k) = some (.ok (σ (k + 1)))) :
    sandMass C (σ n) ≤ sandMass C (σ 0) + n * (C.setup.bed.maxError * nf * innerArea nx ny C) := by
  have hsum : ∑ k ∈ range n, throughput C (E k) (σ (k + 1)) ≤ 0 := by
    refine sum_nonpos fun k hk => ?_
    have hk := mem_range.mp hk
    have hk' := (C131_run sp hsp C hC hG hB M hM E σ k hσ (fun j hj hw => ⟨(hE j (by omega) hw).1, (hE j (by omega) hw).2.1⟩)
      (fun j hj => hc j (by omega)) fun j hj => h j (by omega)).2.2
    exact throughput_le sp hsp C hC hG hB M (E k) (hE k hk) _ _ hk' (h k hk)
  have := (C131_run sp hsp C hC hG hB M hM E σ n hσ (fun k hk hw => ⟨(hE k hk hw).1, (hE k hk hw).2.1⟩) hc h).1 hl
  linarith

/-- **C131** Runs with any number of fractions and steps over a thick bed, without assumptions on the solver's iteration: with wind
that does not slow the grains down, capacities at most `M`, layers that hold more than `nf * (M / T) * dt` and, with several fractions, a
sufficient number of iterations, the sand in bed and air changes by
what enters less what leaves, up to the tolerance of the solver; it does not grow beyond that tolerance if nothing is supplied.  Later changes of
the levels that add no sand may make it less. -/
theorem C131_fractions (sp : LinSolve nx ny) (hsp : Exact sp) (C : Whole.Config nf) (hC : ConfigOk C) (hG : GridOk nx ny C)
    (hB : BalanceOk nx ny C) (m M : ℝ) (hm : 0 ≤ m) (hM : 0 ≤ M) (E : ℕ → Env nx ny nf) (σ : ℕ → Whole.State nx ny nf) (n : ℕ)
    (hE : ∀ k < n, Windy (E k) → EnvOk C (E k) ∧ Rows C (E k) ∧ Steadying C (E k) ∧ Copes nx ny C M m (E k).dt ∧
      ∀ τ ρ, transport sp C (E k) τ = some (.ok ρ) → (∀ c f, (ρ.cap c f).Cu ≤ M ∧ (ρ.cap c f).Cuf ≤ M) ∧ EndsBelow C M ρ)
    (hσ : Sound C.setup.bed.nl m (σ 0)) (hair : ∀ c f, (σ 0).sand.Ct c f ≤ M)
    (h : ∀ k < n, Whole.step sp C (E k) (σ k) = some (.ok (σ (k + 1)))) :
    let error := sandMass C (σ n) - sandMass C (σ 0) - ∑ k ∈ range n, throughput C (E k) (σ (k + 1))
    ((∀ k < n, ∀ l c, ((E k).levels l c).1 = (l c).1) → 0 ≤ error) ∧
    ((∀ k < n, AddsNothing C (E k)) → error ≤ n * (C.setup.bed.maxError * nf * innerArea nx ny C) ∧
      ((∀ k < n, Windy (E k) → NothingEnters C (E k)) →
        sandMass C (σ n) ≤ sandMass C (σ 0) + n * (C.setup.bed.maxError * nf * innerArea nx ny C))) := by
  have key : ∀ k ≤ n, Sound C.setup.bed.nl m (σ k) ∧ ∀ c f, (σ k).sand.Ct c f ≤ M := by
    intro k
    induction k with
    | zero => exact fun _ => ⟨hσ, hair⟩
    | succ k ih =>
      intro hk
      obtain ⟨i1, i2⟩ := ih (by omega)
      refine C128_fractions sp hsp C hC hG hB.lateral m M hm hM [E k] ?_ (σ k) (σ (k + 1)) i1 i2 ?_
      · intro E' hE'
        rw [List.mem_singleton] at hE'
        rw [hE']
        intro hw
        obtain ⟨e1, _, e3, e4, e6⟩ := hE k (by omega) hw
        exact ⟨e1, e3, e4, e6⟩
      · unfold Whole.run
        rw [h k (by omega)]
        rfl
  have hex := fun k (hk : k < n) (hw : Windy (E k)) => thick_bed_exchange sp hsp C hC hG hB.lateral (E k) (hE k hk hw).1 (hE k hk hw).2.2.1 m M hM
    (hE k hk hw).2.2.2.1
    (waves C (E k) (σ k)) (waves_sound C hC m (E k) (σ k) (key k hk.le).1) (key k hk.le).2 fun ρ hρ => (hE k hk hw).2.2.2.2 _ ρ hρ
  obtain ⟨u, l, _⟩ := C131_run sp hsp C hC hG hB m hm E σ n hσ (fun k hk hw => ⟨(hE k hk hw).1, (hE k hk hw).2.1⟩)
    (fun k hk hw σ' hσ' A o hA ho => ⟨(hex k hk hw σ' hσ' A o hA ho).1, fun c => ((hex k hk hw σ' hσ' A o hA ho).2 c).ne⟩) h
  refine ⟨fun hl => ?_, fun ha => ?_⟩
  · have := l fun k hk => ⟨hl k hk, fun hw σ' hσ' A o hA ho c => by
    rw [(waves_sound C hC m (E k) (σ k) (key k hk.le).1).sand.layers c 0 hC.setup.layers]
    exact (hex k hk hw σ' hσ' A o hA ho).2 c⟩
    linarith
  have u := u ha
  refine ⟨by linarith, fun hin => ?_⟩
  have hsum : ∑ k ∈ range n, throughput C (E k) (σ (k + 1)) ≤ 0 := by
    refine sum_nonpos fun k hk => ?_
    have hk := mem_range.mp hk
    exact throughput_le sp hsp C hC hG hB m (E k) (fun hw => ⟨(hE k hk hw).1, (hE k hk hw).2.1, hin k hk hw⟩) _ _ (key k hk.le).1 (h k hk)
  linarith

/-! ### Example -/

theorem dune_balance : BalanceOk 2 0 duneConfig :=
  ⟨rfl, fun _ _ _ _ => by norm_num [duneConfig], fun _ _ _ _ => rfl, rfl, rfl, by norm_num [duneConfig]⟩

theorem dune_rows (moist : Fin (cells 2 0) → ℝ) : Rows duneConfig (duneEnv 2 0 0.5 moist) :=
  Or.inl rfl

/-- A storm of any length over a beach with changing moisture: the run exists, the balance holds and no sand is created. -/
example (moist : ℕ → Fin (cells 2 0) → ℝ) :
    ∃ σ : ℕ → Whole.State 2 0 1, σ 0 = duneState 2 0 ∧
      (∀ k, Whole.step byInverse duneConfig (duneEnv 2 0 0.5 (moist k)) (σ k) = some (.ok (σ (k + 1)))) ∧
      ∀ n, sandMass duneConfig (σ 0) + ∑ k ∈ range n, throughput duneConfig (duneEnv 2 0 0.5 (moist k)) (σ (k + 1)) ≤
          sandMass duneConfig (σ n) ∧
        sandMass duneConfig (σ n) ≤ sandMass duneConfig (σ 0) + n * 1e-6 := by
  obtain ⟨σ, h0, h⟩ := states_exist byInverse duneConfig duneConfig_ok duneConfig_names duneGrid
    (fun k => duneEnv 2 0 0.5 (moist k)) (fun k _ => (duneEnv_below (moist k)).1) (duneState 2 0) fun _ _ => le_rfl
  refine ⟨σ, h0, h, fun n => ?_⟩
  obtain ⟨a, b⟩ := C131_fractions byInverse byInverse_exact duneConfig duneConfig_ok duneGrid dune_balance 159 0.0025 (by norm_num)
    (by norm_num) (fun k => duneEnv 2 0 0.5 (moist k)) σ n
    (fun k _ _ => ⟨(duneEnv_below (moist k)).1, dune_rows (moist k), (duneEnv_below (moist k)).2.1, (duneEnv_below (moist k)).2.2.1,
      (duneEnv_below (moist k)).2.2.2⟩)
    (by rw [h0]; exact duneState_sound 2 0) (by rw [h0]; intro c f; norm_num [duneState]) fun k _ => h k
  have e : duneConfig.setup.bed.maxError * (1 : ℕ) * innerArea 2 0 duneConfig = 1e-6 := by
    unfold innerArea
    norm_num [duneConfig]
  rw [e] at b
  have a := a fun _ _ _ _ => rfl
  exact ⟨by linarith, (b fun _ _ _ => le_rfl).2 fun k _ _ => ⟨fun _ => rfl, fun _ => rfl, Or.inr ⟨fun _ => rfl, fun _ => rfl⟩⟩⟩

end Aeolis.Props
