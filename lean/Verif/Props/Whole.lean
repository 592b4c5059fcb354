import Verif.Proofs.Whole
import Verif.Props.SolverTransect

/-!
C125, C126, C127: from wind to bed.
-/

set_option linter.unusedSectionVars false

namespace Aeolis.Props

open Finset Aeolis.Spec Aeolis.Sand Aeolis.Solver Aeolis.Whole

variable {nx ny nf : ℕ}

/-- A linear solver that solves every regular system. -/
def Exact (sp : LinSolve nx ny) : Prop :=
  ∀ (A : Matrix (Fin (cells nx ny)) (Fin (cells nx ny)) ℝ) y, IsUnit A → A.mulVec (sp A y) = y

/-- The grid: at least three cells in a row, cell sizes not negative, in a planar grid equal widths of the rows. -/
structure GridOk (nx ny : ℕ) (C : Whole.Config nf) : Prop where
  columns : 2 ≤ nx
  rows : ny ≠ 1
  ds : ∀ i ≤ ny, ∀ j ≤ nx, 0 ≤ C.ds i j
  dn : ∀ i ≤ ny, ∀ j ≤ nx, 0 ≤ C.dn i j
  dsdni : ∀ i ≤ ny, ∀ j ≤ nx, 0 ≤ C.dsdni i j
  cells : 0 < ny → ∀ i ≤ ny, ∀ j ≤ nx, C.ds i j * C.dsdni i j = C.ds 0 j * C.dsdni 0 j

/-- Solver and bed: positive times, Euler backward, no gradient at the ends, a sensible bed. -/
structure NumericsOk (C : Whole.Config nf) : Prop where
  dist : ∀ k, 0 ≤ C.thr.grainDist k
  transport : Spec.Physical C.tr ∧ C.tr.processTransport = true
  size : ∀ k, 0 < C.thr.grainSize k
  setup : Setup.Sensible C.setup
  bi : 0 ≤ C.bi ∧ C.bi ≤ 1
  T : 0 < C.T
  err : 0 ≤ C.setup.bed.maxError
  scheme : C.alpha = 1 ∧ 1 ≤ |C.beta|
  flux : 0 ≤ C.offshoreFlux ∧ 0 ≤ C.onshoreFlux ∧ 0 ≤ C.constOff ∧ 0 ≤ C.constOn
  off : C.bounds.off = "flux" ∨ C.bounds.off = "noflux" ∨ C.bounds.off = "constant"
  on : C.bounds.on ≠ "gradient" ∨ C.bounds.off = "noflux"

/-- A sensible configuration: physical constants, thresholds from the grain size with moisture formulations that correct it. -/
structure ConfigOk (C : Whole.Config nf) : Prop extends NumericsOk C where
  bed : PhysicalBed C.thr
  threshold : C.thr.processThreshold = true ∧ C.thr.thresholdFile = false ∧ C.thr.thGrainsize = true ∧ C.thr.thSheltering = false
  moist : C.thr.thMoisture = true → lower C.thr.methodMoistThreshold ∈ incrementalMoist

/-- Onshore wind: the grains of no fraction move offshore, in a planar grid nor to the right, and at the lateral ends not faster out of
the grid than into it. -/
structure OnshoreWind (C : Whole.Config nf) (E : Env nx ny nf) : Prop where
  us : ∀ c f s, Transport.grainspeed C.tr (E.wind c) (E.duran c f) = .ok s → 0 ≤ s.us ∧ (0 < ny → 0 ≤ s.un)
  wrap : 0 < ny → ∀ c c' : Fin (cells nx ny), (c : ℕ) ≤ nx → (c' : ℕ) = ny * (nx + 1) + c → ∀ f s s',
    Transport.grainspeed C.tr (E.wind c) (E.duran c f) = .ok s → Transport.grainspeed C.tr (E.wind c') (E.duran c' f) = .ok s' → s.un ≤ s'.un

/-- Wind in any direction on a transect whose landward end has a prescribed concentration: where the grains of a fraction move offshore,
those of the next cell landward do too. -/
structure TransectWind (C : Whole.Config nf) (E : Env nx ny nf) : Prop where
  row : ny = 0
  on : C.bounds.on = "flux" ∨ C.bounds.on = "constant" ∨ C.bounds.off = "noflux"
  us : ∀ c c' : Fin (cells nx ny), (c' : ℕ) = c + 1 → ∀ f s s', Transport.grainspeed C.tr (E.wind c) (E.duran c f) = .ok s →
    Transport.grainspeed C.tr (E.wind c') (E.duran c' f) = .ok s' → s.us < 0 → s'.us < 0

/-- A sensible time step: onshore wind, or a transect; with a prescribed flux at an end the grains move everywhere. -/
structure EnvOk (C : Whole.Config nf) (E : Env nx ny nf) : Prop where
  dt : 0 < E.dt
  ustar : ∀ c, 0 ≤ (E.wind c).ustar ∧ ((E.wind c).ustar ≠ 0 → 0 < (E.wind c).ustar0)
  mask : ∀ c, 0 < (E.mask c).1 ∧ 0 ≤ (E.mask c).2
  speed : ∀ c f s, Transport.grainspeed C.tr (E.wind c) (E.duran c f) = .ok s → 0 ≤ s.u
  direction : OnshoreWind C E ∨ TransectWind C E
  ends : C.bounds.off = "constant" ∨ C.bounds.on = "constant" → ∀ c f s,
    Transport.grainspeed C.tr (E.wind c) (E.duran c f) = .ok s → 0 < s.u

/-- What the capacities need: shear velocities that are not negative, a mask that keeps thresholds positive, speeds that are not
negative. -/
structure EnvReal (C : Whole.Config nf) (E : Env nx ny nf) : Prop where
  ustar : ∀ c, 0 ≤ (E.wind c).ustar ∧ ((E.wind c).ustar ≠ 0 → 0 < (E.wind c).ustar0)
  mask : ∀ c, 0 < (E.mask c).1 ∧ 0 ≤ (E.mask c).2
  speed : ∀ c f s, Transport.grainspeed C.tr (E.wind c) (E.duran c f) = .ok s → 0 ≤ s.u

theorem EnvOk.real {C : Whole.Config nf} {E : Env nx ny nf} (h : EnvOk C E) : EnvReal C E := ⟨h.ustar, h.mask, h.speed⟩

/-- There is wind: the wind speeds do not add up to zero. -/
def Windy (E : Env nx ny nf) : Prop := ∑ c, (E.wind c).uw ≠ 0

/-- A sound state: physical amounts of sand in bed and air, capacities and weights not negative. -/
structure Sound (nl : ℕ) (M : ℝ) (σ : Whole.State nx ny nf) : Prop where
  sand : Props.Physical nl M σ.sand
  cap : ∀ c f, 0 ≤ (σ.cap c f).Cu ∧ 0 ≤ (σ.cap c f).Cuf ∧ 0 ≤ (σ.cap c f).Cu0
  w : ∀ c f, 0 ≤ σ.w c f

/-- The solver converges for every fraction (no warning), and the deposition in no cell equals the mass of a layer to the last digit. -/
def Converges (sp : LinSolve nx ny) (C : Whole.Config nf) (M : ℝ) (E : Env nx ny nf) (σ : Whole.State nx ny nf) : Prop :=
  ∀ σ', transport sp C E σ = some (.ok σ') → ∀ A o, matrices C E σ'.speed = .ok A →
    solve (solverIn sp C E σ σ'.cap σ'.speed A) σ.sand.Ct (fun c => (σ.sand.bed c).pickup) (initialWeights C E σ σ'.cap) = .ok o →
    (∀ f, o.conv f = true) ∧ ∀ c, -∑ f, o.pickup c f ≠ M

/-- Capacities for valid thresholds. -/
theorem cap_of_thresholds {sp : LinSolve nx ny} {C : Whole.Config nf} {E : Env nx ny nf} {σ σ' : Whole.State nx ny nf} (hC : NumericsOk C)
    (hE : EnvOk C E) (h0 : ∀ c f, 0 ≤ (σ.cap c f).Cu0) (h : Parts sp C E σ σ')
    (ht : ∀ c f, ((σ'.thr c).uth f).IsThreshold ∧ ((σ'.thr c).uthf f).IsThreshold ∧ ((σ'.thr c).uth0 f).IsThreshold) (c : Fin (cells nx ny))
    (f : Fin nf) : (0 ≤ (σ'.cap c f).Cu ∧ 0 ≤ (σ'.cap c f).Cuf ∧ 0 ≤ (σ'.cap c f).Cu0) ∧
      ((σ'.thr c).uthf f = (σ'.thr c).uth f → (σ'.cap c f).Cuf = (σ'.cap c f).Cu) ∧
      ((σ'.cap c f).Cu = 0 ↔ (E.wind c).ustar = 0 ∨ (σ'.speed c f).u = 0 ∨
        NoPickup C.tr.methodTransport (E.wind c).ustar ((σ'.thr c).uth f)) := by
  have hon := hC.transport.2
  have hs : Transport.grainspeed C.tr (E.wind c) (E.duran c f) = .ok (σ'.speed c f) := by simpa [hon] using h.speed c f
  obtain ⟨x, y, z, he, hx, hy, hz, hyx, hxz⟩ := equilibrium_real C.tr hC.transport.1 hon (C.thr.grainSize f) (hC.size f) (E.wind c)
    (hE.ustar c).1 (hE.ustar c).2 (E.duran c f) (σ'.speed c f) hs (hE.speed c f _ hs) _ (ht c f).1 (ht c f).2.1 (ht c f).2.2
    _ _ ⟨_, rfl, h0 c f⟩ (h.cap c f)
  simp only [Transport.Conc.mk.injEq, XR.fin.injEq] at he
  rw [he.1, he.2.1, he.2.2]
  exact ⟨⟨hx, hy, hz⟩, hyx, hxz⟩

theorem noPickup_pinf (m : String) (s : ℝ) : NoPickup m s XR.pinf := by
  unfold NoPickup
  split_ifs
  · right
    rw [show (XR.fin 0.8 * XR.pinf : XR) = XR.pinf from XR.fin_mul_pinf (by norm_num)]
    trivial
  · trivial

theorem step_thresholds {sp : LinSolve nx ny} {C : Whole.Config nf} {E : Env nx ny nf} {σ σ' : Whole.State nx ny nf} (hC : ConfigOk C)
    (hE : EnvOk C E) (h : Parts sp C E σ σ') (c : Fin (cells nx ny)) :
    (∀ f, ((σ'.thr c).uth f).IsThreshold ∧ ((σ'.thr c).uthf f).IsThreshold ∧ ((σ'.thr c).uth0 f).IsThreshold) ∧
      ((∀ f, (σ'.thr c).uthf f = (σ'.thr c).uth f) ∨ ∀ f, (σ'.thr c).uth f = XR.pinf) :=
  compute_thresholds C.thr hC.bed (thrCell E σ c) (σ.thr c) (σ'.thr c) hC.threshold.1 hC.threshold.2.1
    hC.threshold.2.2.1 hC.moist hC.threshold.2.2.2 (hE.mask c).1 (hE.mask c).2 (h.thr c)

/-- Capacities after a step: not negative, and those of the fractions alone differ only where all others are zero. -/
theorem transport_cap {sp : LinSolve nx ny} {C : Whole.Config nf} {E : Env nx ny nf} {σ σ' : Whole.State nx ny nf} (hC : ConfigOk C)
    (hE : EnvOk C E) (h0 : ∀ c f, 0 ≤ (σ.cap c f).Cu0) (h : Parts sp C E σ σ') :
    (∀ c f, 0 ≤ (σ'.cap c f).Cu ∧ 0 ≤ (σ'.cap c f).Cuf ∧ 0 ≤ (σ'.cap c f).Cu0) ∧
      ∀ c, (∀ f, (σ'.cap c f).Cuf = (σ'.cap c f).Cu) ∨ ∀ f, (σ'.cap c f).Cu = 0 := by
  have ht := step_thresholds hC hE h
  have key := cap_of_thresholds hC.toNumericsOk hE h0 h fun c => (ht c).1
  refine ⟨fun c f => (key c f).1, fun c => ?_⟩
  rcases (ht c).2 with e | e
  · exact Or.inl fun f => (key c f).2.1 (e f)
  · refine Or.inr fun f => (key c f).2.2.mpr (Or.inr (Or.inr ?_))
    rw [e f]
    exact noPickup_pinf _ _

theorem system_onshore {C : Whole.Config nf} {E : Env nx ny nf} {speed : Fin (cells nx ny) → Fin nf → Transport.Speed} (hC : NumericsOk C)
    (hG : GridOk nx ny C) (hdt : 0 < E.dt) (hE : OnshoreWind C E)
    (hs : ∀ c f, Transport.grainspeed C.tr (E.wind c) (E.duran c f) = .ok (speed c f)) (f : Fin nf) : Onshore (system C E speed f) where
  nx := hG.columns
  ny := hG.rows
  dt := hdt.le
  T := hC.T.le
  alpha := by show 0 ≤ C.alpha; rw [hC.scheme.1]; norm_num
  beta := hC.scheme.2
  ds := hG.ds
  dn := hG.dn
  dsdni := hG.dsdni
  us := by
    intro i _ j _
    show 0 ≤ onGrid (nx := nx) (ny := ny) (fun c => (speed c f).us) i j
    unfold onGrid
    split
    · exact (hE.us _ f _ (hs _ f)).1
    · exact le_rfl
  un := by
    intro hny i _ j _
    show 0 ≤ onGrid (nx := nx) (ny := ny) (fun c => (speed c f).un) i j
    unfold onGrid
    split
    · exact (hE.us _ f _ (hs _ f)).2 hny
    · exact le_rfl
  wrap := by
    intro hny j hj
    show onGrid (nx := nx) (ny := ny) (fun c => (speed c f).un) 0 j ≤ onGrid (nx := nx) (ny := ny) (fun c => (speed c f).un) ny j
    have hj : j ≤ nx := hj
    have h1 : 0 * (nx + 1) + j < cells nx ny := by
      unfold cells
      nlinarith [Nat.zero_le (ny * (nx + 1))]
    have h2 : ny * (nx + 1) + j < cells nx ny := by
      unfold cells
      nlinarith
    unfold onGrid
    rw [dif_pos h1, dif_pos h2]
    exact hE.wrap hny ⟨_, h1⟩ ⟨_, h2⟩ (by simpa using hj) (by simp) f _ _ (hs _ f) (hs _ f)
  cells := hG.cells

theorem system_transect {C : Whole.Config nf} {E : Env nx ny nf} {speed : Fin (cells nx ny) → Fin nf → Transport.Speed} (hC : NumericsOk C)
    (hG : GridOk nx ny C) (hdt : 0 < E.dt) (hE : TransectWind C E)
    (hs : ∀ c f, Transport.grainspeed C.tr (E.wind c) (E.duran c f) = .ok (speed c f)) (f : Fin nf) :
    Transect (system C E speed f) ∧ NonDiverging (system C E speed f) := by
  refine ⟨⟨hG.columns, hE.row, hdt.le, hC.T.le, ?_, hC.scheme.2, hG.ds 0 (Nat.zero_le _), hG.dn 0 (Nat.zero_le _),
    hG.dsdni 0 (Nat.zero_le _)⟩, fun j hj => ?_⟩
  · show 0 ≤ C.alpha
    rw [hC.scheme.1]
    norm_num
  · show onGrid (nx := nx) (ny := ny) (fun c => (speed c f).us) 0 j < 0 → onGrid (nx := nx) (ny := ny) (fun c => (speed c f).us) 0 (j + 1) < 0
    have hj : j < nx := hj
    have h1 : 0 * (nx + 1) + j < cells nx ny := by
      unfold cells
      nlinarith [Nat.zero_le (ny * (nx + 1))]
    have h2 : 0 * (nx + 1) + (j + 1) < cells nx ny := by
      unfold cells
      nlinarith [Nat.zero_le (ny * (nx + 1))]
    unfold onGrid
    rw [dif_pos h1, dif_pos h2]
    exact hE.us ⟨_, h1⟩ ⟨_, h2⟩ (show 0 * (nx + 1) + (j + 1) = 0 * (nx + 1) + j + 1 from rfl) f _ _ (hs _ f) (hs _ f)

/-- The linear systems have one solution, which is not negative for right hand sides that are not. -/
theorem system_ok {C : Whole.Config nf} {E : Env nx ny nf} {speed : Fin (cells nx ny) → Fin nf → Transport.Speed} (hC : NumericsOk C)
    (hG : GridOk nx ny C) (hE : EnvOk C E) (hs : ∀ c f, Transport.grainspeed C.tr (E.wind c) (E.duran c f) = .ok (speed c f)) (f : Fin nf)
    (bc : BcRows ℝ) (hb : boundaries C.bounds (system C E speed f).offRatio (system C E speed f).onRatio = .ok bc)
    (A : Matrix (Fin (cells nx ny)) (Fin (cells nx ny)) ℝ) (hA : (system C E speed f).matrix bc = .ok A) :
    IsUnit A ∧ ∀ X : Fin (cells nx ny) → ℝ, (∀ c, 0 ≤ A.mulVec X c) → ∀ c, 0 ≤ X c := by
  have unit : (∃ A', (system C E speed f).matrix bc = .ok A' ∧ ∀ y, ∃! X, A'.mulVec X = y) → IsUnit A := by
    rintro ⟨A', hA', huniq⟩
    have e : A = A' := Except.ok.inj (hA.symm.trans hA')
    rw [e]
    refine Matrix.mulVec_injective_iff_isUnit.mp fun X Y hXY => ?_
    exact (huniq _).unique rfl hXY.symm
  rcases hE.direction with h | h
  · have hon := system_onshore hC hG hE.dt h hs f
    exact ⟨unit (C48_unique_solution _ _ _ _ bc hon hb hC.off),
      fun X hX c => C48_nonneg _ _ _ _ bc hon hb hC.off A hA X hX c (Or.inr hC.on)⟩
  · obtain ⟨ht, hd⟩ := system_transect hC hG hE.dt h hs f
    exact ⟨unit (C48_any_direction _ _ _ _ bc ht hb hC.off (Or.inl h.on)),
      C48_any_direction_nonneg _ _ _ _ bc ht hd hb hC.off (Or.inl h.on) A hA⟩

/-- The linear systems are solved. -/
theorem lin_solves {sp : LinSolve nx ny} (hsp : Exact sp) {C : Whole.Config nf} {E : Env nx ny nf} (σ : Whole.State nx ny nf)
    {speed : Fin (cells nx ny) → Fin nf → Transport.Speed} (cap : Fin (cells nx ny) → Fin nf → Capacity)
    {A : Fin nf → Matrix (Fin (cells nx ny)) (Fin (cells nx ny)) ℝ} (hC : NumericsOk C) (hG : GridOk nx ny C) (hE : EnvOk C E)
    (hs : ∀ c f, Transport.grainspeed C.tr (E.wind c) (E.duran c f) = .ok (speed c f))
    (hA : matrices C E speed = .ok A) (f : Fin nf) (w : Fin (cells nx ny) → ℝ) :
    IsUnit (A f) ∧ (A f).mulVec ((solverIn sp C E σ cap speed A).lin f w) = fun c : Fin (cells nx ny) =>
      (system C E speed f).rhs C.bounds (values C E σ cap speed f w) ((c : ℕ) / (nx + 1)) ((c : ℕ) % (nx + 1)) := by
  have hA := collect_ok.mp hA f
  split at hA
  · cases hA
  rename_i bc hb
  have hunit := (system_ok hC hG hE hs f bc hb (A f) hA).1
  exact ⟨hunit, hsp (A f) _ hunit⟩

/-- The solutions of the linear systems are not negative. -/
theorem lin_nonneg {sp : LinSolve nx ny} (hsp : Exact sp) {C : Whole.Config nf} {E : Env nx ny nf} {σ : Whole.State nx ny nf}
    {speed : Fin (cells nx ny) → Fin nf → Transport.Speed} {cap : Fin (cells nx ny) → Fin nf → Capacity}
    {A : Fin nf → Matrix (Fin (cells nx ny)) (Fin (cells nx ny)) ℝ} (hC : NumericsOk C) (hG : GridOk nx ny C) (hE : EnvOk C E)
    (hs : ∀ c f, Transport.grainspeed C.tr (E.wind c) (E.duran c f) = .ok (speed c f))
    (hcap : ∀ c f, 0 ≤ (cap c f).Cu ∧ 0 ≤ (cap c f).Cuf ∧ 0 ≤ (cap c f).Cu0)
    (hsame : ∀ c, (∀ f, (cap c f).Cuf = (cap c f).Cu) ∨ ∀ f, (cap c f).Cu = 0) (hair : ∀ c f, 0 ≤ σ.sand.Ct c f)
    (hA : matrices C E speed = .ok A) (f : Fin nf) (w : Fin (cells nx ny) → ℝ) (hw : ∀ c, 0 ≤ w c) (c : Fin (cells nx ny)) :
    0 ≤ (solverIn sp C E σ cap speed A).lin f w c := by
  have hA' := hA
  have hA := collect_ok.mp hA f
  split at hA
  · cases hA
  rename_i bc hb
  have hy : ∀ c : Fin (cells nx ny), 0 ≤ (system C E speed f).rhs C.bounds (values C E σ cap speed f w) ((c : ℕ) / (nx + 1)) ((c : ℕ) % (nx + 1)) := by
    intro c
    generalize (c : ℕ) / (nx + 1) = i
    generalize (c : ℕ) % (nx + 1) = j
    have hTi : 0 ≤ (system C E speed f).Ti := div_nonneg hE.dt.le hC.T.le
    have hin : 0 ≤ (system C E speed f).yIm (values C E σ cap speed f w) i j := by
      unfold Adv.yIm values Adv.ends
      simp only
      generalize (system C E speed f).Ti = Ti at hTi ⊢
      unfold onGrid
      split
      · rename_i hc
        beta_reduce
        rcases hsame ⟨_, hc⟩ with h | h
        · rw [h f]
          have := mul_nonneg (mul_nonneg (hw ⟨_, hc⟩) (hcap ⟨_, hc⟩ f).1) hTi
          linarith
        · have hS : saturation (σ.sand.Ct ⟨_, hc⟩) (cap ⟨_, hc⟩) = 0 := sum_eq_zero fun f _ => by simp [h f]
          rw [hS]
          have := mul_nonneg (mul_nonneg (hw ⟨_, hc⟩) (hcap ⟨_, hc⟩ f).2.1) hTi
          linarith
      · simp
    have hm : 0 ≤ (values C E σ cap speed f w).lCt i j + (system C E speed f).alpha * (system C E speed f).yIm (values C E σ cap speed f w) i j +
        (1 - (system C E speed f).alpha) * (system C E speed f).yEx (values C E σ cap speed f w) i j := by
      have e : (system C E speed f).alpha = 1 := hC.scheme.1
      have hl : 0 ≤ (values C E σ cap speed f w).lCt i j := by
        show 0 ≤ onGrid (nx := nx) (ny := ny) (fun c => σ.sand.Ct c f) i j
        unfold onGrid
        split
        · exact hair _ f
        · exact le_rfl
      rw [e]
      linarith
    have hg : ∀ i j, 0 ≤ onGrid (nx := nx) (ny := ny) (fun c => (cap c f).Cu0) i j := by
      intro i j
      unfold onGrid
      split
      · exact (hcap _ f).2.2
      · exact le_rfl
    have hu : ∀ i j, 0 ≤ onGrid (nx := nx) (ny := ny) (fun c => (speed c f).u) i j := by
      intro i j
      unfold onGrid
      split
      · exact hE.speed _ f _ (hs _ f)
      · exact le_rfl
    unfold Adv.rhs
    simp only
    split_ifs
    · exact div_nonneg hC.flux.2.2.2 (hu _ _)
    · exact div_nonneg hC.flux.2.2.1 (hu _ _)
    · exact mul_nonneg hC.flux.2.1 (hg _ _)
    · exact mul_nonneg hC.flux.1 (hg _ _)
    · exact hm
    · exact le_rfl
  have hsol := (lin_solves hsp σ cap hC hG hE hs hA' f w).2
  exact (system_ok hC hG hE hs f bc hb (A f) hA).2 _ (fun c => (hy c).trans_eq (congrFun hsol c).symm) c

/-- **C125** With onshore wind, whatever its strength, the waves, the moisture and the changes of the bed levels, a step keeps the state
sound: each layer keeps its mass, no mass, concentration, capacity or weight is negative. -/
theorem C125_transport (sp : LinSolve nx ny) (hsp : Exact sp) (C : Whole.Config nf) (hC : ConfigOk C) (hG : GridOk nx ny C) (M : ℝ)
    (hM : 0 ≤ M) (E : Env nx ny nf) (hE : EnvOk C E) (σ σ' : Whole.State nx ny nf) (hσ : Sound C.setup.bed.nl M σ)
    (hc : Converges sp C M E σ) (h : transport sp C E σ = some (.ok σ')) :
    Sound C.setup.bed.nl M σ' ∧ (∀ c, ∑ f, σ'.w c f ≤ 1) ∧ ∀ c f, 0 ≤ (σ'.speed c f).u := by
  have hP := transport_ok.mp h
  have hs : ∀ c f, Transport.grainspeed C.tr (E.wind c) (E.duran c f) = .ok (σ'.speed c f) := by
    intro c f
    simpa [hC.transport.2] using hP.speed c f
  obtain ⟨hcap, hsame⟩ := transport_cap hC hE (fun c f => (hσ.cap c f).2.2) hP
  obtain ⟨A, o, hA, ho, hsand, hw⟩ := hP.out
  obtain ⟨hconv, hne⟩ := hc σ' h A o hA ho
  have hmass : ∀ c f, 0 ≤ (σ.sand.bed c).mass 0 f := fun c f => hσ.sand.mass c 0 hC.setup.layers f
  have hok : SolveOk (solverIn sp C E σ σ'.cap σ'.speed A) := by
    refine ⟨hC.T, hE.dt, hC.err, fun c f => (hcap c f).1, hmass, fun f w hw => sum_nonneg fun c _ => ?_⟩
    have := lin_nonneg hsp (σ := σ) hC.toNumericsOk hG hE hs hcap hsame hσ.sand.air hA f w hw c
    unfold preventTinyNegatives
    split
    · exact le_rfl
    · exact this
  have hw0 : ∀ c f, 0 ≤ initialWeights C E σ σ'.cap c f := by
    intro c f
    unfold initialWeights
    split
    · exact hC.dist f
    · exact C44_nonneg C.bi _ _ _ hC.bi.1 hC.bi.2 (hσ.sand.air c) (fun f => (hcap c f).1) (hmass c) f
  obtain ⟨hw1, hw2, hair, hpk⟩ := C81_solve _ hok _ _ _ hw0 hC.setup.fractions o ho
  have hcell : ∀ c, _ := fun c => update_physical C.setup.bed M hM hC.setup.layers hC.setup.source hC.setup.sourceSum
    { σ.sand.bed c with pickup := o.pickup c } (hσ.sand.layers c) (hσ.sand.mass c) (fun f => hpk f (hconv f) c) (hne c)
  refine ⟨⟨?_, hcap, by rw [hw]; exact hw1⟩, by rw [hw]; exact hw2, fun c f => hE.speed c f _ (hs c f)⟩
  rw [hsand]
  exact ⟨fun c => (hcell c).1, fun c => (hcell c).2, hair⟩

theorem waves_sound (C : Whole.Config nf) (hC : ConfigOk C) (M : ℝ) (E : Env nx ny nf) (σ : Whole.State nx ny nf)
    (hσ : Sound C.setup.bed.nl M σ) : Sound C.setup.bed.nl M (waves C E σ) :=
  ⟨⟨fun c => C38_mixing_keeps_equal_layer_mass _ _ _ _ _ _ _ M (hσ.sand.layers c),
    fun c => C38_mixing_nonneg _ _ _ _ _ _ _ hC.setup.thick (hσ.sand.mass c), hσ.sand.air⟩, hσ.cap, hσ.w⟩

theorem C125_step (sp : LinSolve nx ny) (hsp : Exact sp) (C : Whole.Config nf) (hC : ConfigOk C) (hG : GridOk nx ny C) (M : ℝ)
    (hM : 0 ≤ M) (E : Env nx ny nf) (hE : Windy E → EnvOk C E) (σ σ' : Whole.State nx ny nf) (hσ : Sound C.setup.bed.nl M σ)
    (hc : Windy E → Converges sp C M E (waves C E σ)) (h : Whole.step sp C E σ = some (.ok σ')) : Sound C.setup.bed.nl M σ' := by
  have h1 := waves_sound C hC M E σ hσ
  have hrel : ∀ τ : Whole.State nx ny nf, Sound C.setup.bed.nl M τ → Sound C.setup.bed.nl M (relevel E τ) :=
    fun τ hτ => ⟨⟨hτ.sand.layers, hτ.sand.mass, hτ.sand.air⟩, hτ.cap, hτ.w⟩
  unfold Whole.step at h
  simp only at h
  split_ifs at h with hw
  · match ht : transport sp C E (waves C E σ) with
    | none => simp [ht] at h
    | some (.error e) => simp [ht] at h
    | some (.ok τ) =>
      simp only [ht] at h
      rw [← Except.ok.inj (Option.some.inj h)]
      exact hrel τ (C125_transport sp hsp C hC hG M hM E (hE hw) _ τ h1 (hc hw) ht).1
  · rw [← Except.ok.inj (Option.some.inj h)]
    exact hrel _ h1

/-- **C125** The same for a run with any number of time steps. -/
theorem C125_run (sp : LinSolve nx ny) (hsp : Exact sp) (C : Whole.Config nf) (hC : ConfigOk C) (hG : GridOk nx ny C) (M : ℝ)
    (hM : 0 ≤ M) (Es : List (Env nx ny nf)) (hE : ∀ E ∈ Es, Windy E → EnvOk C E) (σ σ' : Whole.State nx ny nf) (hσ : Sound C.setup.bed.nl M σ)
    (hc : ∀ before E after τ, Es = before ++ E :: after → Whole.run sp C before σ = some (.ok τ) → Windy E →
      Converges sp C M E (waves C E τ))
    (h : Whole.run sp C Es σ = some (.ok σ')) : Sound C.setup.bed.nl M σ' := by
  induction Es generalizing σ with
  | nil => rw [← Except.ok.inj (Option.some.inj h)]; exact hσ
  | cons E Es ih =>
    unfold Whole.run at h
    match h1 : Whole.step sp C E σ with
    | none => simp [h1] at h
    | some (.error e) => simp [h1] at h
    | some (.ok τ) =>
      simp only [h1] at h
      have hp := C125_step sp hsp C hC hG M hM E (hE E (by simp)) σ τ hσ (hc [] E Es σ rfl rfl) h1
      refine ih (fun E' h' => hE E' (by simp [h'])) τ hp (fun before E' after τ' he hb => ?_) h
      refine hc (E :: before) E' after τ' (by rw [he]; rfl) ?_
      unfold Whole.run
      simp only [h1]
      exact hb

/-! ### A step always returns -/

/-- Known names of the methods and boundary conditions, no missing functions, at least one iteration. -/
structure NamesOk (C : Whole.Config nf) : Prop where
  speed : C.tr.methodGrainspeed ∈ grainspeedMethods
  transport : lower C.tr.methodTransport ∈ transportMethods
  gs : ¬ (lower C.tr.methodTransport = "bagnold_gs" ∧ C.tr.planar = true)
  functions : C.thr.thDrylayer = false ∧ C.thr.thHumidity = false
  on : C.bounds.on = "flux" ∨ C.bounds.on = "constant" ∨ C.bounds.on = "uniform" ∨ C.bounds.on = "gradient"
  lat : C.bounds.lat = "circular" ∨ C.bounds.lat = "constant"
  iter : 1 ≤ C.maxIter

theorem compute_total (c : Threshold.Config nf) (x : Threshold.Cell nf) (s : Threshold.Thr nf)
    (hm : c.thMoisture = true → lower c.methodMoistThreshold ∈ incrementalMoist) (hsh : c.thSheltering = false)
    (hf : c.thDrylayer = false ∧ c.thHumidity = false) : ∃ s', Threshold.compute c x s = .ok s' := by
  have hcor : ∀ u : Fin nf → XR, ∃ v, Threshold.corrections c x u = .ok v := by
    intro u
    unfold Threshold.corrections
    simp only [hf.1, hf.2, hsh, Bool.false_eq_true, if_false]
    by_cases ht : c.thMoisture = true
    · rw [if_pos ht]
      match hmo : Threshold.moisture c x.moist with
      | .error e =>
        have := ((C56_unknown c x.moist e).mp hmo).1
        exact absurd (List.mem_append_left _ (hm ht)) this
      | .ok f => exact ⟨_, rfl⟩
    · rw [if_neg ht]
      split_ifs <;> exact ⟨_, rfl⟩
  unfold Threshold.compute
  simp only
  by_cases hp : c.processThreshold = true ∧ ¬ c.thresholdFile = true
  · rw [if_pos hp]
    obtain ⟨v, hv⟩ := hcor (if c.thGrainsize = true then { s with uth := Threshold.grainsizeThreshold c, uth0 := Threshold.grainsizeThreshold c } else s).uth
    rw [hv]
    exact ⟨_, rfl⟩
  · rw [if_neg hp]
    exact ⟨_, rfl⟩

/-- **C125** With known names a step with onshore wind always returns: no exception, no infinite or undefined capacity. -/
theorem C125_total (sp : LinSolve nx ny) (C : Whole.Config nf) (hC : ConfigOk C) (hN : NamesOk C) (hG : GridOk nx ny C) (E : Env nx ny nf)
    (hE : Windy E → EnvReal C E) (σ : Whole.State nx ny nf) (h0 : ∀ c f, 0 ≤ (σ.cap c f).Cu0) : ∃ σ', Whole.step sp C E σ = some (.ok σ') := by
  have key : EnvReal C E → ∀ τ : Whole.State nx ny nf, (∀ c f, 0 ≤ (τ.cap c f).Cu0) → ∃ τ', transport sp C E τ = some (.ok τ') := by
    intro hE
    intro τ hτ
    have hthr := fun c => compute_total C.thr (thrCell E τ c) (τ.thr c) hC.moist hC.threshold.2.2.2 hN.functions
    choose thr hthr using hthr
    have hsp : ∀ c f, ∃ s, Transport.grainspeed C.tr (E.wind c) (E.duran c f) = .ok s := by
      intro c f
      have := hN.speed
      unfold Transport.grainspeed grainspeedMethods at *
      split_ifs with a b d
      · exact ⟨_, rfl⟩
      · exact ⟨_, rfl⟩
      · exact ⟨_, rfl⟩
      · simp_all
    choose speed hspeed using hsp
    have hcap : ∀ c f, ∃ k : Capacity, Transport.equilibrium C.tr (C.thr.grainSize f) (E.wind c) (E.duran c f)
        ⟨(thr c).uth f, (thr c).uthf f, (thr c).uth0 f⟩ ⟨XR.fin (τ.cap c f).Cu, XR.fin (τ.cap c f).Cuf, XR.fin (τ.cap c f).Cu0⟩ =
        .ok ⟨XR.fin k.Cu, XR.fin k.Cuf, XR.fin k.Cu0⟩ := by
      intro c f
      match hq : Transport.equilibrium C.tr (C.thr.grainSize f) (E.wind c) (E.duran c f)
        ⟨(thr c).uth f, (thr c).uthf f, (thr c).uth0 f⟩ ⟨XR.fin (τ.cap c f).Cu, XR.fin (τ.cap c f).Cuf, XR.fin (τ.cap c f).Cu0⟩ with
      | .error e =>
        rcases (C52_errors C.tr hC.transport.2 _ _ _ _ _ e).mp hq with h | ⟨-, h | h⟩
        · exact absurd hN.speed h.1
        · exact absurd ⟨h.1, h.2.1⟩ hN.gs
        · exact absurd hN.transport h.1
      | .ok r =>
        have ht := compute_thresholds C.thr hC.bed (thrCell E τ c) (τ.thr c) (thr c) hC.threshold.1 hC.threshold.2.1
          hC.threshold.2.2.1 hC.moist hC.threshold.2.2.2 (hE.mask c).1 (hE.mask c).2 (hthr c)
        obtain ⟨x, y, z, he, -⟩ := equilibrium_real C.tr hC.transport.1 hC.transport.2 (C.thr.grainSize f) (hC.size f) (E.wind c)
          (hE.ustar c).1 (hE.ustar c).2 (E.duran c f) (speed c f) (hspeed c f) (hE.speed c f _ (hspeed c f)) _ (ht.1 f).1
          (ht.1 f).2.1 (ht.1 f).2.2 _ _ ⟨_, rfl, hτ c f⟩ hq
        exact ⟨⟨x, y, z⟩, by rw [he]⟩
    choose cap hcap using hcap
    have hmat : ∃ A, matrices C E speed = .ok A := by
      have : ∀ f, ∃ A : Matrix (Fin (cells nx ny)) (Fin (cells nx ny)) ℝ,
          (match boundaries C.bounds (system C E speed f).offRatio (system C E speed f).onRatio with
            | .error e => .error e
            | .ok bc => (system C E speed f).matrix bc : Except PyErr (Matrix (Fin (cells nx ny)) (Fin (cells nx ny)) ℝ)) = .ok A := by
        intro f
        have hb : ∃ bc, boundaries C.bounds (system C E speed f).offRatio (system C E speed f).onRatio = .ok bc := by
          have h1 : ∃ x, offshore C.bounds.off (system C E speed f).offRatio = .ok x := by
            unfold offshore
            rcases hC.off with h | h | h <;> simp [h]
          have h2 : ∃ x, onshore C.bounds.off C.bounds.on (system C E speed f).onRatio = .ok x := by
            unfold onshore
            rcases hN.on with h | h | h | h <;> simp only [h] <;> split_ifs <;> simp_all
          have h3 : ∃ x, lateral C.bounds.lat = .ok x := by
            unfold lateral
            rcases hN.lat with h | h <;> simp [h]
          obtain ⟨x, hx⟩ := h1
          obtain ⟨y, hy⟩ := h2
          obtain ⟨z, hz⟩ := h3
          unfold boundaries
          rw [hx, hy, hz]
          exact ⟨_, rfl⟩
        obtain ⟨bc, hb⟩ := hb
        rw [hb]
        exact ⟨_, matrix_ok (system C E speed f) bc hG.columns hG.rows⟩
      choose A hA using this
      exact ⟨A, collect_ok.mpr hA⟩
    obtain ⟨A, hA⟩ := hmat
    obtain ⟨o, ho⟩ := C81_total (solverIn sp C E τ cap speed A) hN.iter τ.sand.Ct (fun c => (τ.sand.bed c).pickup) (initialWeights C E τ cap)
    refine ⟨⟨⟨fun c => Bed.update C.setup.bed { τ.sand.bed c with pickup := o.pickup c }, o.Ct⟩, thr, cap, speed, o.w⟩,
      transport_ok.mpr ⟨hthr, fun c f => ?_, hcap, A, o, hA, ho, rfl, rfl⟩⟩
    rw [if_pos hC.transport.2]
    exact hspeed c f
  unfold Whole.step
  simp only
  split_ifs with hw
  · obtain ⟨τ, hτ⟩ := key (hE hw) (waves C E σ) h0
    rw [hτ]
    exact ⟨_, rfl⟩
  · exact ⟨_, rfl⟩

/-- **C125** On a transect with grains that move with the wind, onshore wind is all that is needed of the velocities. -/
theorem C125_windspeed (C : Whole.Config nf) (hm : C.tr.methodGrainspeed = "windspeed") (E : Env nx 0 nf) (hdt : 0 < E.dt)
    (hw : ∀ c, 0 < (E.wind c).uw ∧ 0 ≤ (E.wind c).uws) (hu : ∀ c, 0 ≤ (E.wind c).ustar ∧ 0 < (E.wind c).ustar0)
    (hk : ∀ c, 0 < (E.mask c).1 ∧ 0 ≤ (E.mask c).2) : EnvOk C E := by
  have hs : ∀ c f s, Transport.grainspeed C.tr (E.wind c) (E.duran c f) = .ok s → s = ⟨(E.wind c).uw, (E.wind c).uws, (E.wind c).uwn⟩ := by
    intro c f s h
    unfold Transport.grainspeed at h
    rw [hm, if_neg (by decide), if_pos rfl] at h
    exact (Except.ok.inj h).symm
  refine ⟨hdt, fun c => ⟨(hu c).1, fun _ => (hu c).2⟩, hk, fun c f s h => ?_, Or.inl ⟨fun c f s h => ?_, fun h => absurd h (lt_irrefl 0)⟩,
    fun _ c f s h => ?_⟩
  · rw [hs c f s h]
    exact (hw c).1.le
  · rw [hs c f s h]
    exact ⟨(hw c).2, fun h => absurd h (lt_irrefl 0)⟩
  · rw [hs c f s h]
    exact (hw c).1

/-- **C125** With prescribed concentrations at both ends of the transect, so is wind from any direction that is the same in all cells. -/
theorem C125_any_direction (C : Whole.Config nf) (hm : C.tr.methodGrainspeed = "windspeed") (E : Env nx 0 nf) (hdt : 0 < E.dt)
    (hon : C.bounds.on = "flux" ∨ C.bounds.on = "constant" ∨ C.bounds.off = "noflux") (v : ℝ)
    (hw : ∀ c, 0 < (E.wind c).uw ∧ (E.wind c).uws = v) (hu : ∀ c, 0 ≤ (E.wind c).ustar ∧ 0 < (E.wind c).ustar0)
    (hk : ∀ c, 0 < (E.mask c).1 ∧ 0 ≤ (E.mask c).2) : EnvOk C E := by
  have hs : ∀ c f s, Transport.grainspeed C.tr (E.wind c) (E.duran c f) = .ok s → s = ⟨(E.wind c).uw, (E.wind c).uws, (E.wind c).uwn⟩ := by
    intro c f s h
    unfold Transport.grainspeed at h
    rw [hm, if_neg (by decide), if_pos rfl] at h
    exact (Except.ok.inj h).symm
  refine ⟨hdt, fun c => ⟨(hu c).1, fun _ => (hu c).2⟩, hk, fun c f s h => ?_, Or.inr ⟨rfl, hon, fun c c' _ f s s' h h' => ?_⟩,
    fun _ c f s h => ?_⟩
  · rw [hs c f s h]
    exact (hw c).1.le
  · rw [hs c f s h, hs c' f s' h', (hw c).2, (hw c').2]
    exact id
  · rw [hs c f s h]
    exact (hw c).1

/-! ### C126 -/

/-- What a cell gives to the air is at most what its weight of the capacity leaves after the concentration. -/
theorem solve_pickup {ι : Type*} [Fintype ι] (s : SolveIn ℝ ι nf) (Ct0 p0 w0 : ι → Fin nf → ℝ) (o : SolveOut ℝ ι nf)
    (hr : solve s Ct0 p0 w0 = .ok o) (c : ι) (k : Fin nf) :
    ∃ v, o.pickup c k ≤ (v * s.Cu c k - o.Ct c k) / s.T * s.dt := by
  have loop : ∀ (i : Fin nf) (n : ℕ) (w : ι → ℝ) (r : FracOut ℝ ι), fractionLoop (s.frac i) (s.lin i) n w = .ok r →
      ∀ c, ∃ v, r.pickup c ≤ (v * s.Cu c i - r.Ct c) / s.T * s.dt := by
    intro i n
    induction n with
    | zero => intro w r h; cases h
    | succ n ih =>
      intro w r h c
      unfold fractionLoop at h
      simp only at h
      split_ifs at h with h1 h2
      · rw [← Except.ok.inj h]
        exact ⟨w c, le_rfl⟩
      · exact ih _ r h c
      · rw [← Except.ok.inj h]
        exact ⟨w c, min_le_left _ _⟩
  have key := foldlM_inv (fractionStep s)
    (fun m o => ∀ k : Fin nf, (k : ℕ) < m → ∀ c, ∃ v, o.pickup c k ≤ (v * s.Cu c k - o.Ct c k) / s.T * s.dt)
    (List.finRange nf) 0 ⟨Ct0, p0, w0, fun _ => false⟩ o (fun k hk => by omega) ?_ hr
  · simp only [List.length_finRange, Nat.zero_add] at key
    exact key k k.2 c
  · intro m hm b b' hb hf
    simp only [List.length_finRange] at hm
    rw [List.getElem_finRange, Nat.zero_add] at *
    intro k hk c
    unfold fractionStep at hf
    simp only at hf
    match hL : fractionLoop (s.frac (Fin.cast (List.length_finRange) ⟨m, by simpa using hm⟩)) (s.lin (Fin.cast (List.length_finRange) ⟨m, by simpa using hm⟩)) s.maxIter
        (fun c => renormalizeWeights (Fin.cast (List.length_finRange) ⟨m, by simpa using hm⟩ : Fin nf) (b.w c) (Fin.cast (List.length_finRange) ⟨m, by simpa using hm⟩)) with
    | .error e => rw [hL] at hf; cases hf
    | .ok r =>
      rw [hL] at hf
      cases hf
      by_cases hkm : k = ⟨m, hm⟩
      · subst hkm
        obtain ⟨v, hv⟩ := loop _ _ _ _ hL c
        exact ⟨v, by simpa using hv⟩
      · have hlt : (k : ℕ) < m := by
          rcases Nat.lt_or_ge (k : ℕ) m with h | h
          · exact h
          · exact absurd (Fin.ext (show (k : ℕ) = m by omega)) hkm
        obtain ⟨v, hv⟩ := hb k hlt c
        refine ⟨v, ?_⟩
        simp only [Fin.cast_mk]
        rw [Function.update_of_ne hkm, Function.update_of_ne hkm]
        exact hv

/-- Without erosion in any fraction the bed is not lowered. -/
theorem update_not_lowered (p : Bed.Params ℝ nf) (hr : 0 < p.rhog * (1 - p.porosity)) (s : Bed.Cell ℝ nf) (h0 : 0 ≤ layerTotal s.mass 0)
    (hp : ∀ f, s.pickup f ≤ 0) : s.zb ≤ (Bed.update p s).zb := by
  cases hb : p.processBedupdate with
  | false => rw [(C36_bed_level_off p s hb).1]
  | true =>
    have hs : ∑ f, s.pickup f ≤ 0 := sum_nonpos fun f _ => hp f
    have hd : (∑ f, s.pickup f) / (p.rhog * (1 - p.porosity)) ≤ 0 := div_nonpos_of_nonpos_of_nonneg hs hr.le
    by_cases h1 : ∑ f, s.pickup f < 0
    · rcases lt_trichotomy (-∑ f, s.pickup f) (layerTotal s.mass 0) with h | h | h
      · rw [(C36_bed_level_partial p s h0 (fun _ => h) hb).1]; linarith
      · rw [C36_bed_level_exact_deposit p s (by rw [← h]; linarith) h hb]; linarith
      · rw [C36_large_deposit_leaves_bed_level p s h0 h]
    · rw [(C36_bed_level_partial p s h0 (fun h => absurd h h1) hb).1]; linarith

end Aeolis.Props
