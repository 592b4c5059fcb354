import Verif.Proofs.SolveTrace
import Verif.Proofs.SolverBudgetAny
import Verif.Props.WholeBudget

/-!
C132: which quantities of which time a time step of the chain combines, and the equation its concentrations satisfy.
-/

set_option linter.unusedSectionVars false

namespace Aeolis.Props

open Finset Aeolis.Spec Aeolis.Sand Aeolis.Solver Aeolis.Whole

variable {nx ny nf : ℕ}

open Classical in
/-- Masses in a cell after mixing by the waves of this step. -/
noncomputable def mixedMass (C : Whole.Config nf) (E : Env nx ny nf) (σ : Whole.State nx ny nf) (c : Fin (cells nx ny)) : Bed.Mass ℝ nf :=
  Bed.mixtoplayer C.setup.bed.nl C.setup.mixing C.setup.facDOD (E.hsmix c) C.setup.thlyr
    (decide (∃ c, ∃ k ∈ range C.setup.bed.nl, Bed.mixIx0 C.setup.thlyr (C.setup.facDOD * E.hsmix c) k)) (σ.sand.bed c).mass

/-- The bed after exchange of `pickup` with the air, before later changes of the levels. -/
noncomputable def exchangedBed (C : Whole.Config nf) (E : Env nx ny nf) (σ : Whole.State nx ny nf) (pickup : Fin (cells nx ny) → Fin nf → ℝ)
    (c : Fin (cells nx ny)) : Bed.Cell ℝ nf :=
  Bed.update C.setup.bed ⟨mixedMass C E σ c, pickup c, (σ.sand.bed c).zb, E.zs c, (σ.sand.bed c).dzb⟩

/-- **C132** Without wind a time step always returns; it mixes the bed, takes over the water level and applies the later changes of the
levels.  Air, thresholds, capacities, speeds and weights stay. -/
theorem C132_without_wind (sp : LinSolve nx ny) (C : Whole.Config nf) (E : Env nx ny nf) (σ : Whole.State nx ny nf)
    (hw : ∑ c, (E.wind c).uw = 0) :
    ∃ σ', Whole.step sp C E σ = some (.ok σ') ∧ σ'.thr = σ.thr ∧ σ'.cap = σ.cap ∧ σ'.speed = σ.speed ∧ σ'.w = σ.w ∧
      σ'.sand.Ct = σ.sand.Ct ∧ ∀ c, (σ'.sand.bed c).mass = mixedMass C E σ c ∧ (σ'.sand.bed c).pickup = (σ.sand.bed c).pickup ∧
        ((σ'.sand.bed c).zb, (σ'.sand.bed c).zs, (σ'.sand.bed c).dzb) =
          E.levels (fun c => ((σ.sand.bed c).zb, E.zs c, (σ.sand.bed c).dzb)) c := by
  refine ⟨relevel E (waves C E σ), ?_, rfl, rfl, rfl, rfl, rfl, fun c => ⟨rfl, rfl, rfl⟩⟩
  unfold Whole.step
  simp only [hw, ne_eq, not_true_eq_false, if_false]

/-- **C132** With wind, thresholds come from the mixed top layer, the bed level of the previous and the water level, moisture and salt of
this step; speeds from the wind of this step; capacities from the new thresholds; the bed exchanges with the air what the solver found,
for every fraction the demand at some weights, limited by the sand in the mixed top layer unless the solver gave up; later changes of the levels come last. -/
theorem C132_with_wind (sp : LinSolve nx ny) (C : Whole.Config nf) (E : Env nx ny nf) (σ σ' : Whole.State nx ny nf)
    (hw : ∑ c, (E.wind c).uw ≠ 0) (h : Whole.step sp C E σ = some (.ok σ')) :
    (∀ c, Threshold.compute C.thr
      { zb := (σ.sand.bed c).zb, zs := E.zs c, moist := E.moist c, salt := E.salt c, ustar := (E.wind c).ustar,
        mass := mixedMass C E σ c 0, maskRe := (E.mask c).1, maskIm := (E.mask c).2, zne := E.zne c } (σ.thr c) = .ok (σ'.thr c)) ∧
    (∀ c f, if C.tr.processTransport then Transport.grainspeed C.tr (E.wind c) (E.duran c f) = .ok (σ'.speed c f)
      else σ'.speed c f = σ.speed c f) ∧
    (∀ c f, Transport.equilibrium C.tr (C.thr.grainSize f) (E.wind c) (E.duran c f)
        ⟨(σ'.thr c).uth f, (σ'.thr c).uthf f, (σ'.thr c).uth0 f⟩
        ⟨XR.fin (σ.cap c f).Cu, XR.fin (σ.cap c f).Cuf, XR.fin (σ.cap c f).Cu0⟩ =
      .ok ⟨XR.fin (σ'.cap c f).Cu, XR.fin (σ'.cap c f).Cuf, XR.fin (σ'.cap c f).Cu0⟩) ∧
    ∃ pickup : Fin (cells nx ny) → Fin nf → ℝ,
      (∀ f, ∃ W : Fin (cells nx ny) → ℝ, ∀ c,
        let demand := (W c * (σ'.cap c f).Cu - σ'.sand.Ct c f) / C.T * E.dt
        (pickup c f = demand ∨ pickup c f = min demand (mixedMass C E σ c 0 f)) ∧
        ((f : ℕ) + 1 = nf → σ'.w c f = W c ∨ mixedMass C E σ c 0 f + C.setup.bed.maxError < pickup c f)) ∧
      ∀ c, (σ'.sand.bed c).mass = (exchangedBed C E σ pickup c).mass ∧ (σ'.sand.bed c).pickup = (exchangedBed C E σ pickup c).pickup ∧
        ((σ'.sand.bed c).zb, (σ'.sand.bed c).zs, (σ'.sand.bed c).dzb) = E.levels (fun c =>
          ((exchangedBed C E σ pickup c).zb, (exchangedBed C E σ pickup c).zs, (exchangedBed C E σ pickup c).dzb)) c := by
  unfold Whole.step at h
  simp only [if_pos hw] at h
  match ht : transport sp C E (waves C E σ) with
  | none => simp [ht] at h
  | some (.error e) => simp [ht] at h
  | some (.ok τ) =>
    simp only [ht] at h
    obtain rfl := Except.ok.inj (Option.some.inj h)
    have hP := transport_ok.mp ht
    obtain ⟨A, o, hA, ho, hsand, hwt⟩ := hP.out
    refine ⟨hP.thr, hP.speed, hP.cap, o.pickup, fun f => ?_, fun c => ?_⟩
    · obtain ⟨W, hW⟩ := solve_trace _ _ _ _ o ho f
      refine ⟨W, fun c => ?_⟩
      obtain ⟨_, a2, a3⟩ := hW c
      have e1 : (relevel E τ).sand.Ct c f = o.Ct c f := by
        show τ.sand.Ct c f = _
        rw [hsand]
      have e2 : (relevel E τ).w c f = o.w c f := by
        show τ.w c f = _
        rw [hwt]
      rw [e1, e2]
      exact ⟨a2, a3⟩
    · have hb : τ.sand.bed = exchangedBed C E σ o.pickup := by
        rw [hsand]
        rfl
      rw [← hb]
      exact ⟨rfl, rfl, rfl⟩

/-- **C132** On a transect the concentrations of every fraction satisfy the discretised equation with the capacities and speeds of this
step, the concentrations of the previous step, and weights `W`: change in the air = exchange with the bed − upwind difference of the
transport − what leaves sideways; prescribed values at the ends.  For any implicitness and any wind for which the systems can be solved. -/
theorem C132_transect (sp : LinSolve nx 0) (hsp : Exact sp) (C : Whole.Config nf) (hnx : 2 ≤ nx) (hbeta : 1 ≤ |C.beta|) (hT : C.T ≠ 0)
    (hlat : C.bounds.lat = "circular") (harea : ∀ j ≤ nx, C.ds 0 j * C.dn 0 j * C.dsdni 0 j = 1) (hwidth : ∀ j ≤ nx, C.dn 0 j = C.dn 0 0)
    (E : Env nx 0 nf) (σ σ' : Whole.State nx 0 nf) (hw : ∑ c, (E.wind c).uw ≠ 0) (h : Whole.step sp C E σ = some (.ok σ'))
    (hinv : ∀ A, matrices C E σ'.speed = .ok A → ∀ f, IsUnit (A f)) (f : Fin nf) :
    ∃ W X : Fin (cells nx 0) → ℝ, (0 ≤ C.setup.bed.maxError → (∀ c, 0 ≤ X c) → ∀ c, σ'.sand.Ct c f = X c) ∧
      (let col : (Fin (cells nx 0) → ℝ) → ℕ → ℝ := fun Y j => onGrid (nx := nx) (ny := 0) Y 0 j
      let us := col fun c => (σ'.speed c f).us
      let un := col fun c => (σ'.speed c f).un
      let x := col X
      let mid := fun j => C.alpha * x j + (1 - C.alpha) * col (fun c => σ.sand.Ct c f) j
      let S := col fun c => ∑ g, if 0 < (σ'.cap c g).Cu then σ.sand.Ct c g / (σ'.cap c g).Cu else 0
      let eq := fun j => C.alpha * (col W j * (col (fun c => (σ'.cap c f).Cuf) j * (1 - S j) + col (fun c => (σ'.cap c f).Cu) j * S j)) +
        (1 - C.alpha) * (col (fun c => σ.w c f) j *
          (col (fun c => (σ.cap c f).Cuf) j * (1 - S j) + col (fun c => (σ.cap c f).Cu) j * S j))
      (∀ j, 1 ≤ j → j < nx → C.ds 0 j * C.dn 0 j * (x j - col (fun c => σ.sand.Ct c f) j) =
        C.ds 0 j * C.dn 0 j * ((eq j - mid j) / C.T * E.dt)
        - E.dt * C.dn 0 0 * (if 0 ≤ us j then us j * mid j - us (j - 1) * mid (j - 1) else us (j + 1) * mid (j + 1) - us j * mid j)
        - E.dt * (C.alpha * (C.ds 0 j * |un j| * x j))) ∧
      (C.bounds.off = "flux" → x 0 = C.offshoreFlux * col (fun c => (σ'.cap c f).Cu0) 0) ∧
      (C.bounds.off = "constant" → x 0 = C.constOff / col (fun c => (σ'.speed c f).u) 0) ∧
      (C.bounds.on = "flux" → x nx = C.onshoreFlux * col (fun c => (σ'.cap c f).Cu0) nx) ∧
      (C.bounds.on = "constant" → x nx = C.constOn / col (fun c => (σ'.speed c f).u) nx)) := by
  unfold Whole.step at h
  simp only [if_pos hw] at h
  match ht : transport sp C E (waves C E σ) with
  | none => simp [ht] at h
  | some (.error e) => simp [ht] at h
  | some (.ok τ) =>
    simp only [ht] at h
    obtain rfl := Except.ok.inj (Option.some.inj h)
    have hP := transport_ok.mp ht
    obtain ⟨A, o, hA, ho, hsand, -⟩ := hP.out
    obtain ⟨W, hW⟩ := solve_trace _ _ _ _ o ho f
    have hf : 0 < nf := Nat.lt_of_le_of_lt (Nat.zero_le _) f.2
    obtain ⟨bc, hbc, hm⟩ := matrices_bounds hA hf
    have hlin := hsp (A f) (fun c : Fin (cells nx 0) => (system C E τ.speed f).rhs C.bounds
      (values C E (waves C E σ) τ.cap τ.speed f W) ((c : ℕ) / (nx + 1)) ((c : ℕ) % (nx + 1))) (hinv A hA f)
    let X : Fin (cells nx 0) → ℝ := (solverIn sp C E (waves C E σ) τ.cap τ.speed A).lin f W
    have hsol : Solves (system C E τ.speed f) C.bounds bc (values C E (waves C E σ) τ.cap τ.speed f W)
        (onGrid (nx := nx) (ny := 0) X) := by
      refine ⟨A f, hm f, ?_⟩
      have : (fun c : Fin (cells nx 0) => onGrid (nx := nx) (ny := 0) X ((c : ℕ) / (nx + 1)) ((c : ℕ) % (nx + 1))) = X := by
        funext c
        exact onGrid_index X c
      exact (congrArg (A f).mulVec this).trans hlin
    have hflow : AnyFlow (system C E τ.speed f) bc := by
      refine ⟨hnx, hbeta, hT, ?_, fun i hi j hj => ?_, fun i hi j hj => ?_⟩
      · exact lateral_circular _ _ _ bc (hbc f) hlat
      · obtain rfl := Nat.le_zero.mp hi
        exact harea j hj
      · obtain rfl := Nat.le_zero.mp hi
        exact hwidth j hj
    refine ⟨W, X, fun he hX c => ?_, fun j h1 h2 => ?_, ?_, ?_, ?_, ?_⟩
    · show τ.sand.Ct c f = X c
      rw [hsand]
      show o.Ct c f = X c
      rw [(hW c).1]
      unfold concentrations
      have e : (fun c => preventTinyNegatives ((solverIn sp C E (waves C E σ) τ.cap τ.speed A).frac f).maxError 0
          ((solverIn sp C E (waves C E σ) τ.cap τ.speed A).lin f W c)) = X := by
        funext c
        unfold preventTinyNegatives
        rw [if_neg]
        intro hh
        exact absurd hh.1 (not_lt.mpr (hX c))
      rw [e]
      unfold removeNegatives
      rw [if_neg]
      rintro ⟨c, hc⟩
      exact absurd hc (not_lt.mpr (hX c))
    · have e := cell_budget_any (system C E τ.speed f) C.bounds bc _ _ hflow hsol (Nat.zero_le 0) h1 h2
      rw [across_transect (system C E τ.speed f) bc _ _ hflow rfl h2] at e
      exact e
    · intro k
      exact (C50_offshore_value (system C E τ.speed f) C.bounds _ _ bc (hbc f) _ _ hsol hnx 0 (Nat.zero_le _)
        (by rw [hlat]; simp)).1 k
    · intro k
      exact (C50_offshore_value (system C E τ.speed f) C.bounds _ _ bc (hbc f) _ _ hsol hnx 0 (Nat.zero_le _)
        (by rw [hlat]; simp)).2.2.1 k
    · intro k
      exact (C50_onshore_value (system C E τ.speed f) C.bounds _ _ bc (hbc f) _ _ hsol hnx 0 (Nat.zero_le _)
        (by rw [hlat]; simp)).1 k
    · intro k
      exact (C50_onshore_value (system C E τ.speed f) C.bounds _ _ bc (hbc f) _ _ hsol hnx 0 (Nat.zero_le _)
        (by rw [hlat]; simp)).2.1 k

/-- **C132** With onshore wind and more sand in the mixed top layer than can be picked up, the weights stay what they were at the start of the
step: the configured distribution at the first step of a run without bed composition, else from the air and the mixed top layer with the
new capacities; every fraction exchanges exactly its demand. -/
theorem C132_plenty (sp : LinSolve nx ny) (hsp : Exact sp) (C : Whole.Config nf) (hC : ConfigOk C) (hG : GridOk nx ny C)
    (E : Env nx ny nf) (hE : EnvOk C E) (m : ℝ) (hm : 0 < m) (σ σ' : Whole.State nx ny nf) (hσ : Sound C.setup.bed.nl m σ)
    (hw : ∑ c, (E.wind c).uw ≠ 0) (hdist : ∑ f, C.thr.grainDist f = 1) (h : Whole.step sp C E σ = some (.ok σ'))
    (hplenty : ∀ c f, (σ'.cap c f).Cu / C.T * E.dt ≤ mixedMass C E σ c 0 f) :
    (∀ c f, σ'.w c f = if E.t = 0 ∧ C.bedcomp = false then C.thr.grainDist f
      else computeWeights C.bi (σ.sand.Ct c) (fun f => (σ'.cap c f).Cu) (mixedMass C E σ c 0) f) ∧
    (∀ c, ∑ f, σ'.w c f = 1) ∧
    ∀ c, (σ'.sand.bed c).mass = (exchangedBed C E σ (fun c f => (σ'.w c f * (σ'.cap c f).Cu - σ'.sand.Ct c f) / C.T * E.dt) c).mass := by
  unfold Whole.step at h
  simp only [if_pos hw] at h
  match ht : transport sp C E (waves C E σ) with
  | none => simp [ht] at h
  | some (.error e) => simp [ht] at h
  | some (.ok τ) =>
    simp only [ht] at h
    obtain rfl := Except.ok.inj (Option.some.inj h)
    have hP := transport_ok.mp ht
    have hσw := waves_sound C hC m E σ hσ
    have hs : ∀ c f, Transport.grainspeed C.tr (E.wind c) (E.duran c f) = .ok (τ.speed c f) := by
      intro c f
      simpa [hC.transport.2] using hP.speed c f
    obtain ⟨hpos, hsame⟩ := transport_cap hC hE (fun c f => (hσw.cap c f).2.2) hP
    obtain ⟨A, o, hA, ho, hsand, hwt⟩ := hP.out
    have hmass : ∀ c f, 0 ≤ ((waves C E σ).sand.bed c).mass 0 f := fun c f => hσw.sand.mass c 0 hC.setup.layers f
    have hok : SolveOk (solverIn sp C E (waves C E σ) τ.cap τ.speed A) := by
      refine ⟨hC.T, hE.dt, hC.err, fun c f => (hpos c f).1, hmass, fun f w hw => sum_nonneg fun c _ => ?_⟩
      have := lin_nonneg hsp (σ := waves C E σ) hC.toNumericsOk hG hE hs hpos hsame hσw.sand.air hA f w hw c
      unfold preventTinyNegatives
      split
      · exact le_rfl
      · exact this
    have hw0 : ∀ c f, 0 ≤ initialWeights C E (waves C E σ) τ.cap c f := by
      intro c f
      unfold initialWeights
      split
      · exact hC.dist f
      · exact C44_nonneg C.bi _ _ _ hC.bi.1 hC.bi.2 (hσw.sand.air c) (fun f => (hpos c f).1) (hmass c) f
    have hw1 : ∀ c, ∑ f, initialWeights C E (waves C E σ) τ.cap c f = 1 := by
      intro c
      unfold initialWeights
      split
      · exact hdist
      · refine C44_sum_one C.bi _ _ _ hC.bi.1 hC.bi.2 (hσw.sand.air c) (fun f => (hpos c f).1) (hmass c) (Or.inl ?_)
        by_contra hn
        push Not at hn
        have hl := hσw.sand.layers c 0 hC.setup.layers
        have : layerTotal ((waves C E σ).sand.bed c).mass 0 ≤ 0 := sum_nonpos fun f _ => hn f
        linarith
    obtain ⟨key, kp⟩ := solve_plenty _ hok hplenty _ _ _ hw0 hw1 o ho
    have ew : τ.w = initialWeights C E (waves C E σ) τ.cap := hwt.trans key
    refine ⟨fun c f => ?_, fun c => ?_, fun c => ?_⟩
    · show τ.w c f = _
      rw [ew]
      unfold initialWeights
      split_ifs <;> rfl
    · show ∑ f, τ.w c f = 1
      rw [ew]
      exact hw1 c
    · have hb : τ.sand.bed = exchangedBed C E σ o.pickup := by
        rw [hsand]
        rfl
      have hp : o.pickup = fun c f => (τ.w c f * (τ.cap c f).Cu - τ.sand.Ct c f) / C.T * E.dt := by
        funext c f
        rw [(kp f c).2, ew, hsand]
        rfl
      show (τ.sand.bed c).mass = _
      rw [hb, hp]
      rfl

/-- The systems of the beach of the examples can be solved. -/
theorem dune_solvable (moist : Fin (cells 2 0) → ℝ) (σ σ' : Whole.State 2 0 1)
    (hw : ∑ c, ((duneEnv 2 0 0.5 moist).wind c).uw ≠ 0)
    (h : Whole.step byInverse duneConfig (duneEnv 2 0 0.5 moist) σ = some (.ok σ')) (A)
    (hA : matrices duneConfig (duneEnv 2 0 0.5 moist) σ'.speed = .ok A) (f : Fin 1) : IsUnit (A f) := by
  obtain ⟨-, hs, -⟩ := C132_with_wind _ _ _ _ _ hw h
  exact (lin_solves byInverse_exact σ σ'.cap duneConfig_ok.toNumericsOk duneGrid (duneEnv_ok 0.5 (by norm_num) moist)
    (fun c f => by simpa [duneConfig_ok.transport.2] using hs c f) hA f fun _ => 0).1

theorem dune_wind (moist : Fin (cells 2 0) → ℝ) : ∑ c, ((duneEnv 2 0 0.5 moist).wind c).uw ≠ 0 := by
  simp [duneEnv, cells]

/-- A step over the beach of the examples: weights one, clear air at both ends. -/
example (moist : Fin (cells 2 0) → ℝ) :
    ∃ σ' : Whole.State 2 0 1, Whole.step byInverse duneConfig (duneEnv 2 0 0.5 moist) (duneState 2 0) = some (.ok σ') ∧
      (∀ c f, σ'.w c f = 1) ∧
      ∃ X : Fin (cells 2 0) → ℝ, ((∀ c, 0 ≤ X c) → ∀ c, σ'.sand.Ct c 0 = X c) ∧
        onGrid (nx := 2) (ny := 0) X 0 0 = 0 ∧ onGrid (nx := 2) (ny := 0) X 0 2 = 0 := by
  obtain ⟨σ', h, -⟩ := step_returns byInverse duneConfig duneConfig_ok duneConfig_names duneGrid (duneEnv 2 0 0.5 moist)
    (fun _ => duneEnv_ok 0.5 (by norm_num) moist) (duneState 2 0) fun _ _ => le_rfl
  refine ⟨σ', h, fun c f => ?_, ?_⟩
  · have hcap : ∀ c f, (σ'.cap c f).Cu ≤ 0.0025 := by
      have h1 := h
      unfold Whole.step at h1
      simp only [if_pos (dune_wind moist)] at h1
      match ht : transport byInverse duneConfig (duneEnv 2 0 0.5 moist) (waves duneConfig (duneEnv 2 0 0.5 moist) (duneState 2 0)) with
      | none => simp [ht] at h1
      | some (.error e) => simp [ht] at h1
      | some (.ok τ) =>
        simp only [ht] at h1
        obtain rfl := Except.ok.inj (Option.some.inj h1)
        exact fun c f => (((duneEnv_below moist).2.2.2 _ _ ht).1 c f).1
    have := (C132_plenty byInverse byInverse_exact duneConfig duneConfig_ok duneGrid _ (duneEnv_ok 0.5 (by norm_num) moist) 159 (by norm_num)
      _ σ' (duneState_sound 2 0) (dune_wind moist) (by simp [duneConfig, exThreshold]) h fun c f => by
        have e : mixedMass duneConfig (duneEnv 2 0 0.5 moist) (duneState 2 0) c 0 f = 159 := by
          simp [mixedMass, Bed.mixtoplayer, duneConfig, duneState]
        rw [e]
        have := hcap c f
        norm_num [duneConfig, duneEnv] at this ⊢
        linarith).2.1 c
    rw [Subsingleton.elim f 0]
    simpa using this
  · obtain ⟨W, X, z, -, a, -, b, -⟩ := C132_transect byInverse byInverse_exact duneConfig le_rfl (by norm_num [duneConfig])
      (by norm_num [duneConfig]) rfl (fun _ _ => by norm_num [duneConfig]) (fun _ _ => rfl) _ _ σ' (dune_wind moist) h
      (dune_solvable moist _ σ' (dune_wind moist) h) 0
    exact ⟨X, z (by norm_num [duneConfig]), by simpa [duneConfig] using a rfl, by simpa [duneConfig] using b rfl⟩

/-- A step without wind over the same beach. -/
example : ∃ σ', Whole.step byInverse duneConfig { duneEnv 2 0 0.5 fun _ => 0 with wind := fun _ => ⟨0, 0, 0, 0, 0, 0, 0⟩, zs := fun _ => 2 }
      (duneState 2 0) = some (.ok σ') ∧ ∀ c, (σ'.sand.bed c).zs = 2 := by
  obtain ⟨σ', h, -, -, -, -, -, hb⟩ := C132_without_wind byInverse duneConfig
    { duneEnv 2 0 0.5 fun _ => 0 with wind := fun _ => ⟨0, 0, 0, 0, 0, 0, 0⟩, zs := fun _ => 2 } (duneState 2 0) (by simp)
  exact ⟨σ', h, fun c => congrArg (fun x => x.2.1) (hb c).2.2⟩

end Aeolis.Props
