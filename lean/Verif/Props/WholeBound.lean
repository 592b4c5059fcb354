import Verif.Props.WholeErosion
import Verif.Props.SolverBound

/-!
C128: in a time step the concentrations stay below the transport capacity.
-/

set_option linter.unusedSectionVars false

namespace Aeolis.Props

open Finset Aeolis.Spec Aeolis.Sand Aeolis.Solver Aeolis.Whole

variable {nx ny nf : ℕ}

/-- The grains do not slow down from a cell to the next one, onshore and to the left. -/
structure Steadying (C : Whole.Config nf) (E : Env nx ny nf) : Prop where
  us : ∀ c c' : Fin (cells nx ny), (c : ℕ) % (nx + 1) < nx → (c' : ℕ) = c + 1 → ∀ f s s',
    Transport.grainspeed C.tr (E.wind c) (E.duran c f) = .ok s → Transport.grainspeed C.tr (E.wind c') (E.duran c' f) = .ok s' → s.us ≤ s'.us
  un : 0 < ny → ∀ c c' : Fin (cells nx ny), (c' : ℕ) = c + (nx + 1) → ∀ f s s',
    Transport.grainspeed C.tr (E.wind c) (E.duran c f) = .ok s → Transport.grainspeed C.tr (E.wind c') (E.duran c' f) = .ok s' → s.un ≤ s'.un

/-- The concentrations that enter at the ends are at most `M`. -/
structure EndsBelow (C : Whole.Config nf) (M : ℝ) (σ' : Whole.State nx ny nf) : Prop where
  off : ∀ c : Fin (cells nx ny), (c : ℕ) % (nx + 1) = 0 → ∀ f, (C.bounds.off = "flux" → C.offshoreFlux * (σ'.cap c f).Cu0 ≤ M) ∧
    (C.bounds.off = "constant" → C.constOff / (σ'.speed c f).u ≤ M)
  on : ∀ c : Fin (cells nx ny), (c : ℕ) % (nx + 1) = nx → ∀ f, (C.bounds.on = "flux" → C.onshoreFlux * (σ'.cap c f).Cu0 ≤ M) ∧
    (C.bounds.on = "constant" → C.constOn / (σ'.speed c f).u ≤ M)

theorem grid_at {i j : ℕ} (hi : i ≤ ny) (hj : j ≤ nx) : ∃ h : i * (nx + 1) + j < cells nx ny,
    (∀ X : Fin (cells nx ny) → ℝ, onGrid (nx := nx) (ny := ny) X i j = X ⟨i * (nx + 1) + j, h⟩) ∧ (i * (nx + 1) + j) % (nx + 1) = j := by
  have h : i * (nx + 1) + j < cells nx ny := by
    unfold cells
    have : i * (nx + 1) + (nx + 1) ≤ (ny + 1) * (nx + 1) := by
      rw [← Nat.succ_mul]; exact Nat.mul_le_mul_right _ (by omega)
    omega
  refine ⟨h, fun X => ?_, ?_⟩
  · unfold onGrid
    rw [dif_pos h]
  · rw [mul_comm, Nat.mul_add_mod, Nat.mod_eq_of_lt (by omega)]

theorem system_notSlowing {C : Whole.Config nf} {E : Env nx ny nf} {speed : Fin (cells nx ny) → Fin nf → Transport.Speed}
    (hS : Steadying C E) (hs : ∀ c f, Transport.grainspeed C.tr (E.wind c) (E.duran c f) = .ok (speed c f)) (f : Fin nf) :
    NotSlowing (system C E speed f) where
  us := by
    intro i hi j hj
    have hi : i ≤ ny := hi
    have hj : j + 1 ≤ nx := hj
    obtain ⟨h1, e1, m1⟩ := grid_at (nx := nx) hi (by omega : j ≤ nx)
    obtain ⟨h2, e2, -⟩ := grid_at (nx := nx) hi hj
    show onGrid (nx := nx) (ny := ny) (fun c => (speed c f).us) i j ≤ onGrid (nx := nx) (ny := ny) (fun c => (speed c f).us) i (j + 1)
    rw [e1, e2]
    exact hS.us ⟨_, h1⟩ ⟨_, h2⟩ (by show (i * (nx + 1) + j) % (nx + 1) < nx; rw [m1]; omega) (show i * (nx + 1) + (j + 1) = i * (nx + 1) + j + 1 from rfl) f _ _ (hs _ f) (hs _ f)
  un := by
    intro hy i hi j hj
    have hi : i + 1 ≤ ny := hi
    have hj : j ≤ nx := hj
    obtain ⟨h1, e1, -⟩ := grid_at (nx := nx) (by omega : i ≤ ny) hj
    obtain ⟨h2, e2, -⟩ := grid_at (nx := nx) hi hj
    show onGrid (nx := nx) (ny := ny) (fun c => (speed c f).un) i j ≤ onGrid (nx := nx) (ny := ny) (fun c => (speed c f).un) (i + 1) j
    rw [e1, e2]
    exact hS.un hy ⟨_, h1⟩ ⟨_, h2⟩ (by show (i + 1) * (nx + 1) + j = i * (nx + 1) + j + (nx + 1); ring) f _ _ (hs _ f) (hs _ f)

/-- **C128** With onshore wind, or on transects wind from any direction, that does not slow the grains down, an implicit scheme and circular lateral boundaries: if neither the
concentrations before the step, nor the capacities of the step, nor the concentrations entering at the ends exceed `M`, no concentration
after the step exceeds `M`. -/
theorem C128_transport (sp : LinSolve nx ny) (hsp : Exact sp) (C : Whole.Config nf) (hC : ConfigOk C) (hG : GridOk nx ny C)
    (hlat : C.bounds.lat = "circular") (E : Env nx ny nf) (hE : EnvOk C E) (hS : Steadying C E) (nl : ℕ) (hnl : 0 < nl) (m M : ℝ) (hM : 0 ≤ M)
    (σ σ' : Whole.State nx ny nf) (hσ : Sound nl m σ) (h : transport sp C E σ = some (.ok σ')) (hair : ∀ c f, σ.sand.Ct c f ≤ M)
    (hcap : ∀ c f, (σ'.cap c f).Cu ≤ M ∧ (σ'.cap c f).Cuf ≤ M) (hends : EndsBelow C M σ') (c : Fin (cells nx ny)) (f : Fin nf) :
    σ'.sand.Ct c f ≤ M := by
  have hP := transport_ok.mp h
  have hs : ∀ c f, Transport.grainspeed C.tr (E.wind c) (E.duran c f) = .ok (σ'.speed c f) := by
    intro c f
    simpa [hC.transport.2] using hP.speed c f
  obtain ⟨hpos, hsame⟩ := transport_cap hC hE (fun c f => (hσ.cap c f).2.2) hP
  obtain ⟨A, o, hA, ho, hsand, -⟩ := hP.out
  have hmass : ∀ c f, 0 ≤ (σ.sand.bed c).mass 0 f := fun c f => hσ.sand.mass c 0 hnl f
  have hlin := fun f w hw c => lin_nonneg hsp (σ := σ) hC.toNumericsOk hG hE hs hpos hsame hσ.sand.air hA f w hw c
  have hok : SolveOk (solverIn sp C E σ σ'.cap σ'.speed A) := by
    refine ⟨hC.T, hE.dt, hC.err, fun c f => (hpos c f).1, hmass, fun f w hw => sum_nonneg fun c _ => ?_⟩
    have := hlin f w hw c
    unfold preventTinyNegatives
    split
    · exact le_rfl
    · exact this
  have hw0 : ∀ c f, 0 ≤ initialWeights C E σ σ'.cap c f := by
    intro c f
    unfold initialWeights
    split
    · exact hC.dist f
    · exact C44_nonneg C.bi _ _ _ hC.bi.1 hC.bi.2 (hσ.sand.air c) (fun f => (hpos c f).1) (hmass c) f
  obtain ⟨w, hw, he⟩ := solve_weights _ hok _ _ _ hw0 o ho f
  have hconc : concentrations ((solverIn sp C E σ σ'.cap σ'.speed A).frac f) ((solverIn sp C E σ σ'.cap σ'.speed A).lin f) w =
      (solverIn sp C E σ σ'.cap σ'.speed A).lin f w := by
    have hp := hlin f w fun c => (hw c).1
    unfold concentrations removeNegatives
    have e : ∀ c, preventTinyNegatives ((solverIn sp C E σ σ'.cap σ'.speed A).frac f).maxError 0
        ((solverIn sp C E σ σ'.cap σ'.speed A).lin f w c) = (solverIn sp C E σ σ'.cap σ'.speed A).lin f w c :=
      fun c => Aeolis.preventTiny_of_nonneg _ _ (hp c)
    simp only [e]
    rw [if_neg]
    rintro ⟨c, hc⟩
    exact absurd (hp c) (not_le.mpr hc)
  rw [hsand]
  show o.Ct c f ≤ M
  rw [he c, hconc]
  have hAf := collect_ok.mp hA f
  split at hAf
  · cases hAf
  rename_i bc hb
  refine solution_le (system C E σ'.speed f) C.bounds _ _ bc hG.columns (div_nonneg hE.dt.le hC.T.le) hC.scheme.1 hb hC.off hC.on hlat
    (values C E σ σ'.cap σ'.speed f w) M hM (fun x hx i hi j h1 h2 => ?_) ?_ ?_ ?_ (A f) hAf
    (system_ok hC.toNumericsOk hG hE hs f bc hb (A f) hAf).2 _ (lin_solves hsp σ σ'.cap hC.toNumericsOk hG hE hs hA f w).2 c
  · have hl := lateral_circular _ _ _ bc hb hlat
    have hn := system_notSlowing hS hs f
    rcases hE.direction with hd | hd
    · exact constant_row _ bc (system_onshore hC.toNumericsOk hG hE.dt hd hs f) hn hC.scheme.1 hl M hM x hx hi h1 h2
    · exact constant_row_transect _ bc (system_transect hC.toNumericsOk hG hE.dt hd hs f).1 (hn.us 0 (Nat.zero_le _)) hC.scheme.1 hl M hM x hx
        hi h1 h2
  · intro i hi j hj
    obtain ⟨h1, e1, -⟩ := grid_at (nx := nx) (ny := ny) hi hj
    exact (e1 fun c => σ.sand.Ct c f).trans_le (hair _ f)
  · intro i hi j hj
    obtain ⟨h1, e1, -⟩ := grid_at (nx := nx) (ny := ny) hi hj
    have k1 : (values C E σ σ'.cap σ'.speed f w).w i j = w ⟨_, h1⟩ := e1 w
    have k2 : (values C E σ σ'.cap σ'.speed f w).Cuf i j = (σ'.cap ⟨_, h1⟩ f).Cuf := e1 fun c => (σ'.cap c f).Cuf
    have k3 : (values C E σ σ'.cap σ'.speed f w).Cu i j = (σ'.cap ⟨_, h1⟩ f).Cu := e1 fun c => (σ'.cap c f).Cu
    have k4 : (values C E σ σ'.cap σ'.speed f w).S i j = saturation (σ.sand.Ct ⟨_, h1⟩) (σ'.cap ⟨_, h1⟩) :=
      e1 fun c => saturation (σ.sand.Ct c) (σ'.cap c)
    rw [k1, k2, k3, k4]
    have hle : w ⟨_, h1⟩ * (σ'.cap ⟨_, h1⟩ f).Cuf ≤ M := by
      have h2 := (hw ⟨_, h1⟩).2
      have h3 := (hpos ⟨_, h1⟩ f).2.1
      have h4 := (hcap ⟨_, h1⟩ f).2
      nlinarith
    rcases hsame ⟨_, h1⟩ with hq | hq
    · rw [← hq f]
      linarith
    · have h0 : saturation (σ.sand.Ct ⟨_, h1⟩) (σ'.cap ⟨_, h1⟩) = 0 := by
        unfold saturation
        refine sum_eq_zero fun g _ => ?_
        rw [hq g]
        simp
      rw [h0]
      linarith
  · intro i hi
    have hi : i ≤ ny := hi
    obtain ⟨h1, e1, m1⟩ := grid_at (nx := nx) (ny := ny) hi (Nat.zero_le nx)
    obtain ⟨h2, e2, m2⟩ := grid_at (nx := nx) (ny := ny) hi le_rfl
    have a1 := hends.off ⟨_, h1⟩ m1 f
    have a2 := hends.on ⟨_, h2⟩ m2 f
    refine ⟨fun k => ?_, fun k => ?_, fun k => ?_, fun k => ?_⟩
    · show C.offshoreFlux * onGrid (nx := nx) (ny := ny) (fun c => (σ'.cap c f).Cu0) i 0 ≤ M
      rw [e1]; exact a1.1 k
    · show C.constOff / onGrid (nx := nx) (ny := ny) (fun c => (σ'.speed c f).u) i 0 ≤ M
      rw [e1]; exact a1.2 k
    · show C.onshoreFlux * onGrid (nx := nx) (ny := ny) (fun c => (σ'.cap c f).Cu0) i nx ≤ M
      rw [e2]; exact a2.1 k
    · show C.constOn / onGrid (nx := nx) (ny := ny) (fun c => (σ'.speed c f).u) i nx ≤ M
      rw [e2]; exact a2.2 k

/-- **C128** In a run with any number of steps: if the initial concentrations, the capacities of all steps and the concentrations entering
at the ends do not exceed `M`, the concentrations never exceed `M`. -/
theorem C128_run (sp : LinSolve nx ny) (hsp : Exact sp) (C : Whole.Config nf) (hC : ConfigOk C) (hG : GridOk nx ny C)
    (hlat : C.bounds.lat = "circular") (m M : ℝ) (hm : 0 ≤ m) (hM : 0 ≤ M) (Es : List (Env nx ny nf))
    (hE : ∀ E ∈ Es, Windy E → EnvOk C E ∧ Steadying C E) (σ σ' : Whole.State nx ny nf) (hσ : Sound C.setup.bed.nl m σ)
    (hc : ∀ before E after τ, Es = before ++ E :: after → Whole.run sp C before σ = some (.ok τ) → Windy E → Converges sp C m E (waves C E τ) ∧
      ∀ ρ, transport sp C E (waves C E τ) = some (.ok ρ) → (∀ c f, (ρ.cap c f).Cu ≤ M ∧ (ρ.cap c f).Cuf ≤ M) ∧ EndsBelow C M ρ)
    (hair : ∀ c f, σ.sand.Ct c f ≤ M) (h : Whole.run sp C Es σ = some (.ok σ')) (c : Fin (cells nx ny)) (f : Fin nf) :
    σ'.sand.Ct c f ≤ M := by
  induction Es generalizing σ with
  | nil => rw [← Except.ok.inj (Option.some.inj h)]; exact hair c f
  | cons E Es ih =>
    unfold Whole.run at h
    match h1 : Whole.step sp C E σ with
    | none => simp [h1] at h
    | some (.error e) => simp [h1] at h
    | some (.ok τ) =>
      simp only [h1] at h
      have hc0 := hc [] E Es σ rfl rfl
      have hE0 := hE E (by simp)
      have hp := C125_step sp hsp C hC hG m hm E (fun hw => (hE0 hw).1) σ τ hσ (fun hw => (hc0 hw).1) h1
      refine ih (fun E' h' => hE E' (by simp [h'])) τ hp (fun before E' after τ' he hb => ?_) ?_ h
      · refine hc (E :: before) E' after τ' (by rw [he]; rfl) ?_
        unfold Whole.run
        simp only [h1]
        exact hb
      · unfold Whole.step at h1
        simp only at h1
        split_ifs at h1 with hw
        · match ht : transport sp C E (waves C E σ) with
          | none => simp [ht] at h1
          | some (.error e) => simp [ht] at h1
          | some (.ok ρ) =>
            simp only [ht] at h1
            rw [← Except.ok.inj (Option.some.inj h1)]
            exact C128_transport sp hsp C hC hG hlat E (hE0 hw).1 (hE0 hw).2 C.setup.bed.nl hC.setup.layers m M hM _ ρ
              (waves_sound C hC m E σ hσ) ht hair ((hc0 hw).2 ρ ht).1 ((hc0 hw).2 ρ ht).2
        · rw [← Except.ok.inj (Option.some.inj h1)]
          exact hair

/-! ### Runs without assumptions on the iteration -/

/-- Bed and solver can cope with concentrations up to `M` in a step of `dt`: a layer of mass `m` holds more than settles of all fractions
together; with several fractions, of which one may run out, the solver may iterate often enough. -/
structure Copes (nx ny : ℕ) (C : Whole.Config nf) (M m dt : ℝ) : Prop where
  thick : nf * (M / C.T * dt) < m
  iter : nf = 1 ∨ cells nx ny * (M / C.T * dt) ≤ C.setup.bed.maxError * C.maxIter

theorem copes_one {C : Whole.Config 1} {M m dt : ℝ} (h : M / C.T * dt < m) : Copes nx ny C M m dt :=
  ⟨by rw [Nat.cast_one, one_mul]; exact h, Or.inl rfl⟩

/-- A thick bed: the solver converges and no cell receives as much as a layer holds. -/
theorem thick_bed_exchange (sp : LinSolve nx ny) (hsp : Exact sp) (C : Whole.Config nf) (hC : ConfigOk C) (hG : GridOk nx ny C)
    (hlat : C.bounds.lat = "circular") (E : Env nx ny nf) (hE : EnvOk C E) (hS : Steadying C E) (m M : ℝ) (hM : 0 ≤ M)
    (hthick : Copes nx ny C M m E.dt) (σ : Whole.State nx ny nf) (hσ : Sound C.setup.bed.nl m σ) (hair : ∀ c f, σ.sand.Ct c f ≤ M)
    (hcap : ∀ ρ, transport sp C E σ = some (.ok ρ) → (∀ c f, (ρ.cap c f).Cu ≤ M ∧ (ρ.cap c f).Cuf ≤ M) ∧ EndsBelow C M ρ) :
    ∀ σ', transport sp C E σ = some (.ok σ') → ∀ A o, matrices C E σ'.speed = .ok A →
      solve (solverIn sp C E σ σ'.cap σ'.speed A) σ.sand.Ct (fun c => (σ.sand.bed c).pickup) (initialWeights C E σ σ'.cap) = .ok o →
      (∀ f, o.conv f = true) ∧ ∀ c, -∑ f, o.pickup c f < m := by
  intro σ' h A o hA ho
  have hP := transport_ok.mp h
  have hs : ∀ c f, Transport.grainspeed C.tr (E.wind c) (E.duran c f) = .ok (σ'.speed c f) := by
    intro c f
    simpa [hC.transport.2] using hP.speed c f
  obtain ⟨hpos, hsame⟩ := transport_cap hC hE (fun c f => (hσ.cap c f).2.2) hP
  have hmass : ∀ c f, 0 ≤ (σ.sand.bed c).mass 0 f := fun c f => hσ.sand.mass c 0 hC.setup.layers f
  have hok : SolveOk (solverIn sp C E σ σ'.cap σ'.speed A) := by
    refine ⟨hC.T, hE.dt, hC.err, fun c f => (hpos c f).1, hmass, fun f w hw => sum_nonneg fun c _ => ?_⟩
    have := lin_nonneg hsp (σ := σ) hC.toNumericsOk hG hE hs hpos hsame hσ.sand.air hA f w hw c
    unfold preventTinyNegatives
    split
    · exact le_rfl
    · exact this
  have hw0 : ∀ c f, 0 ≤ initialWeights C E σ σ'.cap c f := by
    intro c f
    unfold initialWeights
    split
    · exact hC.dist f
    · exact C44_nonneg C.bi _ _ _ hC.bi.1 hC.bi.2 (hσ.sand.air c) (fun f => (hpos c f).1) (hmass c) f
  have hbound := C128_transport sp hsp C hC hG hlat E hE hS C.setup.bed.nl hC.setup.layers m M hM σ σ' hσ h hair (hcap σ' h).1 (hcap σ' h).2
  have hq : ∀ x y : ℝ, x ≤ y → x / C.T * E.dt ≤ y / C.T * E.dt := fun x y hxy =>
    mul_le_mul_of_nonneg_right (div_le_div_of_nonneg_right hxy hC.T.le) hE.dt.le
  have hsup : ∀ k, ∑ c, max 0 ((σ'.cap c k).Cu / C.T * E.dt - (σ.sand.bed c).mass 0 k) ≤ C.setup.bed.maxError * C.maxIter := by
    intro k
    rcases hthick.iter with h1 | h1
    · subst h1
      refine le_trans (sum_nonpos fun c _ => max_le le_rfl (sub_nonpos.mpr ?_)) (mul_nonneg hC.err (Nat.cast_nonneg _))
      have hm0 := hσ.sand.layers c 0 hC.setup.layers
      unfold layerTotal at hm0
      rw [Fin.sum_univ_one] at hm0
      rw [Subsingleton.elim k 0, hm0]
      have := hthick.thick
      rw [Nat.cast_one, one_mul] at this
      exact (hq _ _ ((hcap σ' h).1 c 0).1).trans this.le
    · refine le_trans (sum_le_card_nsmul univ _ (M / C.T * E.dt) fun c _ => max_le ?_ ?_) ?_
      · exact mul_nonneg (div_nonneg hM hC.T.le) hE.dt.le
      · have := hq _ _ ((hcap σ' h).1 c k).1
        have := hmass c k
        linarith
      · rw [card_univ, Fintype.card_fin, nsmul_eq_mul]
        exact h1
  have key := C128_converges _ hok hsup _ _ _ hw0 o ho
  refine ⟨fun f => (key f).1, fun c => ?_⟩
  have h2 : ∀ f, o.Ct c f ≤ M := by
    intro f
    have := hbound c f
    obtain ⟨A', o', hA', ho', hsand, -⟩ := hP.out
    have eA : A' = A := Except.ok.inj (hA'.symm.trans hA)
    subst eA
    have eo : o' = o := Except.ok.inj (ho'.symm.trans ho)
    subst eo
    rw [hsand] at this
    exact this
  have h3 : ∀ f, -o.pickup c f ≤ M / C.T * E.dt := by
    intro f
    have h1 := (key f).2 c
    have h3 := hq _ _ (h2 f)
    change -(o.Ct c f / C.T * E.dt) ≤ o.pickup c f at h1
    linarith
  rw [← sum_neg_distrib]
  refine lt_of_le_of_lt (sum_le_card_nsmul univ _ _ fun f _ => h3 f) ?_
  rw [card_univ, Fintype.card_fin, nsmul_eq_mul]
  exact hthick.thick

/-- **C128** A thick bed: the solver converges in every step if each layer holds more than can be deposited in it, and more than can be picked
up of the only fraction or the solver may iterate often enough. -/
theorem C128_thick_bed (sp : LinSolve nx ny) (hsp : Exact sp) (C : Whole.Config nf) (hC : ConfigOk C) (hG : GridOk nx ny C)
    (hlat : C.bounds.lat = "circular") (E : Env nx ny nf) (hE : EnvOk C E) (hS : Steadying C E) (m M : ℝ) (hM : 0 ≤ M)
    (hthick : Copes nx ny C M m E.dt) (σ : Whole.State nx ny nf) (hσ : Sound C.setup.bed.nl m σ) (hair : ∀ c f, σ.sand.Ct c f ≤ M)
    (hcap : ∀ ρ, transport sp C E σ = some (.ok ρ) → (∀ c f, (ρ.cap c f).Cu ≤ M ∧ (ρ.cap c f).Cuf ≤ M) ∧ EndsBelow C M ρ) :
    Converges sp C m E σ := by
  intro σ' h A o hA ho
  obtain ⟨h1, h2⟩ := thick_bed_exchange sp hsp C hC hG hlat E hE hS m M hM hthick σ hσ hair hcap σ' h A o hA ho
  exact ⟨h1, fun c => (h2 c).ne⟩

/-- **C128** Runs with any number of fractions and steps, without assumptions on the solver's iteration: with onshore wind that does not slow
the grains down, capacities at most `M`, layers that hold more than `nf * (M / T) * dt` and, with several fractions, a sufficient number of
iterations, the state stays sound and no concentration ever exceeds `M`. -/
theorem C128_fractions (sp : LinSolve nx ny) (hsp : Exact sp) (C : Whole.Config nf) (hC : ConfigOk C) (hG : GridOk nx ny C)
    (hlat : C.bounds.lat = "circular") (m M : ℝ) (hm : 0 ≤ m) (hM : 0 ≤ M) (Es : List (Env nx ny nf))
    (hE : ∀ E ∈ Es, Windy E → EnvOk C E ∧ Steadying C E ∧ Copes nx ny C M m E.dt ∧ ∀ τ ρ, transport sp C E τ = some (.ok ρ) →
      (∀ c f, (ρ.cap c f).Cu ≤ M ∧ (ρ.cap c f).Cuf ≤ M) ∧ EndsBelow C M ρ)
    (σ σ' : Whole.State nx ny nf) (hσ : Sound C.setup.bed.nl m σ) (hair : ∀ c f, σ.sand.Ct c f ≤ M)
    (h : Whole.run sp C Es σ = some (.ok σ')) : Sound C.setup.bed.nl m σ' ∧ ∀ c f, σ'.sand.Ct c f ≤ M := by
  induction Es generalizing σ with
  | nil => rw [← Except.ok.inj (Option.some.inj h)]; exact ⟨hσ, hair⟩
  | cons E Es ih =>
    unfold Whole.run at h
    match h1 : Whole.step sp C E σ with
    | none => simp [h1] at h
    | some (.error e) => simp [h1] at h
    | some (.ok τ) =>
      simp only [h1] at h
      have hE0 := hE E (by simp)
      have hw := waves_sound C hC m E σ hσ
      have hconv := fun hx : Windy E => C128_thick_bed sp hsp C hC hG hlat E (hE0 hx).1 (hE0 hx).2.1 m M hM (hE0 hx).2.2.1 _ hw hair
        fun ρ hρ => (hE0 hx).2.2.2 _ ρ hρ
      have hp := C125_step sp hsp C hC hG m hm E (fun hx => (hE0 hx).1) σ τ hσ hconv h1
      refine ih (fun E' h' => hE E' (by simp [h'])) τ hp ?_ h
      unfold Whole.step at h1
      simp only at h1
      split_ifs at h1 with hw'
      · obtain ⟨hE1, hE2, -, hE4⟩ := hE0 hw'
        match ht : transport sp C E (waves C E σ) with
        | none => simp [ht] at h1
        | some (.error e) => simp [ht] at h1
        | some (.ok ρ) =>
          simp only [ht] at h1
          rw [← Except.ok.inj (Option.some.inj h1)]
          exact C128_transport sp hsp C hC hG hlat E hE1 hE2 C.setup.bed.nl hC.setup.layers m M hM _ ρ hw ht hair (hE4 _ ρ ht).1 (hE4 _ ρ ht).2
      · rw [← Except.ok.inj (Option.some.inj h1)]
        exact hair

/-- The capacities of 'bagnold' are at most that of a wind without threshold. -/
theorem bagnold_le {sp : LinSolve nx ny} {C : Whole.Config nf} {E : Env nx ny nf} {σ σ' : Whole.State nx ny nf} (hC : ConfigOk C)
    (hE : EnvOk C E) (hb : C.tr.methodTransport = "bagnold") (h : Parts sp C E σ σ') (c : Fin (cells nx ny)) (f : Fin nf)
    (hu : 0 < (σ'.speed c f).u) :
    (σ'.cap c f).Cu ≤ C.tr.Cb * (C.tr.rhoa / C.tr.g) * (E.wind c).ustar ^ 3 * (1 / (σ'.speed c f).u) * C.tr.accfac ∧
      (σ'.cap c f).Cuf ≤ C.tr.Cb * (C.tr.rhoa / C.tr.g) * (E.wind c).ustar ^ 3 * (1 / (σ'.speed c f).u) * C.tr.accfac ∧
      ((E.wind c).ustar ≠ 0 →
        (σ'.cap c f).Cu0 ≤ C.tr.Cb * (C.tr.rhoa / C.tr.g) * (E.wind c).ustar0 ^ 3 * (1 / (σ'.speed c f).u) * C.tr.accfac) := by
  have hs : Transport.grainspeed C.tr (E.wind c) (E.duran c f) = .ok (σ'.speed c f) := by simpa [hC.transport.2] using h.speed c f
  have hl : lower C.tr.methodTransport = "bagnold" := by rw [hb]; decide
  have hk : 0 < C.tr.Cb * (C.tr.rhoa / C.tr.g) := mul_pos hC.transport.1.Cb (div_pos hC.transport.1.rhoa hC.transport.1.g)
  have ha := hC.transport.1.accfac
  have hu0 := (hE.ustar c).1
  have hiu : 0 < 1 / (σ'.speed c f).u := one_div_pos.mpr hu
  have ht := (step_thresholds hC hE h c).1 f
  have e := h.cap c f
  unfold Transport.equilibrium Transport.formulation at e
  simp only [hC.transport.2, if_true, hs, hl] at e
  have one : ∀ v : ℝ, 0 ≤ v → ∀ t : XR, t.IsThreshold → ∀ q : ℝ,
      XR.max0 (XR.fin (C.tr.Cb * (C.tr.rhoa / C.tr.g)) * XR.cube (XR.fin v - t) * XR.fin (1 / (σ'.speed c f).u)) * XR.fin C.tr.accfac =
        XR.fin q → q ≤ C.tr.Cb * (C.tr.rhoa / C.tr.g) * v ^ 3 * (1 / (σ'.speed c f).u) * C.tr.accfac := by
    intro v hv t hth q hq
    have hright : 0 ≤ C.tr.Cb * (C.tr.rhoa / C.tr.g) * v ^ 3 * (1 / (σ'.speed c f).u) * C.tr.accfac := by positivity
    match t, hth with
    | .fin t, hth =>
      have hth : 0 ≤ t := hth
      simp only [XR.cube, XR.fin_sub, XR.fin_mul, XR.max0_fin] at hq
      rw [← XR.fin.inj hq]
      refine mul_le_mul_of_nonneg_right (max_le (by positivity) ?_) ha.le
      refine mul_le_mul_of_nonneg_right (mul_le_mul_of_nonneg_left ?_ hk.le) hiu.le
      have h1 : (v - t) * (v - t) * (v - t) = (v - t) ^ 3 := by ring
      rw [h1]
      exact (Odd.strictMono_pow (by decide : Odd 3)).monotone (by linarith)
    | .pinf, _ =>
      have h1 : (XR.cube XR.ninf : XR) = XR.ninf := rfl
      rw [XR.fin_sub_pinf, h1, XR.fin_mul_ninf hk, XR.ninf_mul_fin hiu] at hq
      change XR.fin 0 * XR.fin C.tr.accfac = XR.fin q at hq
      rw [XR.fin_mul, zero_mul] at hq
      rw [← XR.fin.inj hq]
      exact hright
  have hright : 0 ≤ C.tr.Cb * (C.tr.rhoa / C.tr.g) * (E.wind c).ustar ^ 3 * (1 / (σ'.speed c f).u) * C.tr.accfac := by positivity
  split_ifs at e with hc
  · have e := Transport.Conc.mk.inj (Except.ok.inj e)
    exact ⟨one _ hu0 _ ht.1 _ e.1, one _ hu0 _ ht.2.1 _ e.2.1, fun hne => one _ ((hE.ustar c).2 hne).le _ ht.2.2 _ e.2.2⟩
  · have e := Transport.Conc.mk.inj (Except.ok.inj e)
    simp only [XR.fin_mul, zero_mul] at e
    rw [← XR.fin.inj e.1, ← XR.fin.inj e.2.1]
    exact ⟨hright, hright, fun hne => absurd ⟨hne, hu.ne'⟩ hc⟩

end Aeolis.Props
