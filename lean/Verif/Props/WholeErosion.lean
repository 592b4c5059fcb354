import Verif.Props.Whole

/-!
C126, C127: where a step does not erode, and a step that does nothing.
-/

set_option linter.unusedSectionVars false

namespace Aeolis.Props

open Finset Aeolis.Spec Aeolis.Sand Aeolis.Solver Aeolis.Whole

variable {nx ny nf : ℕ}

/-! ### C126 -/

/-- Cells without capacity are not eroded, whether or not the solver converges. -/
theorem no_capacity_not_lowered (sp : LinSolve nx ny) (hsp : Exact sp) (C : Whole.Config nf) (hC : NumericsOk C) (hG : GridOk nx ny C)
    (hr : 0 < C.setup.bed.rhog * (1 - C.setup.bed.porosity)) (E : Env nx ny nf) (hE : EnvOk C E) (σ σ' : Whole.State nx ny nf)
    (hm : ∀ c f, 0 ≤ (σ.sand.bed c).mass 0 f) (hair : ∀ c f, 0 ≤ σ.sand.Ct c f)
    (hcap : ∀ c f, 0 ≤ (σ'.cap c f).Cu ∧ 0 ≤ (σ'.cap c f).Cuf ∧ 0 ≤ (σ'.cap c f).Cu0)
    (hsame : ∀ c, (∀ f, (σ'.cap c f).Cuf = (σ'.cap c f).Cu) ∨ ∀ f, (σ'.cap c f).Cu = 0) (h : transport sp C E σ = some (.ok σ'))
    (c : Fin (cells nx ny)) (h0 : ∀ f, (σ'.cap c f).Cu = 0) : (σ.sand.bed c).zb ≤ (σ'.sand.bed c).zb := by
  have hP := transport_ok.mp h
  have hs : ∀ c f, Transport.grainspeed C.tr (E.wind c) (E.duran c f) = .ok (σ'.speed c f) := by
    intro c f
    simpa [hC.transport.2] using hP.speed c f
  obtain ⟨A, o, hA, ho, hsand, -⟩ := hP.out
  have hok : SolveOk (solverIn sp C E σ σ'.cap σ'.speed A) := by
    refine ⟨hC.T, hE.dt, hC.err, fun c f => (hcap c f).1, hm, fun f w hw => sum_nonneg fun c _ => ?_⟩
    have := lin_nonneg hsp (σ := σ) hC hG hE hs hcap hsame hair hA f w hw c
    unfold preventTinyNegatives
    split
    · exact le_rfl
    · exact this
  have hw0 : ∀ c f, 0 ≤ initialWeights C E σ σ'.cap c f := by
    intro c f
    unfold initialWeights
    split
    · exact hC.dist f
    · exact C44_nonneg C.bi _ _ _ hC.bi.1 hC.bi.2 (hair c) (fun f => (hcap c f).1) (hm c) f
  obtain ⟨-, -, hCt, -⟩ := C81_solve _ hok _ _ _ hw0 hC.setup.fractions o ho
  rw [hsand]
  refine update_not_lowered C.setup.bed hr { σ.sand.bed c with pickup := o.pickup c } (sum_nonneg fun f _ => hm c f) fun f => ?_
  obtain ⟨v, hv⟩ := solve_pickup _ _ _ _ o ho c f
  refine hv.trans ?_
  have e : (solverIn sp C E σ σ'.cap σ'.speed A).Cu c f = 0 := h0 f
  rw [e]
  have h1 : v * 0 - o.Ct c f ≤ 0 := by linarith [hCt c f]
  exact mul_nonpos_of_nonpos_of_nonneg (div_nonpos_of_nonpos_of_nonneg h1 hC.T.le) hE.dt.le

open Threshold in
/-- Flooded cells have an infinite threshold, also with salt and a mask. -/
theorem flooded_pinf (c : Threshold.Config nf) (x : Threshold.Cell nf) (s s' : Threshold.Thr nf) (hp : c.processThreshold = true)
    (hf : c.thresholdFile = false) (hg : c.thGrainsize = true) (hm : c.thMoisture = false) (ht : c.processTide = true)
    (hsh : c.thSheltering = false) (hre : 0 < x.maskRe) (hz : x.zb + c.eps < x.zs) (h : Threshold.compute c x s = .ok s') (i : Fin nf) :
    s'.uth i = XR.pinf := by
  obtain ⟨u, hu, -, -, h1, h2⟩ := compute_first c x s s' hp hf hg h
  by_cases hex : c.thNelayer = true ∧ Threshold.exposed x
  · rw [h2 hex]
  rw [h1 hex]
  unfold Threshold.corrections at hu
  simp only [hm, ht, hsh, Bool.false_eq_true, if_false, true_and] at hu
  rw [if_pos (by linarith : x.zb - x.zs < -c.eps)] at hu
  simp only at hu
  have hup : u i = XR.pinf := by
    split_ifs at hu with a b d
    · rw [← Except.ok.inj hu]
      refine XR.pinf_mul_fin ?_
      unfold Threshold.saltFactor
      positivity
    · rw [← Except.ok.inj hu]
  exact ((C83_mask x (u i)).2.2 hup hre)

/-- Why a cell cannot be eroded: water above 6.4 % of the dry mass, flooding (without moisture thresholds), a non-erodible layer at most a
centimetre below the surface, or no shear. -/
inductive Protected (C : Whole.Config nf) (E : Env nx ny nf) (σ : Whole.State nx ny nf) (c : Fin (cells nx ny)) : Prop
  | wet : C.thr.thMoisture = true → 0.064 < waterRatio C.thr (E.moist c) → Protected C E σ c
  | flooded : C.thr.thMoisture = false → C.thr.processTide = true → (σ.sand.bed c).zb + C.thr.eps < (σ.sand.bed c).zs → Protected C E σ c
  | hard (z : ℝ) : C.thr.thNelayer = true → E.zne c = some z → (σ.sand.bed c).zb ≤ z + 0.01 → Protected C E σ c
  | calm : (E.wind c).ustar = 0 → Protected C E σ c

/-- **C126** Whatever the wind, a wet or flooded cell, one at the non-erodible layer and one without shear are not eroded: the exchange
with the air does not lower their bed. -/
theorem C126_not_eroded (sp : LinSolve nx ny) (hsp : Exact sp) (C : Whole.Config nf) (hC : ConfigOk C) (hG : GridOk nx ny C)
    (hr : 0 < C.setup.bed.rhog * (1 - C.setup.bed.porosity)) (M : ℝ) (E : Env nx ny nf) (hE : EnvOk C E) (σ σ' : Whole.State nx ny nf)
    (hσ : Sound C.setup.bed.nl M σ) (h : transport sp C E σ = some (.ok σ')) (c : Fin (cells nx ny)) (hc : Protected C E σ c) :
    (σ.sand.bed c).zb ≤ (σ'.sand.bed c).zb := by
  have hP := transport_ok.mp h
  have ht := step_thresholds hC hE hP
  have key := cap_of_thresholds hC.toNumericsOk hE (fun c f => (hσ.cap c f).2.2) hP fun c => (ht c).1
  obtain ⟨hcap, hsame⟩ := transport_cap hC hE (fun c f => (hσ.cap c f).2.2) hP
  refine no_capacity_not_lowered sp hsp C hC.toNumericsOk hG hr E hE σ σ' (fun c f => hσ.sand.mass c 0 hC.setup.layers f) hσ.sand.air
    hcap hsame h c fun f => (key c f).2.2.mpr ?_
  have hpinf : (σ'.thr c).uth f = XR.pinf → (E.wind c).ustar = 0 ∨ (σ'.speed c f).u = 0 ∨
      NoPickup C.tr.methodTransport (E.wind c).ustar ((σ'.thr c).uth f) := by
    intro h
    rw [h]
    exact Or.inr (Or.inr (noPickup_pinf _ _))
  cases hc with
  | wet h1 h2 =>
    exact hpinf (C56_wet_no_transport C.thr (thrCell E σ c) (σ.thr c) (σ'.thr c) hC.threshold.1 hC.threshold.2.1 h1 hC.threshold.2.2.2
      (hE.mask c).1 h2 (hP.thr c) f).1
  | flooded h1 h2 h3 =>
    exact hpinf (flooded_pinf C.thr (thrCell E σ c) (σ.thr c) (σ'.thr c) hC.threshold.1 hC.threshold.2.1 hC.threshold.2.2.1 h1 h2
      hC.threshold.2.2.2 (hE.mask c).1 h3 (hP.thr c) f)
  | hard z h1 h2 h3 =>
    refine hpinf ?_
    obtain ⟨u, -, -, -, -, h4⟩ := compute_first C.thr (thrCell E σ c) (σ.thr c) (σ'.thr c) hC.threshold.1 hC.threshold.2.1
      hC.threshold.2.2.1 (hP.thr c)
    rw [h4 ⟨h1, z, h2, h3⟩]
  | calm h1 => exact Or.inl h1

/-! ### C127 -/

/-- With neither capacity nor concentrations the solver changes nothing. -/
theorem solve_still {ι : Type*} [Fintype ι] (s : SolveIn ℝ ι nf) (hCu : ∀ c k, s.Cu c k = 0) (hm : ∀ c k, 0 ≤ s.mass c k)
    (hlin : ∀ k w c, s.lin k w c = 0) (Ct0 p0 w0 : ι → Fin nf → ℝ) (o : SolveOut ℝ ι nf) (hr : solve s Ct0 p0 w0 = .ok o) (c : ι)
    (k : Fin nf) : o.Ct c k = 0 ∧ o.pickup c k = 0 := by
  have hconc : ∀ i w, concentrations (s.frac i) (s.lin i) w = fun _ => 0 := by
    intro i w
    unfold concentrations removeNegatives
    have : ∀ c, preventTinyNegatives (s.frac i).maxError 0 (s.lin i w c) = 0 := by
      intro c
      rw [hlin, Aeolis.preventTiny_of_nonneg _ _ le_rfl]
    simp only [this, lt_irrefl, exists_false, if_false]
  have loop : ∀ (i : Fin nf) (n : ℕ) (w : ι → ℝ) (r : FracOut ℝ ι), fractionLoop (s.frac i) (s.lin i) n w = .ok r →
      ∀ c, r.Ct c = 0 ∧ r.pickup c = 0 := by
    intro i n w r h c
    cases n with
    | zero => cases h
    | succ n =>
      unfold fractionLoop at h
      simp only [hconc] at h
      rw [if_neg] at h
      · rw [← Except.ok.inj h]
        refine ⟨rfl, ?_⟩
        have : pickupOf (s.frac i) (fun _ => 0) w c = 0 := by simp [pickupOf, SolveIn.frac, hCu]
        show min (pickupOf (s.frac i) (fun _ => 0) w c) (s.mass c i) = 0
        rw [this, min_eq_left (hm c i)]
      · rintro ⟨c, hc⟩
        have : 0 < w c * s.Cu c i := hc.2
        rw [hCu, mul_zero] at this
        exact lt_irrefl _ this
  have key := foldlM_inv (fractionStep s)
    (fun m o => ∀ k : Fin nf, (k : ℕ) < m → ∀ c, o.Ct c k = 0 ∧ o.pickup c k = 0)
    (List.finRange nf) 0 ⟨Ct0, p0, w0, fun _ => false⟩ o (fun k hk => by omega) ?_ hr
  · simp only [List.length_finRange, Nat.zero_add] at key
    exact key k k.2 c
  · intro m hm b b' hb hf
    simp only [List.length_finRange] at hm
    rw [List.getElem_finRange, Nat.zero_add] at *
    intro k hk c
    unfold fractionStep at hf
    simp only at hf
    match hL : fractionLoop (s.frac (Fin.cast (List.length_finRange) ⟨m, by simpa using hm⟩)) (s.lin (Fin.cast (List.length_finRange) ⟨m, by simpa using hm⟩)) s.maxIter
        (fun c => renormalizeWeights (Fin.cast (List.length_finRange) ⟨m, by simpa using hm⟩ : Fin nf) (b.w c) (Fin.cast (List.length_finRange) ⟨m, by simpa using hm⟩)) with
    | .error e => rw [hL] at hf; cases hf
    | .ok r =>
      rw [hL] at hf
      cases hf
      by_cases hkm : k = ⟨m, hm⟩
      · subst hkm
        simpa using loop _ _ _ _ hL c
      · have hlt : (k : ℕ) < m := by
          rcases Nat.lt_or_ge (k : ℕ) m with h | h
          · exact h
          · exact absurd (Fin.ext (show (k : ℕ) = m by omega)) hkm
        simp only [Fin.cast_mk]
        rw [Function.update_of_ne hkm, Function.update_of_ne hkm]
        exact hb k hlt c

/-- A bed update without exchange changes neither the layers nor the levels. -/
theorem update_still (p : Bed.Params ℝ nf) (s : Bed.Cell ℝ nf) (hm : ∀ k < p.nl, ∀ f, 0 ≤ s.mass k f) (hnl : 0 < p.nl)
    (hp : ∀ f, s.pickup f = 0) : (∀ k < p.nl, ∀ f, (Bed.update p s).mass k f = s.mass k f) ∧ (Bed.update p s).zb = s.zb ∧
      (Bed.update p s).zs = s.zs := by
  have hs : ∑ f, s.pickup f = 0 := sum_eq_zero fun f _ => hp f
  have h0 : 0 ≤ layerTotal s.mass 0 := sum_nonneg fun f _ => hm 0 hnl f
  refine ⟨fun k hk f => ?_, ?_⟩
  · rw [Bed.update_mass, Bed.raw_none p s h0 (by unfold Bed.exchMass; linarith), hp, ite_self, sub_zero,
      Aeolis.preventTiny_of_nonneg _ _ (hm k hk f)]
  · cases hb : p.processBedupdate with
    | false =>
      have := C36_bed_level_off p s hb
      exact ⟨this.1, this.2.1⟩
    | true =>
      have := C36_bed_level_partial p s h0 (fun h => absurd h (by rw [hs]; exact lt_irrefl _)) hb
      refine ⟨by rw [this.1, hs]; simp, ?_⟩
      rw [this.2.1, hs]
      simp

/-- Threshold shear velocity of a grain size, times 0.8 (the impact threshold) for 'dk'. -/
noncomputable def grainThreshold (C : Whole.Config nf) (f : Fin nf) : ℝ :=
  (if lower C.tr.methodTransport = "dk" then 0.8 else 1) *
    (C.thr.Aa * Real.sqrt ((C.thr.rhog - C.thr.rhoa) / C.thr.rhoa * C.thr.g * C.thr.grainSize f))

/-- No sand enters at the ends. -/
structure NoInflow (C : Whole.Config nf) : Prop where
  off : (C.bounds.off = "flux" → C.offshoreFlux = 0) ∧ (C.bounds.off = "constant" → C.constOff = 0)
  on : (C.bounds.on = "flux" → C.onshoreFlux = 0) ∧ (C.bounds.on = "constant" → C.constOn = 0)

theorem noPickup_of_le (C : Whole.Config nf) (hb : PhysicalBed C.thr) (f : Fin nf) (s : ℝ) (hs : s ≤ grainThreshold C f) (th : XR)
    (hth : XR.le (Threshold.grainsizeThreshold C.thr f) th) : NoPickup C.tr.methodTransport s th := by
  have h0 : 0 ≤ (C.thr.rhog - C.thr.rhoa) / C.thr.rhoa * C.thr.g * C.thr.grainSize f :=
    mul_nonneg (mul_nonneg (div_nonneg (by linarith [hb.rhog]) hb.rhoa.le) hb.g.le) (hb.size f)
  unfold Threshold.grainsizeThreshold at hth
  rw [XR.sqrt_fin h0, XR.fin_mul] at hth
  unfold NoPickup
  unfold grainThreshold at hs
  cases th with
  | fin t =>
    have hth : C.thr.Aa * Real.sqrt ((C.thr.rhog - C.thr.rhoa) / C.thr.rhoa * C.thr.g * C.thr.grainSize f) ≤ t := hth
    split_ifs at hs ⊢ with hd
    · right
      rw [XR.fin_mul]
      show s ≤ 0.8 * t
      linarith
    · show s ≤ t
      linarith
  | pinf => exact noPickup_pinf C.tr.methodTransport s
  | ninf => exact hth.elim
  | nan => exact hth.elim

/-- A cell where the shear velocity does not exceed the threshold of a grain size has no capacity for it. -/
theorem caps_below {sp : LinSolve nx ny} {C : Whole.Config nf} (hC : ConfigOk C) (hcs : 0 ≤ C.thr.csalt) {E : Env nx ny nf} (hE : EnvOk C E)
    {σ σ' : Whole.State nx ny nf} (hP : Parts sp C E σ σ') (c : Fin (cells nx ny)) (hsalt : E.salt c ≤ 1) (hmask : 1 ≤ (E.mask c).1) (f : Fin nf)
    (hlow : (E.wind c).ustar ≤ grainThreshold C f) : (σ'.cap c f).Cu = 0 ∧ (σ'.cap c f).Cuf = 0 := by
  have hs : Transport.grainspeed C.tr (E.wind c) (E.duran c f) = .ok (σ'.speed c f) := by simpa [hC.transport.2] using hP.speed c f
  have ht := step_thresholds hC hE hP
  have hle := C85_at_least_grainsize C.thr hC.bed (thrCell E σ c) (σ.thr c) (σ'.thr c) hC.threshold.1 hC.threshold.2.1
    hC.threshold.2.2.1 hC.moist hsalt hcs hC.threshold.2.2.2 hmask (hE.mask c).2 (hP.thr c) f
  have hon := hC.transport.2
  have hcf := hP.cap c f
  unfold Transport.equilibrium at hcf
  simp only [hon, if_true, hs] at hcf
  split at hcf
  · cases hcf
  · rename_i a b d hf
    split_ifs at hcf with hc
    · have hw' : 0 < (E.wind c).ustar := lt_of_le_of_ne (hE.ustar c).1 (Ne.symm hc.1)
      have hu' : 0 < (σ'.speed c f).u := lt_of_le_of_ne (hE.speed c f _ hs) (Ne.symm hc.2)
      obtain ⟨s1, s2⟩ := formulation_spec C.tr hC.transport.1 (C.thr.grainSize f) _ (hC.size f) hu' (E.wind c) hw' _ ((ht c).1 f).1
        ((ht c).1 f).2.1 hf
      have ha := Transport.supplies_zero s1 (noPickup_of_le C hC.bed f _ hlow _ hle.1)
      have hb : b = XR.fin 0 := by
        rcases s2 with s2 | s2
        · exact Transport.supplies_zero s2 (noPickup_of_le C hC.bed f _ hlow _ hle.2)
        · rw [s2, ha]
      have e := Except.ok.inj hcf
      simp only [Transport.Conc.mk.injEq, ha, hb, XR.fin_mul, zero_mul, XR.fin.injEq] at e
      exact ⟨e.1.symm, e.2.1.symm⟩
    · have e := Except.ok.inj hcf
      simp only [Transport.Conc.mk.injEq, XR.fin_mul, zero_mul, XR.fin.injEq] at e
      exact ⟨e.1.symm, e.2.1.symm⟩

/-- Without capacities, concentrations and inflow the solutions of the linear systems are zero. -/
theorem lin_zero {sp : LinSolve nx ny} (hsp : Exact sp) {C : Whole.Config nf} {E : Env nx ny nf} {σ : Whole.State nx ny nf}
    {speed : Fin (cells nx ny) → Fin nf → Transport.Speed} {cap : Fin (cells nx ny) → Fin nf → Capacity}
    {A : Fin nf → Matrix (Fin (cells nx ny)) (Fin (cells nx ny)) ℝ} (hC : NumericsOk C) (hG : GridOk nx ny C) (hE : EnvOk C E)
    (hs : ∀ c f, Transport.grainspeed C.tr (E.wind c) (E.duran c f) = .ok (speed c f)) (hin : NoInflow C)
    (hcap : ∀ c f, (cap c f).Cu = 0 ∧ (cap c f).Cuf = 0) (hair : ∀ c f, σ.sand.Ct c f = 0)
    (hA : matrices C E speed = .ok A) (f : Fin nf) (w : Fin (cells nx ny) → ℝ) (c : Fin (cells nx ny)) :
    (solverIn sp C E σ cap speed A).lin f w c = 0 := by
  obtain ⟨hu, hsol⟩ := lin_solves hsp σ cap hC hG hE hs hA f w
  have hz : ∀ X : Fin (cells nx ny) → ℝ, (∀ c, X c = 0) → ∀ i j, onGrid (nx := nx) (ny := ny) X i j = 0 := by
    intro X hX i j
    unfold onGrid
    split
    · exact hX _
    · rfl
  have hrhs : (fun c : Fin (cells nx ny) => (system C E speed f).rhs C.bounds (values C E σ cap speed f w) ((c : ℕ) / (nx + 1))
      ((c : ℕ) % (nx + 1))) = 0 := by
    funext c
    generalize (c : ℕ) / (nx + 1) = i
    generalize (c : ℕ) % (nx + 1) = j
    have h1 : (values C E σ cap speed f w).Cu i j = 0 := hz (fun c => (cap c f).Cu) (fun c => (hcap c f).1) i j
    have h2 : (values C E σ cap speed f w).Cuf i j = 0 := hz (fun c => (cap c f).Cuf) (fun c => (hcap c f).2) i j
    have h3 : (values C E σ cap speed f w).lCt i j = 0 := hz (fun c => σ.sand.Ct c f) (fun c => hair c f) i j
    have h4 : (system C E speed f).alpha = 1 := hC.scheme.1
    have h5 : (system C E speed f).yIm (values C E σ cap speed f w) i j = 0 := by
      unfold Adv.yIm
      rw [h1, h2]
      ring
    show (system C E speed f).rhs C.bounds (values C E σ cap speed f w) i j = 0
    unfold Adv.rhs
    simp only [h3, h4, h5]
    split_ifs with a1 a2 a3 a4
    · show C.constOn / _ = 0
      rw [hin.on.2 a1.1, zero_div]
    · show C.constOff / _ = 0
      rw [hin.off.2 a2.1, zero_div]
    · show C.onshoreFlux * _ = 0
      rw [hin.on.1 a3.1, zero_mul]
    · show C.offshoreFlux * _ = 0
      rw [hin.off.1 a4.1, zero_mul]
    · ring
    · rfl
  rw [hrhs] at hsol
  have := Matrix.mulVec_injective_iff_isUnit.mpr hu (hsol.trans (Matrix.mulVec_zero _).symm)
  exact congrFun this c

/-- **C127** If the shear velocity nowhere exceeds the threshold of the grain sizes, no sand is in the air and none enters at the ends, a
time step moves no sand: layers, levels and air stay as they are. -/
theorem C127_below_threshold (sp : LinSolve nx ny) (hsp : Exact sp) (C : Whole.Config nf) (hC : ConfigOk C) (hG : GridOk nx ny C)
    (hin : NoInflow C) (hcs : 0 ≤ C.thr.csalt) (E : Env nx ny nf) (hE : EnvOk C E) (hsalt : ∀ c, E.salt c ≤ 1)
    (hmask : ∀ c, 1 ≤ (E.mask c).1) (hlow : ∀ c f, (E.wind c).ustar ≤ grainThreshold C f) (σ σ' : Whole.State nx ny nf)
    (hm : ∀ c, ∀ k < C.setup.bed.nl, ∀ f, 0 ≤ (σ.sand.bed c).mass k f) (hcap : ∀ c f, 0 ≤ (σ.cap c f).Cu0)
    (hair : ∀ c f, σ.sand.Ct c f = 0) (h : transport sp C E σ = some (.ok σ')) (c : Fin (cells nx ny)) :
    (∀ k < C.setup.bed.nl, ∀ f, (σ'.sand.bed c).mass k f = (σ.sand.bed c).mass k f) ∧ (σ'.sand.bed c).zb = (σ.sand.bed c).zb ∧
      (σ'.sand.bed c).zs = (σ.sand.bed c).zs ∧ ∀ f, σ'.sand.Ct c f = 0 := by
  have hP := transport_ok.mp h
  have hs : ∀ c f, Transport.grainspeed C.tr (E.wind c) (E.duran c f) = .ok (σ'.speed c f) := by
    intro c f
    simpa [hC.transport.2] using hP.speed c f
  have hz := fun c f => caps_below hC hcs hE hP c (hsalt c) (hmask c) f (hlow c f)
  obtain ⟨A, o, hA, ho, hsand, -⟩ := hP.out
  have hlin := fun f w c => lin_zero hsp (σ := σ) hC.toNumericsOk hG hE hs hin hz hair hA f w c
  have hst := fun c k => solve_still _ (fun c f => (hz c f).1) (fun c f => hm c 0 hC.setup.layers f) hlin _ _ _ o ho c k
  have hup := update_still C.setup.bed { σ.sand.bed c with pickup := o.pickup c } (hm c) hC.setup.layers fun f => (hst c f).2
  rw [hsand]
  exact ⟨hup.1, hup.2.1, hup.2.2, fun f => (hst c f).1⟩

/-- What does not change in a run that moves no sand. -/
structure Still (nl : ℕ) (σ σ' : Whole.State nx ny nf) : Prop where
  mass : ∀ c, ∀ k < nl, ∀ f, (σ'.sand.bed c).mass k f = (σ.sand.bed c).mass k f
  level : ∀ c, (σ'.sand.bed c).zb = (σ.sand.bed c).zb
  air : ∀ c f, σ'.sand.Ct c f = 0

/-- **C127** The same for a run of any length, with any tides, if there are neither waves that mix the bed nor other changes of its
levels. -/
theorem C127_run (sp : LinSolve nx ny) (hsp : Exact sp) (C : Whole.Config nf) (hC : ConfigOk C) (hG : GridOk nx ny C) (hin : NoInflow C)
    (hcs : 0 ≤ C.thr.csalt) (hmix : C.setup.mixing = false) (Es : List (Env nx ny nf))
    (hEs : ∀ E ∈ Es, (Windy E → EnvOk C E ∧ (∀ c, E.salt c ≤ 1) ∧ (∀ c, 1 ≤ (E.mask c).1) ∧ ∀ c f, (E.wind c).ustar ≤ grainThreshold C f) ∧
      ∀ l c, (E.levels l c).1 = (l c).1) (σ σ' : Whole.State nx ny nf) (hm : ∀ c, ∀ k < C.setup.bed.nl, ∀ f, 0 ≤ (σ.sand.bed c).mass k f)
    (hcap : ∀ c f, 0 ≤ (σ.cap c f).Cu0) (hair : ∀ c f, σ.sand.Ct c f = 0) (h : Whole.run sp C Es σ = some (.ok σ')) :
    Still C.setup.bed.nl σ σ' := by
  induction Es generalizing σ with
  | nil =>
    rw [← Except.ok.inj (Option.some.inj h)]
    exact ⟨fun _ _ _ _ => rfl, fun _ => rfl, hair⟩
  | cons E Es ih =>
    unfold Whole.run at h
    match h1 : Whole.step sp C E σ with
    | none => simp [h1] at h
    | some (.error e) => simp [h1] at h
    | some (.ok τ) =>
      simp only [h1] at h
      obtain ⟨hE0, hlev⟩ := hEs E (by simp)
      have hwm : ∀ c, ((waves C E σ).sand.bed c).mass = (σ.sand.bed c).mass := by
        intro c
        show Bed.mixtoplayer _ C.setup.mixing _ _ _ _ _ = _
        rw [hmix]
        simp [Bed.mixtoplayer]
      have key : Still C.setup.bed.nl σ τ ∧ ∀ c f, 0 ≤ (τ.cap c f).Cu0 := by
        unfold Whole.step at h1
        simp only at h1
        split_ifs at h1 with hw
        · obtain ⟨hE, hsalt, hmask, hlow⟩ := hE0 hw
          match ht : transport sp C E (waves C E σ) with
          | none => simp [ht] at h1
          | some (.error e) => simp [ht] at h1
          | some (.ok ρ) =>
            simp only [ht] at h1
            rw [← Except.ok.inj (Option.some.inj h1)]
            have := C127_below_threshold sp hsp C hC hG hin hcs E hE hsalt hmask hlow (waves C E σ) ρ
              (fun c => by rw [hwm c]; exact hm c) hcap hair ht
            refine ⟨⟨fun c k hk f => ?_, fun c => ?_, fun c => (this c).2.2.2⟩, fun c f => ?_⟩
            · rw [← hwm c]
              exact (this c).1 k hk f
            · show (E.levels _ c).1 = _
              rw [hlev]
              exact (this c).2.1
            · have hz : ∀ c f, 0 ≤ ((waves C E σ).cap c f).Cu0 := hcap
              exact ((transport_cap hC hE hz (transport_ok.mp ht)).1 c f).2.2
        · rw [← Except.ok.inj (Option.some.inj h1)]
          refine ⟨⟨fun c k _ f => ?_, fun c => ?_, hair⟩, hcap⟩
          · show ((waves C E σ).sand.bed c).mass k f = _
            rw [hwm c]
          · show (E.levels _ c).1 = _
            rw [hlev]
            rfl
      have := ih (fun E' h' => hEs E' (by simp [h'])) τ (fun c k hk f => by rw [key.1.mass c k hk f]; exact hm c k hk f) key.2 key.1.air h
      exact ⟨fun c k hk f => (this.mass c k hk f).trans (key.1.mass c k hk f), fun c => (this.level c).trans (key.1.level c), this.air⟩

/-! ### Sand from nothing -/

theorem solve_one {ι : Type*} [Fintype ι] (s : SolveIn ℝ ι 1) (hCu : ∀ c, s.Cu c 0 = 0) (Ct0 p0 w0 : ι → Fin 1 → ℝ)
    (o : SolveOut ℝ ι 1) (hr : solve s Ct0 p0 w0 = .ok o) (c : ι) : o.Ct c 0 = concentrations (s.frac 0) (s.lin 0) (fun _ => 1) c := by
  unfold solve at hr
  have hl : List.finRange 1 = [0] := by decide
  rw [hl] at hr
  simp only [List.foldlM_cons, List.foldlM_nil, bind, Except.bind, pure, Except.pure] at hr
  have hw : ∀ c, renormalizeWeights ((0 : Fin 1) : ℕ) (w0 c) 0 = 1 := by
    intro c
    have := C45_sum_one 0 (w0 c) one_pos
    simpa using this
  unfold fractionStep at hr
  simp only [bind, Except.bind, pure, Except.pure] at hr
  rw [show (fun c => renormalizeWeights ((0 : Fin 1) : ℕ) (w0 c) 0) = fun _ => (1 : ℝ) from funext hw] at hr
  match hL : fractionLoop (s.frac 0) (s.lin 0) s.maxIter (fun _ => 1) with
  | .error e => rw [hL] at hr; simp at hr
  | .ok r =>
    rw [hL] at hr
    simp only at hr
    rw [← Except.ok.inj hr]
    simp only [Function.update_self]
    match hn : s.maxIter with
    | 0 => rw [hn] at hL; cases hL
    | n + 1 =>
      rw [hn] at hL
      unfold fractionLoop at hL
      simp only at hL
      rw [if_neg] at hL
      · rw [← Except.ok.inj hL]
      · rintro ⟨c, hc⟩
        have : 0 < 1 * s.Cu c 0 := hc.2
        rw [hCu, mul_zero] at this
        exact lt_irrefl _ this

/-- With no capacity anywhere but a positive capacity of the single fraction alone in an interior cell, sand appears in the air and no
bed is lowered. -/
theorem sand_from_nothing (sp : LinSolve nx ny) (hsp : Exact sp) (C : Whole.Config 1) (hC : NumericsOk C) (hG : GridOk nx ny C)
    (hr : 0 < C.setup.bed.rhog * (1 - C.setup.bed.porosity)) (E : Env nx ny 1) (hE : EnvOk C E) (σ σ' : Whole.State nx ny 1)
    (hm : ∀ c f, 0 ≤ (σ.sand.bed c).mass 0 f) (hair : ∀ c f, 0 ≤ σ.sand.Ct c f)
    (hcap : ∀ c f, 0 ≤ (σ'.cap c f).Cu ∧ 0 ≤ (σ'.cap c f).Cuf ∧ 0 ≤ (σ'.cap c f).Cu0) (hCu : ∀ c, (σ'.cap c 0).Cu = 0)
    (c : Fin (cells nx ny)) (hin : 1 ≤ (c : ℕ) % (nx + 1) ∧ (c : ℕ) % (nx + 1) < nx) (hCuf : 0 < (σ'.cap c 0).Cuf)
    (h : transport sp C E σ = some (.ok σ')) : (∃ c, 0 < σ'.sand.Ct c 0) ∧ ∀ c, (σ.sand.bed c).zb ≤ (σ'.sand.bed c).zb := by
  have hCu' : ∀ c, ∀ f, (σ'.cap c f).Cu = 0 := fun c f => by
    rw [Subsingleton.elim f 0]
    exact hCu c
  have hsame : ∀ c, (∀ f, (σ'.cap c f).Cuf = (σ'.cap c f).Cu) ∨ ∀ f, (σ'.cap c f).Cu = 0 := fun c => Or.inr (hCu' c)
  refine ⟨?_, fun c => no_capacity_not_lowered sp hsp C hC hG hr E hE σ σ' hm hair hcap hsame h c (hCu' c)⟩
  have hP := transport_ok.mp h
  have hs : ∀ c f, Transport.grainspeed C.tr (E.wind c) (E.duran c f) = .ok (σ'.speed c f) := by
    intro c f
    simpa [hC.transport.2] using hP.speed c f
  obtain ⟨A, o, hA, ho, hsand, -⟩ := hP.out
  have hCt := solve_one _ hCu _ _ _ o ho
  have hpos := lin_nonneg hsp (σ := σ) hC hG hE hs hcap hsame hair hA 0 (fun _ => 1) (fun _ => zero_le_one)
  have hconc : concentrations ((solverIn sp C E σ σ'.cap σ'.speed A).frac 0) ((solverIn sp C E σ σ'.cap σ'.speed A).lin 0) (fun _ => 1) =
      (solverIn sp C E σ σ'.cap σ'.speed A).lin 0 fun _ => 1 := by
    unfold concentrations removeNegatives
    have e : ∀ c, preventTinyNegatives ((solverIn sp C E σ σ'.cap σ'.speed A).frac 0).maxError 0
        ((solverIn sp C E σ σ'.cap σ'.speed A).lin 0 (fun _ => 1) c) = (solverIn sp C E σ σ'.cap σ'.speed A).lin 0 (fun _ => 1) c :=
      fun c => Aeolis.preventTiny_of_nonneg _ _ (hpos c)
    simp only [e]
    rw [if_neg]
    rintro ⟨c, hc⟩
    exact absurd (hpos c) (not_le.mpr hc)
  by_contra hno
  push Not at hno
  have hzero : (solverIn sp C E σ σ'.cap σ'.speed A).lin 0 (fun _ => 1) = 0 := by
    funext c
    refine le_antisymm ?_ (hpos c)
    have := hno c
    rw [hsand] at this
    rw [← hconc]
    exact (hCt c).symm.le.trans this
  have hsol := congrFun (lin_solves hsp σ σ'.cap hC hG hE hs hA 0 (fun _ => 1)).2 c
  rw [hzero, Matrix.mulVec_zero] at hsol
  have hsol := hsol.symm
  simp only [Pi.zero_apply] at hsol
  have hj0 : ¬ (c : ℕ) % (nx + 1) = 0 := by omega
  have hjn : ¬ (c : ℕ) % (nx + 1) = nx := by omega
  have hgrid : ∀ X : Fin (cells nx ny) → ℝ, onGrid (nx := nx) (ny := ny) X ((c : ℕ) / (nx + 1)) ((c : ℕ) % (nx + 1)) = X c := by
    intro X
    unfold onGrid
    have e : (c : ℕ) / (nx + 1) * (nx + 1) + (c : ℕ) % (nx + 1) = c := Nat.div_add_mod' _ _
    rw [dif_pos (by rw [e]; exact c.2)]
    congr 1
    exact Fin.ext e
  unfold Adv.rhs at hsol
  simp only at hsol
  rw [if_neg (by rintro ⟨-, h⟩; exact hjn h), if_neg (by rintro ⟨-, h⟩; exact hj0 h), if_neg (by rintro ⟨-, h⟩; exact hjn h),
    if_neg (by rintro ⟨-, h⟩; exact hj0 h), if_pos (show _ ∧ _ < (system C E σ'.speed 0).nx from hin)] at hsol
  have h4 : (system C E σ'.speed 0).alpha = 1 := hC.scheme.1
  have h1 : (values C E σ σ'.cap σ'.speed 0 fun _ => 1).lCt ((c : ℕ) / (nx + 1)) ((c : ℕ) % (nx + 1)) = σ.sand.Ct c 0 :=
    hgrid fun c => σ.sand.Ct c 0
  have h2 : (values C E σ σ'.cap σ'.speed 0 fun _ => 1).Cuf ((c : ℕ) / (nx + 1)) ((c : ℕ) % (nx + 1)) = (σ'.cap c 0).Cuf :=
    hgrid fun c => (σ'.cap c 0).Cuf
  have h3 : (values C E σ σ'.cap σ'.speed 0 fun _ => 1).Cu ((c : ℕ) / (nx + 1)) ((c : ℕ) % (nx + 1)) = 0 :=
    (hgrid fun c => (σ'.cap c 0).Cu).trans (hCu c)
  have h5 : (values C E σ σ'.cap σ'.speed 0 fun _ => 1).w ((c : ℕ) / (nx + 1)) ((c : ℕ) % (nx + 1)) = 1 := hgrid fun _ => 1
  have h6 : (values C E σ σ'.cap σ'.speed 0 fun _ => 1).S ((c : ℕ) / (nx + 1)) ((c : ℕ) % (nx + 1)) = 0 := by
    refine (hgrid fun c => saturation (σ.sand.Ct c) (σ'.cap c)).trans (sum_eq_zero fun f _ => ?_)
    rw [hCu' c f]
    simp
  have hTi : 0 < (system C E σ'.speed 0).Ti := div_pos hE.dt hC.T
  rw [h1, h4] at hsol
  unfold Adv.yIm at hsol
  rw [h2, h3, h5, h6] at hsol
  have := hair c 0
  have := mul_pos hCuf hTi
  linarith

/-- The fraction capacity of 'bagnold' for a threshold below the shear velocity. -/
theorem bagnold_fraction_pos {sp : LinSolve nx ny} {C : Whole.Config nf} {E : Env nx ny nf} {σ σ' : Whole.State nx ny nf}
    (hC : NumericsOk C) (hb : C.tr.methodTransport = "bagnold") (h : Parts sp C E σ σ') (c : Fin (cells nx ny)) (f : Fin nf) (t : ℝ)
    (ht : (σ'.thr c).uthf f = XR.fin t) (hlt : t < (E.wind c).ustar) (hw : 0 < (E.wind c).ustar) (hu : 0 < (σ'.speed c f).u) :
    0 < (σ'.cap c f).Cuf := by
  have hs : Transport.grainspeed C.tr (E.wind c) (E.duran c f) = .ok (σ'.speed c f) := by simpa [hC.transport.2] using h.speed c f
  have hl : lower C.tr.methodTransport = "bagnold" := by rw [hb]; decide
  have hk : 0 < C.tr.Cb * (C.tr.rhoa / C.tr.g) := mul_pos hC.transport.1.Cb (div_pos hC.transport.1.rhoa hC.transport.1.g)
  have e := h.cap c f
  unfold Transport.equilibrium Transport.formulation at e
  simp only [hC.transport.2, if_true, hs, hl] at e
  rw [if_pos ⟨hw.ne', hu.ne'⟩, ht] at e
  have e := (Transport.Conc.mk.inj (Except.ok.inj e)).2.1
  have hpos : 0 < C.tr.Cb * (C.tr.rhoa / C.tr.g) *
      (((E.wind c).ustar - t) * ((E.wind c).ustar - t) * ((E.wind c).ustar - t)) * (1 / (σ'.speed c f).u) := by
    have : 0 < (E.wind c).ustar - t := by linarith
    positivity
  simp only [Transport.bagnold, XR.cube, XR.fin_sub, XR.fin_mul, XR.max0_fin] at e
  rw [max_eq_right hpos.le] at e
  rw [← XR.fin.inj e]
  exact mul_pos hpos hC.transport.1.accfac

/-- **C127** With thresholds from a file this fails: the file sets the thresholds of the mixture only, those of the fractions stay at their
initial value zero.  Wherever the wind blows below the thresholds in the file, sand appears in the air although no bed is lowered. -/
theorem C127_threshold_file_creates_sand (sp : LinSolve nx ny) (hsp : Exact sp) (C : Whole.Config 1) (hC : NumericsOk C)
    (hG : GridOk nx ny C) (hr : 0 < C.setup.bed.rhog * (1 - C.setup.bed.porosity)) (hb : C.tr.methodTransport = "bagnold")
    (hfile : C.thr.thresholdFile = true) (hne : C.thr.thNelayer = false) (E : Env nx ny 1) (hE : EnvOk C E) (σ σ' : Whole.State nx ny 1)
    (hm : ∀ c f, 0 ≤ (σ.sand.bed c).mass 0 f) (hair : ∀ c f, 0 ≤ σ.sand.Ct c f) (hcap : ∀ c f, 0 ≤ (σ.cap c f).Cu0)
    (file : Fin (cells nx ny) → ℝ) (hthr : ∀ c, σ.thr c = ⟨fun _ => XR.fin (file c), fun _ => XR.fin 0, fun _ => XR.fin 0⟩)
    (hw : ∀ c, 0 < (E.wind c).ustar ∧ (E.wind c).ustar ≤ file c)
    (hu : ∀ c s, Transport.grainspeed C.tr (E.wind c) (E.duran c 0) = .ok s → 0 < s.u) (h : transport sp C E σ = some (.ok σ')) :
    (∃ c, 0 < σ'.sand.Ct c 0) ∧ ∀ c, (σ.sand.bed c).zb ≤ (σ'.sand.bed c).zb := by
  have hP := transport_ok.mp h
  have hthr' : ∀ c, σ'.thr c = ⟨fun _ => XR.fin (file c), fun _ => XR.fin 0, fun _ => XR.fin 0⟩ := by
    intro c
    have := hP.thr c
    unfold Threshold.compute at this
    simp only [hfile, hne, not_true, and_false, if_false, Bool.false_eq_true, false_and] at this
    rw [← Except.ok.inj this]
    exact hthr c
  have hs : ∀ c f, Transport.grainspeed C.tr (E.wind c) (E.duran c f) = .ok (σ'.speed c f) := by
    intro c f
    simpa [hC.transport.2] using hP.speed c f
  have key := cap_of_thresholds hC hE hcap hP fun c f => by
    rw [hthr' c]
    exact ⟨(hw c).1.le.trans (hw c).2, le_refl (0 : ℝ), le_refl (0 : ℝ)⟩
  have hl : lower C.tr.methodTransport = "bagnold" := by rw [hb]; decide
  have hCu : ∀ c, (σ'.cap c 0).Cu = 0 := by
    intro c
    refine (key c 0).2.2.mpr (Or.inr (Or.inr ?_))
    rw [hthr' c]
    unfold NoPickup
    rw [hl, if_neg (by decide)]
    exact (hw c).2
  have hn := hG.columns
  have hlt : 1 < cells nx ny := by
    unfold cells
    nlinarith [Nat.zero_le (ny * (nx + 1))]
  refine sand_from_nothing sp hsp C hC hG hr E hE σ σ' hm hair (fun c f => (key c f).1) hCu ⟨1, hlt⟩ ?_ ?_ h
  · show 1 ≤ 1 % (nx + 1) ∧ 1 % (nx + 1) < nx
    rw [Nat.mod_eq_of_lt (by omega)]
    omega
  · refine bagnold_fraction_pos hC hb hP _ 0 0 (by rw [hthr' _]) (hw _).1 (hw _).1 (hu _ _ (hs _ 0))

end Aeolis.Props
