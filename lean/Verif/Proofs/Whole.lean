import Verif.Model.Whole
import Verif.Props.ThresholdMore
import Verif.Props.SandInvariant

/-! Lemmas on the chain from wind to bed. -/

set_option linter.unusedSectionVars false

namespace Aeolis.Whole

open Aeolis.Sand Aeolis.Solver Aeolis.Props Aeolis.Spec

variable {nx ny nf : ℕ}

theorem collect_ok {ι α : Type*} {f : ι → Except PyErr α} {g : ι → α} : collect f = .ok g ↔ ∀ i, f i = .ok (g i) := by
  unfold collect
  constructor
  · intro h
    split_ifs at h with h1 h2
    intro i
    rw [← Except.ok.inj h]
    exact (h1 i).choose_spec
  · intro h
    have h1 : ∀ i, ∃ a, f i = .ok a := fun i => ⟨g i, h i⟩
    rw [dif_pos h1]
    congr 1
    funext i
    exact Except.ok.inj ((h1 i).choose_spec.symm.trans (h i))

theorem reals_some {ι : Type*} {f : ι → XR} {g : ι → ℝ} : reals f = some g ↔ ∀ i, f i = XR.fin (g i) := by
  unfold reals
  constructor
  · intro h
    split_ifs at h with h1
    intro i
    rw [← Option.some.inj h]
    exact (h1 i).choose_spec
  · intro h
    have h1 : ∀ i, ∃ r, f i = XR.fin r := fun i => ⟨g i, h i⟩
    rw [dif_pos h1]
    congr 1
    funext i
    exact XR.fin.inj ((h1 i).choose_spec.symm.trans (h i))

/-- What a successful transport computation consists of. -/
structure Parts (sp : LinSolve nx ny) (C : Config nf) (E : Env nx ny nf) (σ σ' : State nx ny nf) : Prop where
  thr : ∀ c, Threshold.compute C.thr (thrCell E σ c) (σ.thr c) = .ok (σ'.thr c)
  speed : ∀ c f, if C.tr.processTransport then Transport.grainspeed C.tr (E.wind c) (E.duran c f) = .ok (σ'.speed c f)
    else σ'.speed c f = σ.speed c f
  cap : ∀ c f, Transport.equilibrium C.tr (C.thr.grainSize f) (E.wind c) (E.duran c f)
      ⟨(σ'.thr c).uth f, (σ'.thr c).uthf f, (σ'.thr c).uth0 f⟩
      ⟨XR.fin (σ.cap c f).Cu, XR.fin (σ.cap c f).Cuf, XR.fin (σ.cap c f).Cu0⟩ =
    .ok ⟨XR.fin (σ'.cap c f).Cu, XR.fin (σ'.cap c f).Cuf, XR.fin (σ'.cap c f).Cu0⟩
  out : ∃ A o, matrices C E σ'.speed = .ok A ∧
    solve (solverIn sp C E σ σ'.cap σ'.speed A) σ.sand.Ct (fun c => (σ.sand.bed c).pickup) (initialWeights C E σ σ'.cap) = .ok o ∧
    σ'.sand = { bed := fun c => Bed.update C.setup.bed { σ.sand.bed c with pickup := o.pickup c }, Ct := o.Ct } ∧ σ'.w = o.w

theorem transport_ok {sp : LinSolve nx ny} {C : Config nf} {E : Env nx ny nf} {σ σ' : State nx ny nf} :
    transport sp C E σ = some (.ok σ') ↔ Parts sp C E σ σ' := by
  constructor
  · intro h
    unfold transport at h
    match h1 : thresholds C E σ with
    | .error e => simp [h1] at h
    | .ok thr =>
      match h2 : speeds C E σ with
      | .error e => simp [h1, h2] at h
      | .ok speed =>
        match h3 : capacities C E σ thr with
        | .error e => simp [h1, h2, h3] at h
        | .ok cap =>
          simp only [h1, h2, h3] at h
          match h4 : reals fun x => (cap x).Cu, h5 : reals fun x => (cap x).Cuf, h6 : reals fun x => (cap x).Cu0 with
          | none, _, _ => simp [h4] at h
          | some _, none, _ => simp [h4, h5] at h
          | some _, some _, none => simp [h4, h5, h6] at h
          | some Cu, some Cuf, some Cu0 =>
            simp only [h4, h5, h6] at h
            have h := Option.some.inj h
            unfold exchange at h
            match h7 : matrices C E fun c f => speed (c, f) with
            | .error e => simp [h7] at h
            | .ok A =>
              simp only [h7] at h
              match h8 : solve (solverIn sp C E σ (fun c f => ⟨Cu (c, f), Cuf (c, f), Cu0 (c, f)⟩) (fun c f => speed (c, f)) A)
                  σ.sand.Ct (fun c => (σ.sand.bed c).pickup)
                  (initialWeights C E σ (fun c f => ⟨Cu (c, f), Cuf (c, f), Cu0 (c, f)⟩)) with
              | .error e => simp [h8] at h
              | .ok o =>
                simp only [h8] at h
                obtain rfl := Except.ok.inj h
                refine ⟨collect_ok.mp h1, ?_, ?_, A, o, h7, h8, rfl, rfl⟩
                · intro c f
                  unfold speeds at h2
                  split_ifs at h2 ⊢
                  · exact collect_ok.mp h2 (c, f)
                  · rw [← Except.ok.inj h2]
                · intro c f
                  have := collect_ok.mp h3 (c, f)
                  simp only at this
                  rw [this]
                  have e4 := reals_some.mp h4 (c, f)
                  have e5 := reals_some.mp h5 (c, f)
                  have e6 := reals_some.mp h6 (c, f)
                  simp only [← e4, ← e5, ← e6]
  · rintro ⟨h1, h2, h3, A, o, h7, h8, h9, h10⟩
    have e1 : thresholds C E σ = .ok σ'.thr := collect_ok.mpr h1
    have e2 : speeds C E σ = .ok fun x => σ'.speed x.1 x.2 := by
      unfold speeds
      split_ifs with hp
      · exact collect_ok.mpr fun x => by have := h2 x.1 x.2; simpa [hp] using this
      · congr 1
        funext x
        have := h2 x.1 x.2
        simp only [hp] at this
        simpa using this.symm
    have e3 : capacities C E σ σ'.thr =
        .ok fun x => ⟨XR.fin (σ'.cap x.1 x.2).Cu, XR.fin (σ'.cap x.1 x.2).Cuf, XR.fin (σ'.cap x.1 x.2).Cu0⟩ :=
      collect_ok.mpr fun x => h3 x.1 x.2
    unfold transport
    simp only [e1, e2, e3]
    rw [show reals (fun x : Fin (cells nx ny) × Fin nf => XR.fin (σ'.cap x.1 x.2).Cu) = some fun x => (σ'.cap x.1 x.2).Cu from
        reals_some.mpr fun _ => rfl,
      show reals (fun x : Fin (cells nx ny) × Fin nf => XR.fin (σ'.cap x.1 x.2).Cuf) = some fun x => (σ'.cap x.1 x.2).Cuf from
        reals_some.mpr fun _ => rfl,
      show reals (fun x : Fin (cells nx ny) × Fin nf => XR.fin (σ'.cap x.1 x.2).Cu0) = some fun x => (σ'.cap x.1 x.2).Cu0 from
        reals_some.mpr fun _ => rfl]
    dsimp only
    unfold exchange
    rw [h7]
    dsimp only
    rw [h8]
    dsimp only
    rw [← h9, ← h10]

/-! ### Thresholds and capacities -/

open Aeolis.Threshold XR in
/-- Thresholds of a step: zero or more, possibly infinite; that of the fractions alone differs only where nothing can be eroded. -/
theorem compute_thresholds (c : Threshold.Config nf) (hc : PhysicalBed c) (x : Cell nf) (s s' : Thr nf) (hp : c.processThreshold = true)
    (hf : c.thresholdFile = false) (hg : c.thGrainsize = true) (hm : c.thMoisture = true → lower c.methodMoistThreshold ∈ incrementalMoist)
    (hsh : c.thSheltering = false) (hre : 0 < x.maskRe) (him : 0 ≤ x.maskIm) (h : compute c x s = .ok s') :
    (∀ i, (s'.uth i).IsThreshold ∧ (s'.uthf i).IsThreshold ∧ (s'.uth0 i).IsThreshold) ∧
      ((∀ i, s'.uthf i = s'.uth i) ∨ ∀ i, s'.uth i = pinf) := by
  obtain ⟨u, hu, hfr, h0', h1, h2⟩ := compute_first c x s s' hp hf hg h
  have h0 := grainsize_isThreshold c hc
  have hcor : ∀ i, (u i).IsThreshold := by
    unfold corrections at hu
    simp only [hsh, Bool.false_eq_true, if_false] at hu
    split at hu
    · exact absurd hu (by simp)
    · rename_i v hv
      have hwet : ∀ i, (v i).IsThreshold := by
        intro i
        split_ifs at hv with a b
        · cases hmo : moisture c x.moist with
          | error e => rw [hmo] at hv; exact absurd hv (by simp)
          | ok f =>
            rw [hmo] at hv
            simp only [Except.ok.injEq] at hv
            rw [← hv]
            exact isThreshold_of_le (C55_raises c hc (hm a) x.moist f hmo _ (h0 i)) (h0 i)
        · simp only [Except.ok.injEq] at hv
          rw [← hv]; trivial
        · simp only [Except.ok.injEq] at hv
          rw [← hv]; exact h0 i
      intro i
      split_ifs at hu with a b d
      · simp only [Except.ok.injEq] at hu
        rw [← hu]
        refine isThreshold_mul (hwet i) ?_
        unfold saltFactor
        positivity
      · simp only [Except.ok.injEq] at hu
        rw [← hu]; exact hwet i
  have hmask : ∀ i, (masked x (u i)).IsThreshold := by
    intro i
    have := isThreshold_mul (hcor i) hre
    exact isThreshold_of_le (le_add_term this him) this
  by_cases hex : c.thNelayer = true ∧ exposed x
  · refine ⟨fun i => ⟨by rw [h2 hex]; trivial, by rw [hfr]; exact hmask i, by rw [h0']; exact h0 i⟩, Or.inr fun i => by rw [h2 hex]⟩
  · refine ⟨fun i => ⟨by rw [h1 hex]; exact hmask i, by rw [hfr]; exact hmask i, by rw [h0']; exact h0 i⟩, Or.inl fun i => ?_⟩
    rw [h1 hex, hfr]

open Aeolis.Transport XR in
/-- The capacity used at the ends of the grid is finite and not negative. -/
theorem formulation_ends (p : Params) (hp : Spec.Physical p) (d u : ℝ) (hd : 0 < d) (hu : 0 < u) (w : Wind) (hw : 0 < w.ustar)
    (hw0 : 0 < w.ustar0) (th : Thresholds) (h1 : th.uth.IsThreshold) (h2 : th.uth0.IsThreshold) {a b c : XR}
    (h : formulation p d u w th = .ok (a, b, some c)) : ∃ P, Supplies c P := by
  have hk : 0 < p.rhoa / p.g := div_pos hp.rhoa hp.g
  unfold formulation at h
  simp only at h
  split_ifs at h with m1 m2 m2' m3 m4 m5 m6 m7
  all_goals simp only [Except.ok.injEq, Prod.mk.injEq, Option.some.injEq, reduceCtorEq, and_false] at h
  · exact ⟨_, h.2.2 ▸ bagnold_supplies _ _ _ _ (mul_pos hp.Cb hk) hu h2⟩
  · have hc : 0 < p.Cb * Real.sqrt (d / 0.00025) * (p.rhoa / p.g) :=
      mul_pos (mul_pos hp.Cb (Real.sqrt_pos.mpr (by positivity))) hk
    exact ⟨_, h.2.2 ▸ bagnold_supplies _ _ _ _ hc hu h1⟩
  · exact ⟨_, h.2.2 ▸ dk_supplies _ _ _ _ (mul_pos hp.Cdk hk) hu hw0 h2⟩
  · have hc : 0 < 2 * 0.35 * (p.rhoa / p.g) := by positivity
    exact ⟨_, h.2.2 ▸ sauermann_supplies _ _ _ hc hw0 h2⟩
  · exact ⟨_, h.2.2 ▸ vanRijn_supplies _ _ _ _ (mul_pos hp.Cb hk) hu hw0 h2⟩

open Aeolis.Transport XR in
/-- All capacities of a cell are finite and not negative. -/
theorem equilibrium_real (p : Params) (hp : Spec.Physical p) (hon : p.processTransport = true) (d : ℝ) (hd : 0 < d) (w : Wind)
    (hw : 0 ≤ w.ustar) (hw0 : w.ustar ≠ 0 → 0 < w.ustar0) (duran s : Speed) (hs : grainspeed p w duran = .ok s) (hu : 0 ≤ s.u)
    (th : Thresholds) (h1 : th.uth.IsThreshold) (h2 : th.uthf.IsThreshold) (h3 : th.uth0.IsThreshold) (old r : Conc)
    (ho : ∃ x : ℝ, old.Cu0 = fin x ∧ 0 ≤ x) (hr : Transport.equilibrium p d w duran th old = .ok r) :
    ∃ x y z : ℝ, r = ⟨fin x, fin y, fin z⟩ ∧ 0 ≤ x ∧ 0 ≤ y ∧ 0 ≤ z ∧ (th.uthf = th.uth → y = x) ∧
      (x = 0 ↔ w.ustar = 0 ∨ s.u = 0 ∨ NoPickup p.methodTransport w.ustar th.uth) := by
  obtain ⟨x, hx, hx0, hxz⟩ := C52_capacity p hp hon d hd w hw duran s hs hu th h1 old r hr
  obtain ⟨y, hy, hy0, -, hyx⟩ := C52_fraction_capacity p hp hon d hd w hw duran s hs hu th h1 h2 old r hr
  have hz : ∃ z : ℝ, r.Cu0 = fin z ∧ 0 ≤ z := by
    obtain ⟨o, ho, ho0⟩ := ho
    unfold Transport.equilibrium at hr
    simp only [hon, if_true, hs] at hr
    split at hr
    · exact absurd hr (by simp)
    · rename_i a b c hf
      split_ifs at hr with hc
      · have hw' : 0 < w.ustar := lt_of_le_of_ne hw (Ne.symm hc.1)
        have hu' : 0 < s.u := lt_of_le_of_ne hu (Ne.symm hc.2)
        rw [← Except.ok.inj hr]
        cases c with
        | none => exact ⟨o * p.accfac, by simp [ho], mul_nonneg ho0 hp.accfac.le⟩
        | some c =>
          obtain ⟨P, hP⟩ := formulation_ends p hp d s.u hd hu' w hw' (hw0 hc.1) th h1 h3 hf
          obtain ⟨v, hv0, hv, -⟩ := supplies_scale hP hp.accfac
          exact ⟨v, by simp [← hv], hv0⟩
      · rw [← Except.ok.inj hr]
        exact ⟨o * p.accfac, by simp [ho], mul_nonneg ho0 hp.accfac.le⟩
  obtain ⟨z, hz, hz0⟩ := hz
  refine ⟨x, y, z, ?_, hx0, hy0, hz0, fun h => ?_, hxz⟩
  · cases r
    simp only at hx hy hz
    rw [hx, hy, hz]
  · have := hyx h
    rw [hx, hy] at this
    exact XR.fin.inj this

end Aeolis.Whole
