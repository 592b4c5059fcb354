import Verif.Props.Program
import Verif.Props.FullBudget
import Verif.Props.FullRange

/-!
**C146** (continued) Complete runs of the program on a transect that return, whatever is switched on: with groundwater too, with restart files and with
any start time.  Theorems on the outcome of a run without condition that it ends.
-/

namespace Aeolis.Props

open Finset Aeolis.Spec Aeolis.Sand Aeolis.Whole Aeolis.Full Aeolis.Program

set_option linter.unusedSectionVars false

noncomputable section

open Classical

variable {nx nf : ℕ}

theorem readied_series {C C' : Full.Config nx nf} {F : Files nx nf} (hR : Readied C F C') (hF : SeriesOk C) : SeriesOk C' := by
  have e := hR.same
  have hw := hR.wind
  refine ⟨fun file h => ?_, ?_, ?_, ?_, ?_, ?_, ?_⟩
  · rw [hw] at h
    match hf : C.wind.file with
    | none => simp [hf] at h
    | some raw =>
      rw [hf] at h
      obtain rfl := Option.some.inj h
      obtain ⟨h1, h2⟩ := hF.wind raw hf
      refine ⟨by simpa using h1, ?_⟩
      rw [List.pairwise_map]
      exact h2
  all_goals rw [e]
  · exact hF.tide
  · exact hF.wave
  · exact hF.moist
  · exact hF.salt
  · exact hF.meteo
  · exact hF.dune

theorem path_calls (sp : LinSolve nx 0) (C : Full.Config nx nf) (hC : Usable C) (rand : ℕ → ℕ → ℝ) (tstop : ℝ) :
    ∀ (ws : List (Full.State nx nf × ℕ)) (k : ℕ) (σ : Full.State nx nf) (v : Full.State nx nf × ℕ),
      Path (engine sp C rand) tstop (σ, k) ws v →
      v.2 = k + ws.length ∧ Full.run sp C (calls rand k ws.length) σ = some (.ok v.1) ∧
        (ws ++ [v]).map (fun w => w.1.clock.t) = (List.range (ws.length + 1)).map (fun i : ℕ => σ.clock.t + i * (C.ts.dt * C.accfac)) ∧
        (∀ w ∈ ws, w.1.clock.t ≤ tstop) ∧ tstop < v.1.clock.t := by
  intro ws
  induction ws with
  | nil =>
    intro k σ v hp
    cases hp with
    | stop _ hlt => exact ⟨rfl, rfl, by simp, by simp, hlt⟩
  | cons w ws ih =>
    intro k σ v hp
    cases hp with
    | step _ w' _ _ hle hup hp =>
      have hup : (match Full.update sp C (rand k) (-1) σ with
        | none => Except.error PyErr.valueError
        | some (.error e) => .error e
        | some (.ok (σ, b)) => .ok (σ, if b then k + 1 else k)) = Except.ok w' := hup
      match hu : Full.update sp C (rand k) (-1) σ with
      | none => simp [hu] at hup
      | some (.error e) => simp [hu] at hup
      | some (.ok (ρ, b)) =>
        obtain ⟨hb, -, hbt, -⟩ := C133_step sp C hC (rand k) (-1) σ ρ b hu
        have hb' : b = true := by
          cases b with
          | true => rfl
          | false => exact absurd (hb.mp rfl) (lt_irrefl _)
        subst hb'
        obtain ⟨E, hE, -, ht, -⟩ := hbt rfl
        rw [hE.time.2, if_neg (by norm_num)] at ht
        simp only [hu, if_true, Except.ok.injEq] at hup
        subst hup
        obtain ⟨h1, h2, h3, h4, h5⟩ := ih (k + 1) ρ v hp
        refine ⟨by rw [h1, List.length_cons]; omega, ?_, ?_, ?_, h5⟩
        · rw [List.length_cons, calls_succ]
          unfold Full.run
          simp only [hu]
          exact h2
        · rw [List.cons_append, List.map_cons, h3, List.length_cons, List.range_succ_eq_map (n := ws.length + 1), List.map_cons, List.map_map]
          simp only [Nat.cast_zero, zero_mul, add_zero]
          congr 1
          refine List.map_congr_left fun i _ => ?_
          simp only [Function.comp_apply]
          rw [ht]
          push_cast
          ring
        · intro x hx
          rcases List.mem_cons.mp hx with rfl | hx
          · exact hle
          · exact h4 x hx

/-- **C146** Every run of the program that returns, with groundwater or without: the files were read, the number of time steps is the one that first passes the
stop time, the states are those of as many calls of `update`, the output is written at the times of the output rule, and the last state is that after the
last call. -/
theorem C146_returned (sp : LinSolve nx 0) (C : Full.Config nx nf) (F : Files nx nf) (hS : Startable C F) (hacc : 0 < C.accfac) (c : Runner.Cfg ℝ)
    (rand : ℕ → ℕ → ℝ) (solves : Full.State nx nf × ℕ → ℕ) (restart : Runner.RestartArg) (walls : List (ℝ × ℝ))
    (s : Runner.St ℝ (Full.State nx nf × ℕ)) (r : ℝ × ℝ) (h : program sp C F rand solves c restart walls = .ok (some (s, r))) :
    c.tstart ≤ c.tstop ∧ s.w.2 = stepsOf C c ∧
    ∃ C' σ, initialise C F c.tstart = .ok (C', σ) ∧ Initial C F c.tstart σ ∧ Readied C F C' ∧
      Full.run sp C' (calls rand 0 (stepsOf C c)) σ = some (.ok s.w.1) ∧
      s.w.1.clock.t = c.tstart + stepsOf C c * (C.ts.dt * C.accfac) ∧
      s.records = (Writer.run c.outputTimes ⟨0, []⟩
        ((List.range (stepsOf C c + 1)).map fun k : ℕ => c.tstart + k * (C.ts.dt * C.accfac))).records ∧
      r.2 * stepsOf C c = c.tstop := by
  obtain ⟨C', σ, hi, hI, hR⟩ := C146_initialise C F hS c.tstart
  have hts : C'.ts = C.ts := by rw [hR.same]
  have hac : C'.accfac = C.accfac := by rw [hR.same]
  have hh : 0 < C.ts.dt * C.accfac := mul_pos hS.step.2.1 hacc
  unfold program at h
  simp only [hi] at h
  obtain ⟨ws, hp, -, hrec, -, hr2, hne⟩ := C103_completed c _ solves restart walls _ s r h
  obtain ⟨h1, h2, h3, h4, h5⟩ := path_calls sp C' hR.usable rand c.tstop ws 0 σ s.w hp
  rw [zero_add] at h1
  rw [hts, hac, hI.clock] at h3
  have hne' : s.w.2 ≠ 0 := by
    intro h0
    exact hne (by show (s.w.2 : ℕ) = 0; exact h0)
  have hlast : s.w.1.clock.t = c.tstart + ws.length * (C.ts.dt * C.accfac) := by
    have := congrArg List.getLast? h3
    rw [List.map_append, List.map_singleton, List.getLast?_append_of_ne_nil _ (by simp), List.range_succ, List.map_append,
      List.map_singleton, List.getLast?_append_of_ne_nil _ (by simp)] at this
    simpa using this
  have hin : ∀ i < ws.length, c.tstart + i * (C.ts.dt * C.accfac) ≤ c.tstop := by
    intro i hi
    have hx := congrArg (fun l : List ℝ => l[i]?) h3
    simp only [List.map_append, List.getElem?_append_left (show i < (ws.map fun w => w.1.clock.t).length by simpa using hi), List.getElem?_map,
      List.getElem?_range (show i < ws.length + 1 by omega), List.getElem?_eq_getElem hi, Option.map_some] at hx
    rw [← Option.some.inj hx]
    exact h4 _ (List.getElem_mem hi)
  have hpos : 0 < ws.length := by omega
  have hle : c.tstart ≤ c.tstop := by simpa using hin 0 hpos
  have hn : ws.length = stepsOf C c := by
    unfold stepsOf
    obtain ⟨m, hm⟩ : ∃ m, ws.length = m + 1 := ⟨ws.length - 1, by omega⟩
    rw [hm]
    congr 1
    symm
    rw [Nat.floor_eq_iff (div_nonneg (by linarith) hh.le), le_div_iff₀ hh, div_lt_iff₀ hh]
    have a := hin m (by omega)
    rw [hlast, hm] at h5
    push_cast at h5
    exact ⟨by linarith, by linarith⟩
  rw [hn] at h1 h2 hlast
  refine ⟨hle, h1, C', σ, hi, hI, hR, h2, hlast, ?_, ?_⟩
  · rw [hrec, ← hn]
    exact congrArg (fun l => (Writer.run c.outputTimes ⟨0, []⟩ l).records) h3
  · rw [← h1]
    exact hr2

/-- **C146** A run that returns in a breeze, with groundwater or without: the bed in the last state is that of the bed file, the layers are those of the start,
the air is clear. -/
theorem C146_breeze_any (sp : LinSolve nx 0) (hsp : Exact sp) (C : Full.Config nx nf) (F : Files nx nf) (hS : Startable C F) (hF : SeriesOk C)
    (hacc : 0 < C.accfac) (c : Runner.Cfg ℝ) (rand : ℕ → ℕ → ℝ) (solves : Full.State nx nf × ℕ → ℕ) (restart : Runner.RestartArg)
    (walls : List (ℝ × ℝ)) (s : Runner.St ℝ (Full.State nx nf × ℕ)) (r : ℝ × ℝ)
    (h : program sp C F rand solves c restart walls = .ok (some (s, r)))
    (hin : NoInflow C.core) (hcs : 0 ≤ C.core.thr.csalt) (hmix : C.core.setup.mixing = false) (hlev : NoOtherChanges C) (hflat : Sheltering C)
    (hmask : ∀ j, 1 ≤ (C.thresholdMask j).1) (umax z0 : ℝ) (hu : WindBelow C umax) (hz : RoughnessIs C z0)
    (hlow : ∀ f, max 0.01 (umax * |C.wind.kappa / Real.log (C.wind.z / z0)|) ≤ grainThreshold C.core f) :
    ∃ σ, Initial C F c.tstart σ ∧ (∀ c, (s.w.1.core.sand.bed c).zb = F.bed c) ∧
      (∀ c, ∀ k < C.core.setup.bed.nl, (s.w.1.core.sand.bed c).mass k = (σ.core.sand.bed c).mass k) ∧ (∀ c f, s.w.1.core.sand.Ct c f = 0) := by
  obtain ⟨-, -, C', σ, hi, hI, hR, hrun, -⟩ := C146_returned sp C F hS hacc c rand solves restart walls s r h
  have e := hR.same
  have hk : C'.wind.kappa = C.wind.kappa ∧ C'.wind.z = C.wind.z := by rw [e]; exact ⟨rfl, rfl⟩
  have hnl : C'.core.setup.bed.nl = C.core.setup.bed.nl := by rw [e]
  have hstill := C134_breeze_any sp hsp C' hR.usable (readied_series hR hF)
    (by rw [e]; exact ⟨hin.off, hin.on⟩) (by rw [e]; exact hcs) (by rw [e]; exact hmix) (by rw [e]; exact hlev)
    (by rw [e]; exact ⟨hflat.shear, hflat.plants⟩) (by rw [e]; exact hmask) umax z0 (readied_below hR hu) (readied_rough hR hz)
    (fun f => by rw [hk.1, hk.2]; exact (hlow f).trans (le_of_eq (by rw [e]; rfl)))
    (calls rand 0 (stepsOf C c)) σ s.w.1 (by rw [hnl]; exact hI.sound.sand.mass) (fun c f => (hI.sound.cap c f).2.2) hI.air
    (fun c => by rw [(hI.dry c).2]; exact zero_le_one) (initial_plants hI) hrun
  rw [hnl] at hstill
  exact ⟨σ, hI, fun c => (hstill.level c).trans (hI.bed c), fun c k hk => funext (hstill.mass c k hk), hstill.air⟩

/-- **C146** A run that returns in a storm, with groundwater or without, with any number of fractions, fences and vegetation on a bed that does not change the shear: every
layer has the mass it had at the start, no amount of sand is negative, and nowhere is there more sand in the air than Bagnold's formula gives for the
strongest wind in the file. -/
theorem C146_storm_any (sp : LinSolve nx 0) (hsp : Exact sp) (C : Full.Config nx nf) (F : Files nx nf) (hS : Startable C F) (hF : SeriesOk C)
    (hacc : 0 < C.accfac) (c : Runner.Cfg ℝ) (rand : ℕ → ℕ → ℝ) (solves : Full.State nx nf × ℕ → ℕ) (restart : Runner.RestartArg)
    (walls : List (ℝ × ℝ)) (s : Runner.St ℝ (Full.State nx nf × ℕ)) (r : ℝ × ℝ)
    (h : program sp C F rand solves c restart walls = .ok (some (s, r)))
    (hlat : C.core.bounds.lat = "circular") (hin : SmallInflow C.core) (hflat : CalmShelter C) (hb : C.core.tr.methodTransport = "bagnold")
    (umax z0 : ℝ) (hu : WindBelow C umax) (hz : RoughnessIs C z0) (hz0 : 0 < z0 ∧ z0 < C.wind.z)
    (hthick : Copes nx 0 C.core (bagnoldBound C z0 umax) (layerMass C) C.ts.dt) :
    (∀ c, ∀ k < C.core.setup.bed.nl, ∑ f, (s.w.1.core.sand.bed c).mass k f = layerMass C ∧ ∀ f, 0 ≤ (s.w.1.core.sand.bed c).mass k f) ∧
      (∀ c f, 0 ≤ s.w.1.core.sand.Ct c f ∧ s.w.1.core.sand.Ct c f ≤ bagnoldBound C z0 umax) := by
  obtain ⟨-, -, C', σ, hi, hI, hR, hrun, -⟩ := C146_returned sp C F hS hacc c rand solves restart walls s r h
  have e := hR.same
  have hnl : C'.core.setup.bed.nl = C.core.setup.bed.nl := by rw [e]
  have hbd := readied_bound hR z0 umax
  have hM : 0 ≤ bagnoldBound C' z0 umax := bagnoldBound_nonneg C' hR.usable umax z0 ⟨hz0.1, by rw [e]; exact hz0.2⟩
  obtain ⟨hsound, hair⟩ := C134_storm_any sp hsp C' hR.usable (readied_series hR hF) (by rw [e]; exact hlat)
    (by rw [e]; exact ⟨hin.off, hin.on⟩) (by rw [e]; exact ⟨⟨hflat.shear, hflat.plants⟩, hflat.grains, hflat.csalt, hflat.mask⟩)
    (by rw [e]; exact hb) umax z0 (readied_below hR hu) (readied_rough hR hz) ⟨hz0.1, by rw [e]; exact hz0.2⟩ (layerMass C)
    (layerMass_nonneg hS) (calls rand 0 (stepsOf C c)) (fun x hx => by
      obtain ⟨i, -, rfl⟩ := List.mem_map.mp hx
      rw [if_neg (by norm_num), hbd]
      exact ⟨lt_of_eq_of_lt (by rw [e]) hthick.thick, hthick.iter.imp_right fun h => le_of_eq_of_le (by rw [e]) (h.trans_eq (by rw [e]))⟩)
    σ s.w.1 (by rw [hnl]; exact hI.sound) (fun c f => by rw [hI.air]; exact hM) (fun c => by rw [(hI.dry c).2]; exact zero_le_one) (initial_plants hI)
    hrun
  rw [hnl] at hsound
  refine ⟨fun c k hk => ?_, fun c f => ⟨hsound.sand.air c f, (hair c f).trans hbd.le⟩⟩
  exact ⟨hsound.sand.layers c k hk, fun f => hsound.sand.mass c k hk f⟩

/-- **C146** Sand is not created in a run that returns on cells of equal length, with groundwater or without: if none is supplied at the ends, the sand in bed and
air at the end is at most that of the bed file, up to the tolerance of the solver in every step. -/
theorem C146_not_created_any (sp : LinSolve nx 0) (hsp : Exact sp) (C : Full.Config nx nf) (F : Files nx nf) (hS : Startable C F) (hF : SeriesOk C)
    (hacc : 0 < C.accfac) (c : Runner.Cfg ℝ) (rand : ℕ → ℕ → ℝ) (solves : Full.State nx nf × ℕ → ℕ) (restart : Runner.RestartArg)
    (walls : List (ℝ × ℝ)) (s : Runner.St ℝ (Full.State nx nf × ℕ)) (r : ℝ × ℝ)
    (h : program sp C F rand solves c restart walls = .ok (some (s, r)))
    (dx : ℝ) (hdx : ∀ j < nx, C.x (j + 1) - C.x j = dx)
    (hlat : C.core.bounds.lat = "circular") (hne : C.core.thr.thNelayer = false) (hup : C.core.setup.bed.processBedupdate = true)
    (hrho : 0 < C.core.setup.bed.rhog * (1 - C.core.setup.bed.porosity))
    (hin : NoInflow C.core) (hflat : CalmShelter C) (hava : OnlyAvalanches C) (hb : C.core.tr.methodTransport = "bagnold")
    (umax z0 : ℝ) (hu : WindBelow C umax) (hz : RoughnessIs C z0) (hz0 : 0 < z0 ∧ z0 < C.wind.z)
    (hthick : Copes nx 0 C.core (bagnoldBound C z0 umax) (layerMass C) C.ts.dt) :
    sandOnTransect C dx (fun c => (s.w.1.core.sand.bed c).zb) (fun c => ∑ f, s.w.1.core.sand.Ct c f) ≤
      sandOnTransect C dx (fun c => F.bed c) (fun _ => 0) + stepsOf C c * (C.core.setup.bed.maxError * nf * ((nx - 1) * dx)) := by
  obtain ⟨-, -, C', σ, hi, hI, hR, hrun, -⟩ := C146_returned sp C F hS hacc c rand solves restart walls s r h
  have e := hR.same
  have h2 := hS.columns
  have hnl : C'.core.setup.bed.nl = C.core.setup.bed.nl := by rw [e]
  have hbed : C'.core.setup.bed = C.core.setup.bed := by rw [e]
  have hbd := readied_bound hR z0 umax
  have hM : 0 ≤ bagnoldBound C' z0 umax := bagnoldBound_nonneg C' hR.usable umax z0 ⟨hz0.1, by rw [e]; exact hz0.2⟩
  have hds : ∀ j ≤ nx, C'.core.ds 0 j = dx := by
    intro j hj
    rw [(hR.sizes j).1]
    split_ifs with h0
    · exact hdx 0 (by omega)
    · have := hdx (j - 1) (by omega)
      rwa [show j - 1 + 1 = j by omega] at this
  have hdn : ∀ j, C'.core.dn 0 j = 1 := fun j => (hR.sizes j).2.1
  have hpos : 0 < dx := by
    rw [← hdx 0 (by omega)]
    linarith [hS.coordinates 0 (by omega)]
  have hsand := C135_not_created_any sp hsp C' hR.usable (readied_series hR hF)
    ⟨by rw [e]; exact hlat, fun i hi j hj => by
        obtain rfl : i = 0 := by omega
        rw [(hR.sizes j).2.2, hdn, hds j hj]
        field_simp, fun i hi j hj => by
        obtain rfl : i = 0 := by omega
        rw [hdn, hdn], by rw [e]; exact hne, by rw [e]; exact hup, by rw [e]; exact hrho⟩
    (by rw [e]; exact ⟨hin.off, hin.on⟩) (by rw [e]; exact ⟨⟨hflat.shear, hflat.plants⟩, hflat.grains, hflat.csalt, hflat.mask⟩)
    (by rw [e]; exact hava) dx hpos.le (fun j hj => by rw [hds j hj, hdn, mul_one]) (by rw [e]; exact hb) umax z0 (readied_below hR hu)
    (readied_rough hR hz) ⟨hz0.1, by rw [e]; exact hz0.2⟩ (layerMass C) (layerMass_nonneg hS) (calls rand 0 (stepsOf C c)) (fun x hx => by
      obtain ⟨i, -, rfl⟩ := List.mem_map.mp hx
      rw [if_neg (by norm_num), hbd]
      exact ⟨lt_of_eq_of_lt (by rw [e]) hthick.thick, hthick.iter.imp_right fun h => le_of_eq_of_le (by rw [e]) (h.trans_eq (by rw [e]))⟩)
    σ s.w.1 (by rw [hnl]; exact hI.sound) (fun c f => by rw [hI.air]; exact hM) (fun c => by rw [(hI.dry c).2]; exact zero_le_one)
    (initial_plants hI) hrun
  have key : ∀ ρ : Whole.State nx 0 nf, sandMass C'.core ρ = sandOnTransect C dx (fun c => (ρ.sand.bed c).zb) (fun c => ∑ f, ρ.sand.Ct c f) := by
    intro ρ
    unfold sandMass sandOnTransect
    rw [zero_add, sum_range_one]
    refine sum_congr rfl fun j hj => ?_
    rw [hds j (by rw [mem_Ico] at hj; omega), hdn, mul_one, hbed, ← Sand.onGrid_sum]
    rfl
  have harea : innerArea nx 0 C'.core = (nx - 1) * dx := by
    unfold innerArea
    rw [zero_add, sum_range_one, sum_congr rfl fun j hj => by rw [hds j (by rw [mem_Ico] at hj; omega), hdn, mul_one], sum_const,
      Nat.card_Ico, nsmul_eq_mul, Nat.cast_sub (by omega), Nat.cast_one]
  rw [key, key, harea, hbed] at hsand
  have hlen : (calls rand 0 (stepsOf C c)).length = stepsOf C c := by simp [calls]
  rw [hlen] at hsand
  refine hsand.trans (le_of_eq ?_)
  simp only [hI.bed, hI.air, sum_const_zero]

/-! ### Ranges at the end of a run -/

theorem calls_last (rand : ℕ → ℕ → ℝ) (k n : ℕ) : calls rand k (n + 1) = calls rand k n ++ [(rand (k + n), -1)] := by
  unfold calls
  rw [List.range_succ, List.map_append, List.map_singleton]

theorem run_split (sp : LinSolve nx 0) (C : Full.Config nx nf) (x : (ℕ → ℝ) × ℝ) (cs : List ((ℕ → ℝ) × ℝ)) :
    ∀ σ τ : Full.State nx nf, Full.run sp C (cs ++ [x]) σ = some (.ok τ) →
      ∃ ρ b, Full.run sp C cs σ = some (.ok ρ) ∧ Full.update sp C x.1 x.2 ρ = some (.ok (τ, b)) := by
  induction cs with
  | nil =>
    intro σ τ h
    rw [List.nil_append] at h
    unfold Full.run at h
    match h1 : Full.update sp C x.1 x.2 σ with
    | none => simp [h1] at h
    | some (.error e) => simp [h1] at h
    | some (.ok (ρ, b)) =>
      simp only [h1] at h
      obtain rfl := Except.ok.inj (Option.some.inj h)
      exact ⟨σ, b, rfl, h1⟩
  | cons y ys ih =>
    intro σ τ h
    rw [List.cons_append] at h
    unfold Full.run at h
    match h1 : Full.update sp C y.1 y.2 σ with
    | none => simp [h1] at h
    | some (.error e) => simp [h1] at h
    | some (.ok (ρ, b)) =>
      simp only [h1] at h
      obtain ⟨ρ', b', h2, h3⟩ := ih ρ τ h
      refine ⟨ρ', b', ?_, h3⟩
      unfold Full.run
      simp only [h1]
      exact h2

/-- The last time step of a run that returns. -/
theorem last_step (sp : LinSolve nx 0) (C C' : Full.Config nx nf) (hC : Usable C') (c : Runner.Cfg ℝ) (rand : ℕ → ℕ → ℝ) (σ τ : Full.State nx nf)
    (h : Full.run sp C' (calls rand 0 (stepsOf C c)) σ = some (.ok τ)) :
    ∃ ρ, Full.run sp C' (calls rand 0 (stepsOf C c - 1)) σ = some (.ok ρ) ∧
      Full.update sp C' (rand (stepsOf C c - 1)) (-1) ρ = some (.ok (τ, true)) := by
  obtain ⟨m, hm⟩ : ∃ m, stepsOf C c = m + 1 := ⟨_, rfl⟩
  rw [hm, calls_last, zero_add] at h
  obtain ⟨ρ, b, h1, h2⟩ := run_split sp C' _ _ σ τ h
  obtain ⟨hb, -⟩ := C133_step sp C' hC _ _ ρ τ b h2
  rw [hm, Nat.add_sub_cancel]
  refine ⟨ρ, h1, ?_⟩
  cases b with
  | true => exact h2
  | false => exact absurd (hb.mp rfl) (lt_irrefl _)

/-- **C146** Moisture and salt at the end of a run that returns: with infiltration the moisture content is between zero and the porosity, with the soil moisture
method between the residual and the saturated content; the salt content is between zero and one. -/
theorem C146_moisture (sp : LinSolve nx 0) (C : Full.Config nx nf) (F : Files nx nf) (hS : Startable C F) (hF : SeriesOk C)
    (hacc : 0 < C.accfac) (c : Runner.Cfg ℝ) (rand : ℕ → ℕ → ℝ) (solves : Full.State nx nf × ℕ → ℕ) (restart : Runner.RestartArg)
    (walls : List (ℝ × ℝ)) (s : Runner.St ℝ (Full.State nx nf × ℕ)) (r : ℝ × ℝ)
    (h : program sp C F rand solves c restart walls = .ok (some (s, r))) (j : Fin (cells nx 0)) :
    (C.moist.processMoist = true → lower C.moist.method = "infiltration" → 0 ≤ C.moist.porosity →
      0 ≤ (s.w.1.moist j).moist ∧ (s.w.1.moist j).moist ≤ C.moist.porosity) ∧
    (C.moist.processMoist = true → lower C.moist.method = "surf_moisture" → C.moist.resw ≤ C.moist.satd →
      C.moist.resw ≤ (s.w.1.moist j).moist ∧ (s.w.1.moist j).moist ≤ C.moist.satd) ∧
    (0 < C.moist.layerThickness → (∀ rows, C.meteoFile = some rows → ∀ x ∈ rows, 0 ≤ x.2 2) →
      0 ≤ (s.w.1.moist j).salt ∧ (s.w.1.moist j).salt ≤ 1) := by
  obtain ⟨-, -, C', σ, hi, hI, hR, hrun, -⟩ := C146_returned sp C F hS hacc c rand solves restart walls s r h
  have em : C'.moist = C.moist := by rw [hR.same]
  have ef : C'.meteoFile = C.meteoFile := by rw [hR.same]
  refine ⟨fun hon hm hp => ?_, fun hon hm hr => ?_, fun hl hRH => ?_⟩
  · rw [← em] at hon hm hp ⊢
    exact C137_moisture_infiltration sp C' hR.usable hon hm hp _ σ s.w.1 hrun (fun c => by rw [(hI.dry c).1]; exact ⟨le_rfl, hp⟩) j
  · rw [← em] at hon hm hr ⊢
    obtain ⟨ρ, -, hu⟩ := last_step sp C C' hR.usable c rand σ s.w.1 hrun
    obtain ⟨-, -, hbt, -⟩ := C133_step sp C' hR.usable _ _ ρ s.w.1 true hu
    obtain ⟨E, -, hE, -⟩ := hbt rfl
    obtain ⟨-, met, -, -, -, hmo⟩ := hE.moisture
    obtain ⟨h1, -, h2, -⟩ := C62_range _ _ _ _ _ _ _ hon hm (hmo j)
    exact ⟨by rwa [min_eq_left hr] at h2, h1⟩
  · rw [← em] at hl
    rw [← ef] at hRH
    exact C137_salt sp C' hR.usable (readied_series hR hF) hl hRH _ σ s.w.1 hrun (fun c => by rw [(hI.dry c).2]; exact ⟨le_rfl, zero_le_one⟩) j

theorem initialised_plants {C C' : Full.Config nx nf} {F : Files nx nf} {t : ℝ} {σ : Full.State nx nf} (h : initialise C F t = .ok (C', σ)) :
    σ.veg = plants C F := by
  unfold initialise at h
  split at h
  · cases h
  · split at h
    · cases h
    · split at h
      · cases h
      · dsimp only at h
        split at h
        · cases h
        · cases h
          rfl

/-- **C146** Vegetation at the end of a run that returns, with densities of at most one in the file: with the height-based growth model heights are between zero
and the maximum, and densities between zero and one and equal to the square of the relative height. -/
theorem C146_vegetation (sp : LinSolve nx 0) (C : Full.Config nx nf) (F : Files nx nf) (hS : Startable C F)
    (hacc : 0 < C.accfac) (c : Runner.Cfg ℝ) (rand : ℕ → ℕ → ℝ) (solves : Full.State nx nf × ℕ → ℕ) (restart : Runner.RestartArg)
    (walls : List (ℝ × ℝ)) (s : Runner.St ℝ (Full.State nx nf × ℕ)) (r : ℝ × ℝ)
    (h : program sp C F rand solves c restart walls = .ok (some (s, r))) (horig : C.shelter.veg.orig = true) (hmax : 0 < C.shelter.veg.hmax)
    (hfile : ∀ file, F.veg = some file → ∀ j, file j ≤ 1) (j : ℕ) :
    0 ≤ (s.w.1.veg j).h ∧ (s.w.1.veg j).h ≤ C.shelter.veg.hmax ∧ (s.w.1.veg j).rho = ((s.w.1.veg j).h / C.shelter.veg.hmax) ^ 2 ∧
      0 ≤ (s.w.1.veg j).rho ∧ (s.w.1.veg j).rho ≤ 1 := by
  obtain ⟨-, -, C', σ, hi, hI, hR, hrun, -⟩ := C146_returned sp C F hS hacc c rand solves restart walls s r h
  have em : C'.shelter.veg = C.shelter.veg := by rw [hR.same]
  have hv := initialised_plants hi
  rw [← em] at horig hmax ⊢
  refine C137_vegetation_height sp C' hR.usable horig hmax _ σ s.w.1 hrun (fun j => ?_) j
  rw [em] at hmax ⊢
  rw [hv]
  unfold plants
  match hf : F.veg with
  | none => simp [hmax.le]
  | some file =>
    have h1 := hfile file hf j
    have h2 : (if file j < 0 then file j * 0 else file j) = max 0 (file j) := by
      split_ifs with h0
      · rw [mul_zero, max_eq_left h0.le]
      · rw [max_eq_right (not_lt.mp h0)]
    have h3 : 0 ≤ max 0 (file j) := le_max_left _ _
    have h4 : max 0 (file j) ≤ 1 := max_le zero_le_one h1
    simp only [Veg.initCell, h2]
    refine ⟨mul_nonneg hmax.le (Real.sqrt_nonneg _), ?_, ?_, Or.inl trivial⟩
    · exact mul_le_of_le_one_right hmax.le (Real.sqrt_le_one.mpr h4)
    · rw [mul_div_cancel_left₀ _ hmax.ne', Real.sq_sqrt h3]

/-- **C146** Water and groundwater in the last time step of a run that returns: there is a state `ρ` before it, reached with one time step less, so that the
water is at or above its bed; with groundwater the groundwater is at the still water where that covers the bed and not above the bed elsewhere. -/
theorem C146_water (sp : LinSolve nx 0) (C : Full.Config nx nf) (F : Files nx nf) (hS : Startable C F)
    (hacc : 0 < C.accfac) (c : Runner.Cfg ℝ) (rand : ℕ → ℕ → ℝ) (solves : Full.State nx nf × ℕ → ℕ) (restart : Runner.RestartArg)
    (walls : List (ℝ × ℝ)) (s : Runner.St ℝ (Full.State nx nf × ℕ)) (r : ℝ × ℝ)
    (h : program sp C F rand solves c restart walls = .ok (some (s, r))) :
    ∃ C' σ ρ, initialise C F c.tstart = .ok (C', σ) ∧ Full.run sp C' (calls rand 0 (stepsOf C c - 1)) σ = some (.ok ρ) ∧
      (∀ j : Fin (cells nx 0), ρ.zb j ≤ s.w.1.hydro.water.zs j) ∧
      (C.ground.on = true → 1 ≤ C.ground.tfac → C.ground.tfac ≤ C.ts.dt → ∀ j,
        (ρ.zb j < s.w.1.hydro.water.DSWL j → s.w.1.hydro.gw j = s.w.1.hydro.water.DSWL j) ∧
        (s.w.1.hydro.water.DSWL j ≤ ρ.zb j → s.w.1.hydro.gw j ≤ ρ.zb j)) := by
  obtain ⟨-, -, C', σ, hi, hI, hR, hrun, -⟩ := C146_returned sp C F hS hacc c rand solves restart walls s r h
  have eg : C'.ground = C.ground := by rw [hR.same]
  have et : C'.ts = C.ts := by rw [hR.same]
  obtain ⟨ρ, h1, hu⟩ := last_step sp C C' hR.usable c rand σ s.w.1 hrun
  refine ⟨C', σ, ρ, hi, h1, fun j => (C137_water sp C' hR.usable _ _ ρ s.w.1 hu j).1, fun hon ht hle j => ?_⟩
  rw [← eg] at hon ht hle
  rw [← et] at hle
  exact C137_groundwater sp C' hR.usable hon ht _ _ (by rw [if_neg (by norm_num)]; exact hle) ρ s.w.1 hu j

/-! ### Groundwater: when a run completes -/

/-- Water levels that the water module gives at time `t` over a bed. -/
def LevelsOver (C : Full.Config nx nf) (bed : ℕ → ℝ) (t : ℝ) (w' : Hydro.Water) : Prop :=
  ∃ zb w, (∀ j ≤ nx, zb j = bed j) ∧ Hydro.interpolate C.water ⟨zb, C.tideMask, C.waveMask, C.runupMask⟩ t w = .ok w'

/-- A beach for groundwater: steps of at least a second within a time step, a known landward boundary, and at all times the first two cells are not above
the set-up level and some other cell is. -/
structure BeachOk (C : Full.Config nx nf) (bed : ℕ → ℝ) : Prop where
  steps : 1 ≤ C.ground.tfac ∧ C.ground.tfac ≤ C.ts.dt
  boundary : lower C.ground.boundary = "no_flow" ∨ lower C.ground.boundary = "static"
  shore : ∀ t w, LevelsOver C bed t w → bed 0 ≤ w.DSWL 0 ∧ bed 1 ≤ w.DSWL 1 ∧ ∃ j, 2 ≤ j ∧ j ≤ nx ∧ w.DSWL j < bed j

theorem zb_of {bed : ℕ → ℝ} {σ : Full.State nx nf} (h : ∀ c, (σ.core.sand.bed c).zb = bed c) (j : ℕ) (hj : j ≤ nx) : σ.zb j = bed j := by
  have hc : j < cells nx 0 := by unfold cells; omega
  unfold Full.State.zb
  rw [show j = ((⟨j, hc⟩ : Fin (cells nx 0)) : ℕ) from rfl, Full.col_apply, h]

theorem hydro_returns {C : Full.Config nx nf} {bed : ℕ → ℝ} (hB : BeachOk C bed) (hon : C.ground.on = true) (hF : SeriesOk C)
    (hdt : 0 < C.ts.dt) (hnx : 2 ≤ nx) (σ : Full.State nx nf) (hz : ∀ c, (σ.core.sand.bed c).zb = bed c) :
    ∃ s, Hydro.hydroStep C.water ⟨σ.zb, C.tideMask, C.waveMask, C.runupMask⟩
      { C.ground with n := nx + 1, ds := C.core.ds 0, x := C.x } σ.clock.t C.ts.dt σ.hydro = .ok s := by
  obtain ⟨d, m, hs, -⟩ := C86_coverage C.ts.dt C.ground.tfac (by linarith [hB.steps.1]) hB.steps.2
  refine (C123_succeeds _ _ { C.ground with n := nx + 1, ds := C.core.ds 0, x := C.x } _ _ _ hon hB.steps.1 hdt.le).mpr ⟨d, m, hs, hB.steps.2, hB.boundary, fun k _ => ?_⟩
  obtain ⟨w, hw⟩ := C60_never_fails C.water ⟨σ.zb, C.tideMask, C.waveMask, C.runupMask⟩ (σ.clock.t + k * d) σ.hydro.water hF.tide hF.wave
  obtain ⟨h0, h1, j, hj, hjn, hd⟩ := hB.shore _ w ⟨σ.zb, σ.hydro.water, zb_of hz, hw⟩
  refine ⟨w, hw, ?_, ?_, j, hj, Nat.lt_succ_of_le hjn, ?_⟩
  · show σ.zb 0 ≤ _
    rw [zb_of hz 0 (by omega)]
    exact h0
  · show σ.zb 1 ≤ _
    rw [zb_of hz 1 (by omega)]
    exact h1
  · show _ < σ.zb j
    rw [zb_of hz j hjn]
    exact hd

/-- **C146** With groundwater on a beach a run in a breeze completes, and its last state has the bed of the bed file, clear air, and groundwater at the still water
where that covers the bed and not above the bed elsewhere. -/
theorem C146_breeze_ground (sp : LinSolve nx 0) (hsp : Exact sp) (C : Full.Config nx nf) (F : Files nx nf) (hS : Startable C F) (hN : NamesOk C.core)
    (hF : SeriesOk C) (hon : C.ground.on = true) (hB : BeachOk C F.bed) (hacc : 0 < C.accfac) (c : Runner.Cfg ℝ) (hc : Asked c)
    (rand : ℕ → ℕ → ℝ) (solves : Full.State nx nf × ℕ → ℕ) (walls : List (ℝ × ℝ)) (hw : stepsOf C c ≤ walls.length)
    (hin : NoInflow C.core) (hcs : 0 ≤ C.core.thr.csalt) (hmix : C.core.setup.mixing = false) (hlev : NoOtherChanges C) (hflat : Sheltering C)
    (hmask : ∀ j, 1 ≤ (C.thresholdMask j).1) (umax z0 : ℝ) (hu : WindBelow C umax) (hz : RoughnessIs C z0)
    (hlow : ∀ f, max 0.01 (umax * |C.wind.kappa / Real.log (C.wind.z / z0)|) ≤ grainThreshold C.core f) :
    ∃ s r, program sp C F rand solves c .absent walls = .ok (some (s, r)) ∧
      (∀ c, (s.w.1.core.sand.bed c).zb = F.bed c) ∧ (∀ c f, s.w.1.core.sand.Ct c f = 0) ∧
      ∀ j ≤ nx, (F.bed j < s.w.1.hydro.water.DSWL j → s.w.1.hydro.gw j = s.w.1.hydro.water.DSWL j) ∧
        (s.w.1.hydro.water.DSWL j ≤ F.bed j → s.w.1.hydro.gw j ≤ F.bed j) := by
  have hready : ∀ C', Readied C F C' → ∀ (cs : List ((ℕ → ℝ) × ℝ)) (σ τ : Full.State nx nf),
      (∀ c, ∀ k < C.core.setup.bed.nl, ∀ f, 0 ≤ (σ.core.sand.bed c).mass k f) →
      (∀ c f, 0 ≤ (σ.core.cap c f).Cu0) → (∀ c f, σ.core.sand.Ct c f = 0) → (∀ c, (σ.moist c).salt ≤ 1) → (∀ j, 0 ≤ (σ.veg j).rho) →
      Full.run sp C' cs σ = some (.ok τ) → Still C.core.setup.bed.nl σ.core τ.core := by
    intro C' hR cs σ τ h1 h2 h3 h4 h5 hrun
    have e := hR.same
    have hk : C'.wind.kappa = C.wind.kappa ∧ C'.wind.z = C.wind.z := by rw [e]; exact ⟨rfl, rfl⟩
    have hnl : C'.core.setup.bed.nl = C.core.setup.bed.nl := by rw [e]
    have hstill := C134_breeze_any sp hsp C' hR.usable (readied_series hR hF)
      (by rw [e]; exact ⟨hin.off, hin.on⟩) (by rw [e]; exact hcs) (by rw [e]; exact hmix) (by rw [e]; exact hlev)
      (by rw [e]; exact ⟨hflat.shear, hflat.plants⟩) (by rw [e]; exact hmask) umax z0 (readied_below hR hu) (readied_rough hR hz)
      (fun f => by rw [hk.1, hk.2]; exact (hlow f).trans (le_of_eq (by rw [e]; rfl)))
      cs σ τ (by rw [hnl]; exact h1) h2 h3 h4 h5 hrun
    rwa [hnl] at hstill
  obtain ⟨C', σ, τ, s, r, hi, hI, hR, hp, hsw, hrun, -⟩ := completes_within sp C F hS c
    (fun σ => (∀ c, (σ.core.sand.bed c).zb = F.bed c) ∧ (∀ c, ∀ k < C.core.setup.bed.nl, ∀ f, 0 ≤ (σ.core.sand.bed c).mass k f) ∧
      (∀ c f, 0 ≤ (σ.core.cap c f).Cu0) ∧ (∀ c f, σ.core.sand.Ct c f = 0) ∧ (∀ c, (σ.moist c).salt ≤ 1) ∧ (∀ j, 0 ≤ (σ.veg j).rho))
    (fun σ hI => ⟨hI.bed, hI.sound.sand.mass, fun c f => (hI.sound.cap c f).2.2, hI.air, fun c => by rw [(hI.dry c).2]; exact zero_le_one,
      initial_plants hI⟩)
    (by
      rintro C' hR r σ ⟨h0, h1, h2, h3, h4, h5⟩
      have hB' : BeachOk C' F.bed := by
        rw [hR.same]
        exact ⟨hB.steps, hB.boundary, hB.shore⟩
      have hon' : C'.ground.on = true := by rw [hR.same]; exact hon
      have hdt' : 0 < C'.ts.dt := by rw [hR.same]; exact hS.step.2.1
      obtain ⟨τ, b, hu', h2'⟩ := (C133_returns sp C' hR.usable (readied_names hR hN) (readied_series hR hF) r (-1) σ h2).mpr (Or.inr (by
        rw [if_neg (by norm_num)]
        exact hydro_returns hB' hon' (readied_series hR hF) hdt' hS.columns σ h0))
      obtain ⟨-, -, -, hs1, hs2⟩ := C133_step sp C' hR.usable r (-1) σ τ b hu'
      have hst := hready C' hR [(r, -1)] σ τ h1 h2 h3 h4 h5 (by unfold Full.run; simp only [hu']; rfl)
      exact ⟨τ, b, hu', fun c => (hst.level c).trans (h0 c), fun c k hk f => by rw [hst.mass c k hk]; exact h1 c k hk f, h2', hst.air, hs1 h4, hs2 h5⟩)
    hacc hc rand solves walls hw
  obtain ⟨σ', -, hb, -, ha⟩ := C146_breeze_any sp hsp C F hS hF hacc c rand solves .absent walls s r hp hin hcs hmix hlev hflat hmask umax z0 hu hz hlow
  refine ⟨s, r, hp, hb, ha, fun j hj => ?_⟩
  rw [hsw]
  obtain ⟨ρ, h1, h2⟩ := last_step sp C C' hR.usable c rand σ τ hrun
  have hst := hready C' hR _ σ ρ hI.sound.sand.mass (fun c f => (hI.sound.cap c f).2.2) hI.air
    (fun c => by rw [(hI.dry c).2]; exact zero_le_one) (initial_plants hI) h1
  have hzb := zb_of (bed := F.bed) (σ := ρ) (fun c => (hst.level c).trans (hI.bed c)) j hj
  rw [← hzb]
  have eg : C'.ground = C.ground := by rw [hR.same]
  have et : C'.ts = C.ts := by rw [hR.same]
  exact C137_groundwater sp C' hR.usable (by rw [eg]; exact hon) (by rw [eg]; exact hB.steps.1) _ _
    (by rw [if_neg (by norm_num), eg, et]; exact hB.steps.2) ρ τ h2 j

theorem update_fails (sp : LinSolve nx 0) (C : Full.Config nx nf) (hC : Usable C) (hF : SeriesOk C) (r : ℕ → ℝ) (σ : Full.State nx nf) (e : PyErr)
    (h : Hydro.hydroStep C.water ⟨σ.zb, C.tideMask, C.waveMask, C.runupMask⟩
      { C.ground with n := nx + 1, ds := C.core.ds 0, x := C.x } σ.clock.t C.ts.dt σ.hydro = .error e) :
    Full.update sp C r (-1) σ = some (.error e) := by
  obtain ⟨w, hw⟩ := windNow_total C hF σ
  obtain ⟨z, hzr, hz0, hz1⟩ := hC.rough
  have hz := roughnesses_fixed C z hzr σ w.1
  have hk := timestep_implicit C hC (tsGrids C (prepared C σ w fun _ => z) (windComponents C w)) (prepared C σ w fun _ => z).clock (-1)
  rw [if_neg (lt_irrefl _), if_neg (by norm_num)] at hk
  let ρ : Full.State nx nf := { prepared C σ w (fun _ => z) with clock := { (prepared C σ w (fun _ => z)).clock with dt := C.ts.dt } }
  obtain ⟨met, hmet⟩ := meteo_total C hF (Hydro.lastTime C.ground ρ.clock.t ρ.clock.dt)
  have hh : Hydro.hydroStep C.water (row C ρ) (groundIn C) ρ.clock.t ρ.clock.dt ρ.hydro = .error e := h
  have hex : execute sp C r (windComponents C w) (shear0 C σ w fun _ => z) ρ = some (.error e) := by
    unfold execute
    simp only [hmet, hh]
  unfold Full.update
  simp only [hw, hz, hk, if_true]
  show (match execute sp C r (windComponents C w) (shear0 C σ w fun _ => z) ρ with
    | none => none
    | some (.error e) => some (.error e)
    | some (.ok τ) => some (.ok (τ, true))) = (some (.error e) : Option (Except PyErr (Full.State nx nf × Bool)))
  rw [hex]

/-- **C146** (finding) With groundwater a run on a bed file whose first or second cell is above the set-up level at the start, or that lies nowhere above it, ends
with `ValueError` in the first time step. -/
theorem C146_no_shoreline_fails (sp : LinSolve nx 0) (C : Full.Config nx nf) (F : Files nx nf) (hS : Startable C F) (hF : SeriesOk C)
    (hon : C.ground.on = true) (hsteps : 1 ≤ C.ground.tfac ∧ C.ground.tfac ≤ C.ts.dt)
    (hbd : lower C.ground.boundary = "no_flow" ∨ lower C.ground.boundary = "static") (c : Runner.Cfg ℝ) (hc : Asked c)
    (hdry : ∀ w, LevelsOver C F.bed c.tstart w → w.DSWL 0 < F.bed 0 ∨ w.DSWL 1 < F.bed 1 ∨ ∀ j ≤ nx, F.bed j ≤ w.DSWL j)
    (rand : ℕ → ℕ → ℝ) (solves : Full.State nx nf × ℕ → ℕ) (walls : List (ℝ × ℝ)) (hw : walls ≠ []) :
    program sp C F rand solves c .absent walls = .error .valueError := by
  obtain ⟨C', σ, hi, hI, hR⟩ := C146_initialise C F hS c.tstart
  have hcl : σ.clock.t = c.tstart := hI.clock
  have hF' := readied_series hR hF
  have hnx := hS.columns
  have hup : Full.update sp C' (rand 0) (-1) σ = some (.error .valueError) := by
    refine update_fails sp C' hR.usable hF' (rand 0) σ _ ?_
    obtain ⟨w, hw⟩ := C60_never_fails C'.water ⟨σ.zb, C'.tideMask, C'.waveMask, C'.runupMask⟩ σ.clock.t σ.hydro.water hF'.tide hF'.wave
    have eg : C'.ground = C.ground := by rw [hR.same]
    have et : C'.ts = C.ts := by rw [hR.same]
    refine C123_no_shoreline_fails _ _ _ _ _ _ w (by rw [eg]; exact hon) (by rw [eg]; exact hsteps.1) (by rw [eg, et]; exact hsteps.2)
      (by rw [eg]; exact hbd) hw ?_
    have hL : LevelsOver C F.bed c.tstart w := by
      refine ⟨σ.zb, σ.hydro.water, zb_of hI.bed, ?_⟩
      rw [← hcl]
      rw [hR.same] at hw
      exact hw
    show w.DSWL 0 < σ.zb 0 ∨ w.DSWL 1 < σ.zb 1 ∨ ∀ j < nx + 1, σ.zb j ≤ w.DSWL j
    rw [zb_of hI.bed 0 (by omega), zb_of hI.bed 1 (by omega)]
    refine (hdry w hL).imp id (Or.imp id fun h j hj => ?_)
    rw [zb_of hI.bed j (by omega)]
    exact h j (by omega)
  unfold program
  simp only [hi]
  unfold Runner.run
  simp only [Runner.loadRestart]
  have ho : ∃ s, Runner.outputWrite c (engine sp C' rand) (Runner.St.init (σ, 0)) = .ok s ∧ s.w = (σ, 0) ∧ s.hasClear = true := by
    have hf : σ.clock.t - 0 ≥ c.outputTimes ∨ σ.clock.t = 0 := by
      rw [hcl, sub_zero]
      exact hc.first.symm.imp id id
    unfold Runner.outputWrite
    simp only [engine, Runner.St.init, hc.restart, hc.snapshot]
    rw [if_pos hf]
    exact ⟨_, if_neg (by simp), rfl, by simp⟩
  obtain ⟨s, ho, hsw, hcr⟩ := ho
  simp only [ho]
  obtain ⟨a, l, rfl⟩ := List.exists_cons_of_ne_nil hw
  have hle : (engine sp C' rand).time s.w ≤ c.tstop := by
    show s.w.1.clock.t ≤ _
    rw [hsw]
    exact hcl.le.trans hc.time.le
  have hr : Runner.round c (engine sp C' rand) a s = .error .valueError := by
    unfold Runner.round Runner.runnerUpdate Runner.runCallback
    have : (engine sp C' rand).update s.w = .error .valueError := by
      rw [hsw]
      show (match Full.update sp C' (rand 0) (-1) σ with
        | none => Except.error PyErr.valueError
        | some (.error e) => .error e
        | some (.ok (σ, b)) => .ok (σ, if b then 0 + 1 else 0)) = _
      rw [hup]
    simp [engine, hcr] at this ⊢
    rw [this]
    rfl
  unfold Runner.loop
  rw [if_pos hle, hr]

/-! ### Examples -/

/-- The beach of ten cells with groundwater in a breeze of 3 m/s. -/
def calmLagoon : Full.Config 9 1 := { lagoonConfig with wind := (coastConfig 3 false).wind }

/-- A bed that rises a metre from cell to cell, from `z` on. -/
def lagoonFiles (z : ℝ) : Files 9 1 where
  bed := fun j => j + z
  bedcomp := none
  grainDist := .single fun _ => 1
  intDtype := false
  veg := none
  fence := fun _ => 0
  convention := "nautical"

theorem lagoon_startable (z : ℝ) : Startable calmLagoon (lagoonFiles z) where
  core := duneConfig_ok
  columns := by norm_num
  coordinates := fun j _ => by show ((j : ℕ) : ℝ) < ((j + 1 : ℕ) : ℝ); push_cast; linarith
  speed := rfl
  on := Or.inl rfl
  kappa := by norm_num [calmLagoon, coastConfig]
  rough := ⟨0.001, Or.inl ⟨rfl, rfl⟩, by norm_num, by norm_num [calmLagoon, coastConfig]⟩
  weights := fun _ _ => by norm_num [calmLagoon, lagoonConfig]
  mask := fun _ => by norm_num [calmLagoon, lagoonConfig]
  step := ⟨rfl, by norm_num [calmLagoon, lagoonConfig], rfl⟩
  density := by norm_num [calmLagoon, lagoonConfig, duneConfig]
  layers := fun _ => rfl
  grains := ⟨rfl, ⟨fun _ => zero_le_one, by simp⟩⟩
  convention := Or.inr (Or.inl rfl)

theorem calmLagoon_series : SeriesOk calmLagoon where
  wind := (coast_files 3 false).wind
  tide := lagoon_series.tide
  wave := lagoon_series.wave
  moist := lagoon_series.moist
  salt := fun h => by cases h
  meteo := fun rows h => by cases h
  dune := fun h => by cases h

theorem lagoon_over {bed : ℕ → ℝ} {t : ℝ} {w : Hydro.Water} (h : LevelsOver calmLagoon bed t w) (j : ℕ) : 0 ≤ w.DSWL j ∧ w.DSWL j ≤ 1 := by
  obtain ⟨zb, v, -, hw⟩ := h
  obtain ⟨h1, h2⟩ := rising_levels zb t v w hw
  rw [h1]
  exact h2 j

theorem lagoon_beach : BeachOk calmLagoon (lagoonFiles (-2)).bed where
  steps := by norm_num [calmLagoon, lagoonConfig, floodGround]
  boundary := Or.inl (by show lower "no_flow" = "no_flow"; decide +kernel)
  shore := fun t w h => by
    refine ⟨?_, ?_, 5, by norm_num, by norm_num, ?_⟩
    · have := (lagoon_over h 0).1; norm_num [lagoonFiles]; linarith
    · have := (lagoon_over h 1).1; norm_num [lagoonFiles]; linarith
    · have := (lagoon_over h 5).2; norm_num [lagoonFiles]; linarith

theorem lagoon_steps : stepsOf calmLagoon twoDays = 49 := by
  unfold stepsOf
  have : (twoDays.tstop - twoDays.tstart) / (calmLagoon.ts.dt * calmLagoon.accfac) = (48 : ℕ) := by
    norm_num [twoDays, calmLagoon, lagoonConfig]
  rw [this, Nat.floor_natCast]

/-- C146: two days with groundwater on a beach; a metre and more above the highest tide the groundwater is at most at the bed. -/
example (rand : ℕ → ℕ → ℝ) (solves : Full.State 9 1 × ℕ → ℕ) (walls : List (ℝ × ℝ)) (hw : 49 ≤ walls.length) :
    ∃ s r, program byInverse calmLagoon (lagoonFiles (-2)) rand solves twoDays .absent walls = .ok (some (s, r)) ∧ s.w.2 = 49 ∧
      (∀ c, (s.w.1.core.sand.bed c).zb = (c : ℕ) + (-2)) ∧
      (∀ j ≤ 9, s.w.1.hydro.water.DSWL j ≤ (j : ℝ) + (-2) → s.w.1.hydro.gw j ≤ (j : ℝ) + (-2)) ∧
      (∀ c, 0 ≤ (s.w.1.moist c).moist ∧ (s.w.1.moist c).moist ≤ calmLagoon.moist.porosity) := by
  obtain ⟨s, r, hp, hb, -, hg⟩ := C146_breeze_ground byInverse byInverse_exact calmLagoon (lagoonFiles (-2)) (lagoon_startable _) duneConfig_names
    calmLagoon_series rfl lagoon_beach one_pos twoDays twoDays_asked rand solves walls (hw.trans' lagoon_steps.le)
    ⟨⟨fun _ => rfl, fun _ => rfl⟩, fun _ => rfl, fun _ => rfl⟩ (sheltered_calm 3).csalt rfl ⟨rfl, rfl, rfl⟩
    ⟨rfl, fun h => by cases h⟩
    (fun _ => le_rfl) 3 0.001 ⟨rfl, _, rfl, by norm_num⟩ (Or.inl ⟨rfl, rfl⟩) (fun f => by
      show max 0.01 ((3 : ℝ) * |0.41 / Real.log (10 / 0.001)|) ≤ grainThreshold duneConfig f
      rw [abs_of_nonneg coast_ratio.1]
      exact max_le (le_trans (by norm_num) (coast_grains f)) (le_trans (by linarith [coast_ratio.2]) (coast_grains f)))
  refine ⟨s, r, hp, ?_, hb, fun j hj => (hg j hj).2, fun c => ?_⟩
  · rw [(C146_returned byInverse _ _ (lagoon_startable _) one_pos twoDays rand solves _ walls s r hp).2.1, lagoon_steps]
  · exact (C146_moisture byInverse _ _ (lagoon_startable _) calmLagoon_series one_pos twoDays rand solves _ walls s r hp c).1 rfl
      (by show lower "infiltration" = "infiltration"; decide +kernel) (by norm_num [calmLagoon, lagoonConfig, coastConfig])

/-- C146: a transect that begins two metres above still water cannot be run with groundwater. -/
example (rand : ℕ → ℕ → ℝ) (solves : Full.State 9 1 × ℕ → ℕ) (walls : List (ℝ × ℝ)) (hw : walls ≠ []) :
    program byInverse calmLagoon (lagoonFiles 2) rand solves twoDays .absent walls = .error .valueError :=
  C146_no_shoreline_fails byInverse calmLagoon (lagoonFiles 2) (lagoon_startable _) calmLagoon_series rfl lagoon_beach.steps lagoon_beach.boundary
    twoDays twoDays_asked (fun w h => Or.inl (by have := (lagoon_over h 0).2; norm_num [lagoonFiles]; linarith)) rand solves walls hw

end

end Aeolis.Props
