import Verif.Props.PlanarProgram
import Verif.Props.ProgramAny

/-!
**C147** (continued) Complete runs of the program on a planar grid that return, whatever is switched on: with groundwater too, with restart files and with
any start time.  Theorems on the outcome of a run without condition that it ends.
-/

namespace Aeolis.Props

open Finset Aeolis.Spec Aeolis.Sand Aeolis.Solver Aeolis.Whole Aeolis.Planar

set_option linter.unusedSectionVars false

noncomputable section

open Classical

variable {nx ny nf : ℕ}

theorem planar_readied_series {C C' : Planar.Config nx ny nf} {F : PlanarProgram.Files nx ny nf} (hR : PlanarReadied C F C') (hF : PlanarSeries C) :
    PlanarSeries C' := by
  have e := hR.same
  have hw := hR.wind
  refine ⟨fun file h => ?_, ?_, ?_, ?_, ?_, ?_, ?_, ?_⟩
  · rw [hw] at h
    match hf : C.wind.file with
    | none => simp [hf] at h
    | some raw =>
      rw [hf] at h
      obtain rfl := Option.some.inj h
      obtain ⟨h1, h2⟩ := hF.wind raw hf
      refine ⟨by simpa using h1, ?_⟩
      rw [List.pairwise_map]
      exact h2
  all_goals rw [e]
  · exact hF.tide
  · exact hF.wave
  · exact hF.moist
  · exact hF.salt
  · exact hF.meteo
  · exact hF.dune
  · exact hF.bubbles

/-- The calls of `update` from the `k`-th on. -/
def planarCallsFrom (rand : ℕ → ℕ → ℕ → ℝ) (k n : ℕ) : List ((ℕ → ℕ → ℝ) × ℝ) := (List.range n).map fun i => (rand (k + i), -1)

theorem planarCallsFrom_zero (rand : ℕ → ℕ → ℕ → ℝ) (n : ℕ) : planarCallsFrom rand 0 n = planarCalls rand n := by
  unfold planarCallsFrom planarCalls
  simp only [zero_add]

theorem planarCallsFrom_succ (rand : ℕ → ℕ → ℕ → ℝ) (k n : ℕ) :
    planarCallsFrom rand k (n + 1) = (rand k, -1) :: planarCallsFrom rand (k + 1) n := by
  unfold planarCallsFrom
  rw [List.range_succ_eq_map, List.map_cons, List.map_map]
  congr 1
  refine List.map_congr_left fun i _ => ?_
  simp only [Function.comp_apply]
  rw [show k + Nat.succ i = k + 1 + i by omega]

theorem planar_path_calls (sp : LinSolve nx ny) (C : Planar.Config nx ny nf) (hC : PlanarUsable C) (rand : ℕ → ℕ → ℕ → ℝ) (tstop : ℝ) :
    ∀ (ws : List (Planar.State nx ny nf × ℕ)) (k : ℕ) (σ : Planar.State nx ny nf) (v : Planar.State nx ny nf × ℕ),
      Path (PlanarProgram.engine sp C rand) tstop (σ, k) ws v →
      v.2 = k + ws.length ∧ Planar.run sp C (planarCallsFrom rand k ws.length) σ = some (.ok v.1) ∧
        (ws ++ [v]).map (fun w => w.1.clock.t) = (List.range (ws.length + 1)).map (fun i : ℕ => σ.clock.t + i * (C.ts.dt * C.accfac)) ∧
        (∀ w ∈ ws, w.1.clock.t ≤ tstop) ∧ tstop < v.1.clock.t := by
  intro ws
  induction ws with
  | nil =>
    intro k σ v hp
    cases hp with
    | stop _ hlt => exact ⟨rfl, rfl, by simp, by simp, hlt⟩
  | cons w ws ih =>
    intro k σ v hp
    cases hp with
    | step _ w' _ _ hle hup hp =>
      have hup : (match Planar.update sp C (rand k) (-1) σ with
        | none => Except.error PyErr.valueError
        | some (.error e) => .error e
        | some (.ok (σ, b)) => .ok (σ, if b then k + 1 else k)) = Except.ok w' := hup
      match hu : Planar.update sp C (rand k) (-1) σ with
      | none => simp [hu] at hup
      | some (.error e) => simp [hu] at hup
      | some (.ok (ρ, b)) =>
        obtain ⟨hb, -, hbt, -⟩ := C140_step sp C hC (rand k) (-1) σ ρ b hu
        have hb' : b = true := by
          cases b with
          | true => rfl
          | false => exact absurd (hb.mp rfl) (lt_irrefl _)
        subst hb'
        obtain ⟨E, hE, -, ht, -⟩ := hbt rfl
        rw [hE.time.2, if_neg (by norm_num)] at ht
        simp only [hu, if_true, Except.ok.injEq] at hup
        subst hup
        obtain ⟨h1, h2, h3, h4, h5⟩ := ih (k + 1) ρ v hp
        refine ⟨by rw [h1, List.length_cons]; omega, ?_, ?_, ?_, h5⟩
        · rw [List.length_cons, planarCallsFrom_succ]
          unfold Planar.run
          simp only [hu]
          exact h2
        · rw [List.cons_append, List.map_cons, h3, List.length_cons, List.range_succ_eq_map (n := ws.length + 1), List.map_cons, List.map_map]
          simp only [Nat.cast_zero, zero_mul, add_zero]
          congr 1
          refine List.map_congr_left fun i _ => ?_
          simp only [Function.comp_apply]
          rw [ht]
          push_cast
          ring
        · intro x hx
          rcases List.mem_cons.mp hx with rfl | hx
          · exact hle
          · exact h4 x hx

/-- **C147** Every run of the program that returns, with groundwater or without: the files were read, the number of time steps is the one that first passes the
stop time, the states are those of as many calls of `update`, the output is written at the times of the output rule, and the last state is that after the
last call. -/
theorem C147_returned (sp : LinSolve nx ny) (C : Planar.Config nx ny nf) (F : PlanarProgram.Files nx ny nf) (hS : PlanarStartable C F) (hacc : 0 < C.accfac) (c : Runner.Cfg ℝ)
    (rand : ℕ → ℕ → ℕ → ℝ) (solves : Planar.State nx ny nf × ℕ → ℕ) (restart : Runner.RestartArg) (walls : List (ℝ × ℝ))
    (s : Runner.St ℝ (Planar.State nx ny nf × ℕ)) (r : ℝ × ℝ) (h : PlanarProgram.program sp C F rand solves c restart walls = .ok (some (s, r))) :
    c.tstart ≤ c.tstop ∧ s.w.2 = planarSteps C c ∧
    ∃ C' σ, PlanarProgram.initialise C F c.tstart = some (.ok (C', σ)) ∧ PlanarInitial C F c.tstart σ ∧ PlanarReadied C F C' ∧
      Planar.run sp C' (planarCalls rand (planarSteps C c)) σ = some (.ok s.w.1) ∧
      s.w.1.clock.t = c.tstart + planarSteps C c * (C.ts.dt * C.accfac) ∧
      s.records = (Writer.run c.outputTimes ⟨0, []⟩
        ((List.range (planarSteps C c + 1)).map fun k : ℕ => c.tstart + k * (C.ts.dt * C.accfac))).records ∧
      r.2 * planarSteps C c = c.tstop := by
  obtain ⟨C', σ, hi, hI, hR⟩ := C147_initialise C F hS c.tstart
  have hts : C'.ts = C.ts := by rw [hR.same]
  have hac : C'.accfac = C.accfac := by rw [hR.same]
  have hh : 0 < C.ts.dt * C.accfac := mul_pos hS.step.2.1 hacc
  unfold PlanarProgram.program at h
  simp only [hi] at h
  obtain ⟨ws, hp, -, hrec, -, hr2, hne⟩ := C103_completed c _ solves restart walls _ s r h
  obtain ⟨h1, h2, h3, h4, h5⟩ := planar_path_calls sp C' hR.usable rand c.tstop ws 0 σ s.w hp
  rw [zero_add] at h1
  rw [hts, hac, hI.clock] at h3
  have hne' : s.w.2 ≠ 0 := by
    intro h0
    exact hne (by show (s.w.2 : ℕ) = 0; exact h0)
  have hlast : s.w.1.clock.t = c.tstart + ws.length * (C.ts.dt * C.accfac) := by
    have := congrArg List.getLast? h3
    rw [List.map_append, List.map_singleton, List.getLast?_append_of_ne_nil _ (by simp), List.range_succ, List.map_append,
      List.map_singleton, List.getLast?_append_of_ne_nil _ (by simp)] at this
    simpa using this
  have hin : ∀ i < ws.length, c.tstart + i * (C.ts.dt * C.accfac) ≤ c.tstop := by
    intro i hi
    have hx := congrArg (fun l : List ℝ => l[i]?) h3
    simp only [List.map_append, List.getElem?_append_left (show i < (ws.map fun w => w.1.clock.t).length by simpa using hi), List.getElem?_map,
      List.getElem?_range (show i < ws.length + 1 by omega), List.getElem?_eq_getElem hi, Option.map_some] at hx
    rw [← Option.some.inj hx]
    exact h4 _ (List.getElem_mem hi)
  have hpos : 0 < ws.length := by omega
  have hle : c.tstart ≤ c.tstop := by simpa using hin 0 hpos
  have hn : ws.length = planarSteps C c := by
    unfold planarSteps
    obtain ⟨m, hm⟩ : ∃ m, ws.length = m + 1 := ⟨ws.length - 1, by omega⟩
    rw [hm]
    congr 1
    symm
    rw [Nat.floor_eq_iff (div_nonneg (by linarith) hh.le), le_div_iff₀ hh, div_lt_iff₀ hh]
    have a := hin m (by omega)
    rw [hlast, hm] at h5
    push_cast at h5
    exact ⟨by linarith, by linarith⟩
  rw [hn] at h1 h2 hlast
  rw [planarCallsFrom_zero] at h2
  refine ⟨hle, h1, C', σ, hi, hI, hR, h2, hlast, ?_, ?_⟩
  · rw [hrec, ← hn]
    exact congrArg (fun l => (Writer.run c.outputTimes ⟨0, []⟩ l).records) h3
  · rw [← h1]
    exact hr2

/-- **C147** A run that returns in a breeze, with groundwater or without: the bed in the last state is that of the bed file, the layers are those of the start,
the air is clear. -/
theorem C147_breeze_any (sp : LinSolve nx ny) (hsp : Exact sp) (C : Planar.Config nx ny nf) (F : PlanarProgram.Files nx ny nf) (hS : PlanarStartable C F)
    (hF : PlanarSeries C)
    (hs : WindFromSector C F) (hacc : 0 < C.accfac) (c : Runner.Cfg ℝ) (rand : ℕ → ℕ → ℕ → ℝ) (solves : Planar.State nx ny nf × ℕ → ℕ)
    (restart : Runner.RestartArg) (walls : List (ℝ × ℝ)) (s : Runner.St ℝ (Planar.State nx ny nf × ℕ)) (r : ℝ × ℝ)
    (h : PlanarProgram.program sp C F rand solves c restart walls = .ok (some (s, r)))
    (hin : NoInflow C.core) (hcs : 0 ≤ C.core.thr.csalt) (hmix : C.core.setup.mixing = false) (hlev : PlanarNoOtherChanges C)
    (hflat : PlanarSheltering C) (hmask : ∀ c, 1 ≤ (C.thresholdMask c).1) (umax z0 : ℝ) (hu : PlanarWindBelow C umax) (hz : PlanarRoughness C z0)
    (hlow : ∀ f, umax * |C.wind.kappa / Real.log (C.wind.z / z0)| ≤ grainThreshold C.core f) :
    ∃ σ, PlanarInitial C F c.tstart σ ∧
      (∀ c, (s.w.1.core.sand.bed c).zb = F.bed (rowOf c) (colOf c)) ∧
      (∀ c, ∀ k < C.core.setup.bed.nl, (s.w.1.core.sand.bed c).mass k = (σ.core.sand.bed c).mass k) ∧ (∀ c f, s.w.1.core.sand.Ct c f = 0) := by
  obtain ⟨-, -, C', σ, hi, hI, hR, hrun, -⟩ := C147_returned sp C F hS hacc c rand solves restart walls s r h
  have e := hR.same
  have hnl : C'.core.setup.bed.nl = C.core.setup.bed.nl := by rw [e]
  have hstill := C141_breeze_any sp hsp C' hR.usable (planar_readied_series hR hF) (planar_readied_sector hR hs)
    (by rw [e]; exact ⟨hin.off, hin.on⟩) (by rw [e]; exact hcs) (by rw [e]; exact hmix) (by rw [e]; exact hlev)
    (by rw [e]; exact ⟨hflat.shear, hflat.fences, hflat.plants⟩) (by rw [e]; exact hmask) umax z0 (planar_readied_below hR hu)
    (planar_readied_rough hR hz) (by rw [e]; exact hlow) (planarCalls rand (planarSteps C c)) σ s.w.1 (by rw [hnl]; exact hI.sound.sand.mass)
    (fun c f => (hI.sound.cap c f).2.2) hI.air (fun c => by rw [(hI.dry c).2]; exact zero_le_one) (planar_initial_plants hI) hrun
  rw [hnl] at hstill
  exact ⟨σ, hI, fun c => (hstill.level c).trans (hI.bed c), fun c k hk => funext (hstill.mass c k hk), hstill.air⟩

/-- **C147** A run that returns in a storm, with groundwater or without, with any number of fractions and vegetation on a bed that does not change the shear: every layer has
the mass it had at the start, no amount of sand is negative, and nowhere is there more sand in the air than Bagnold's formula gives for the strongest wind
in the file. -/
theorem C147_storm_any (sp : LinSolve nx ny) (hsp : Exact sp) (C : Planar.Config nx ny nf) (F : PlanarProgram.Files nx ny nf) (hS : PlanarStartable C F)
    (hF : PlanarSeries C)
    (hs : WindFromSector C F) (hacc : 0 < C.accfac) (c : Runner.Cfg ℝ) (rand : ℕ → ℕ → ℕ → ℝ) (solves : Planar.State nx ny nf × ℕ → ℕ)
    (restart : Runner.RestartArg) (walls : List (ℝ × ℝ)) (s : Runner.St ℝ (Planar.State nx ny nf × ℕ)) (r : ℝ × ℝ)
    (h : PlanarProgram.program sp C F rand solves c restart walls = .ok (some (s, r)))
    (hlat : C.core.bounds.lat = "circular") (hin : SmallInflow C.core) (hflat : PlanarSheltering C) (hb : C.core.tr.methodTransport = "bagnold")
    (umax z0 : ℝ) (hu : PlanarWindBelow C umax) (hz : PlanarRoughness C z0) (hz0 : 0 < z0 ∧ z0 < C.wind.z)
    (hthick : Copes nx ny C.core (planarBagnold C z0 umax) (planarLayerMass C) C.ts.dt) :
      (∀ c, ∀ k < C.core.setup.bed.nl, ∑ f, (s.w.1.core.sand.bed c).mass k f = planarLayerMass C ∧ ∀ f, 0 ≤ (s.w.1.core.sand.bed c).mass k f) ∧
      (∀ c f, 0 ≤ s.w.1.core.sand.Ct c f ∧ s.w.1.core.sand.Ct c f ≤ planarBagnold C z0 umax) := by
  obtain ⟨-, -, C', σ, hi, hI, hR, hrun, -⟩ := C147_returned sp C F hS hacc c rand solves restart walls s r h
  have e := hR.same
  have hnl : C'.core.setup.bed.nl = C.core.setup.bed.nl := by rw [e]
  have hbd := planar_readied_bound hR z0 umax
  have hM : 0 ≤ planarBagnold C' z0 umax := planarBagnold_nonneg C' hR.usable umax z0 ⟨hz0.1, by rw [e]; exact hz0.2⟩
  obtain ⟨hsound, hair⟩ := C141_storm_any sp hsp C' hR.usable (planar_readied_series hR hF)
    (planar_readied_sector hR hs) (by rw [e]; exact hlat)
    (by rw [e]; exact ⟨hin.off, hin.on⟩) (by rw [e]; exact ⟨hflat.shear, hflat.fences, hflat.plants⟩)
    (by rw [e]; exact hb) umax z0 (planar_readied_below hR hu) (planar_readied_rough hR hz) ⟨hz0.1, by rw [e]; exact hz0.2⟩ (planarLayerMass C)
    (planarLayerMass_nonneg hS) (planarCalls rand (planarSteps C c)) (fun x hx => by
      obtain ⟨i, -, rfl⟩ := List.mem_map.mp hx
      rw [if_neg (by norm_num), hbd]
      exact ⟨lt_of_eq_of_lt (by rw [e]) hthick.thick, hthick.iter.imp_right fun h => le_of_eq_of_le (by rw [e]) (h.trans_eq (by rw [e]))⟩)
    σ s.w.1 (by rw [hnl]; exact hI.sound) (fun c f => by rw [hI.air]; exact hM) (fun c => by rw [(hI.dry c).2]; exact zero_le_one) (planar_initial_plants hI)
    hrun
  rw [hnl] at hsound
  refine ⟨fun c k hk => ?_, fun c f => ⟨hsound.sand.air c f, (hair c f).trans hbd.le⟩⟩
  exact ⟨hsound.sand.layers c k hk, fun f => hsound.sand.mass c k hk f⟩

/-- **C147** Sand is not created in a run that returns, with groundwater or without: if none is supplied at the ends, the sand in bed and air at the end is at most
that of the bed file, up to the tolerance of the solver in every step. -/
theorem C147_not_created_any (sp : LinSolve nx ny) (hsp : Exact sp) (C : Planar.Config nx ny nf) (F : PlanarProgram.Files nx ny nf) (hS : PlanarStartable C F)
    (hF : PlanarSeries C)
    (hs : WindFromSector C F) (hacc : 0 < C.accfac) (c : Runner.Cfg ℝ) (rand : ℕ → ℕ → ℕ → ℝ) (solves : Planar.State nx ny nf × ℕ → ℕ)
    (restart : Runner.RestartArg) (walls : List (ℝ × ℝ)) (s : Runner.St ℝ (Planar.State nx ny nf × ℕ)) (r : ℝ × ℝ)
    (h : PlanarProgram.program sp C F rand solves c restart walls = .ok (some (s, r)))
    (hlat : C.core.bounds.lat = "circular") (hne : C.core.thr.thNelayer = false) (hup : C.core.setup.bed.processBedupdate = true)
    (hrho : 0 < C.core.setup.bed.rhog * (1 - C.core.setup.bed.porosity))
    (hin : NoInflow C.core) (hflat : PlanarSheltering C) (hava : PlanarOnlyAvalanches C) (hb : C.core.tr.methodTransport = "bagnold")
    (umax z0 : ℝ) (hu : PlanarWindBelow C umax) (hz : PlanarRoughness C z0) (hz0 : 0 < z0 ∧ z0 < C.wind.z)
    (hthick : Copes nx ny C.core (planarBagnold C z0 umax) (planarLayerMass C) C.ts.dt) :
      sandOnGrid C (distance (C.g 1 0) (C.g 0 0) * distance (C.g 0 1) (C.g 0 0)) (fun c => (s.w.1.core.sand.bed c).zb) (fun c => ∑ f, s.w.1.core.sand.Ct c f) ≤
        sandOnGrid C (distance (C.g 1 0) (C.g 0 0) * distance (C.g 0 1) (C.g 0 0)) (fun c => F.bed (rowOf c) (colOf c)) (fun _ => 0) +
          planarSteps C c * (C.core.setup.bed.maxError * nf *
            ((ny + 1) * (nx - 1) * (distance (C.g 1 0) (C.g 0 0) * distance (C.g 0 1) (C.g 0 0)))) := by
  obtain ⟨-, -, C', σ, hi, hI, hR, hrun, -⟩ := C147_returned sp C F hS hacc c rand solves restart walls s r h
  have e := hR.same
  have h2 := hS.columns
  have hnl : C'.core.setup.bed.nl = C.core.setup.bed.nl := by rw [e]
  have hbed : C'.core.setup.bed = C.core.setup.bed := by rw [e]
  have hbd := planar_readied_bound hR z0 umax
  have hM : 0 ≤ planarBagnold C' z0 umax := planarBagnold_nonneg C' hR.usable umax z0 ⟨hz0.1, by rw [e]; exact hz0.2⟩
  have hds : ∀ i j, C'.core.ds i j = distance (C.g 1 0) (C.g 0 0) := fun i j => (hR.sizes i j).2.1
  have hdn : ∀ i j, C'.core.dn i j = distance (C.g 0 1) (C.g 0 0) := fun i j => (hR.sizes i j).1
  have hsand := C142_not_created_any sp hsp C' hR.usable (planar_readied_series hR hF)
    (planar_readied_sector hR hs)
    ⟨by rw [e]; exact hlat, fun i hi j hj => (hR.sizes i j).2.2, fun i hi j hj => by rw [hdn, hdn], by rw [e]; exact hne, by rw [e]; exact hup,
      by rw [e]; exact hrho⟩
    ⟨fun i _ j _ => by rw [hds, hds], fun i _ => by rw [hdn, hdn]⟩
    (by rw [e]; exact ⟨hin.off, hin.on⟩) (by rw [e]; exact ⟨hflat.shear, hflat.fences, hflat.plants⟩)
    (by rw [e]; exact hava) (distance (C.g 1 0) (C.g 0 0) * distance (C.g 0 1) (C.g 0 0))
    (mul_nonneg (Real.sqrt_nonneg _) (Real.sqrt_nonneg _)) (fun i _ j _ => by rw [hds, hdn]) (by rw [e]; exact hb) umax z0 (planar_readied_below hR hu)
    (planar_readied_rough hR hz) ⟨hz0.1, by rw [e]; exact hz0.2⟩ (planarLayerMass C) (planarLayerMass_nonneg hS)
    (planarCalls rand (planarSteps C c)) (fun x hx => by
      obtain ⟨i, -, rfl⟩ := List.mem_map.mp hx
      rw [if_neg (by norm_num), hbd]
      exact ⟨lt_of_eq_of_lt (by rw [e]) hthick.thick, hthick.iter.imp_right fun h => le_of_eq_of_le (by rw [e]) (h.trans_eq (by rw [e]))⟩)
    σ s.w.1 (by rw [hnl]; exact hI.sound) (fun c f => by rw [hI.air]; exact hM) (fun c => by rw [(hI.dry c).2]; exact zero_le_one) (planar_initial_plants hI)
    hrun
  have key : ∀ ρ : Whole.State nx ny nf, sandMass C'.core ρ = sandOnGrid C (distance (C.g 1 0) (C.g 0 0) * distance (C.g 0 1) (C.g 0 0))
      (fun c => (ρ.sand.bed c).zb) (fun c => ∑ f, ρ.sand.Ct c f) := by
    intro ρ
    unfold sandMass sandOnGrid
    refine sum_congr rfl fun i _ => sum_congr rfl fun j _ => ?_
    rw [hds, hdn, hbed, ← Sand.onGrid_sum]
    rfl
  have harea : innerArea nx ny C'.core = (ny + 1) * (nx - 1) * (distance (C.g 1 0) (C.g 0 0) * distance (C.g 0 1) (C.g 0 0)) := by
    unfold innerArea
    simp only [hds, hdn]
    rw [sum_const, sum_const, card_range, Nat.card_Ico, nsmul_eq_mul, nsmul_eq_mul, Nat.cast_sub (by omega)]
    push_cast
    ring
  rw [key, key, harea, hbed] at hsand
  have hlen : (planarCalls rand (planarSteps C c)).length = planarSteps C c := by simp [planarCalls]
  rw [hlen] at hsand
  refine hsand.trans (le_of_eq ?_)
  simp only [hI.bed, hI.air, sum_const_zero]

/-! ### Ranges at the end of a run -/

theorem planarCalls_last (rand : ℕ → ℕ → ℕ → ℝ) (n : ℕ) : planarCalls rand (n + 1) = planarCalls rand n ++ [(rand n, -1)] := by
  unfold planarCalls
  rw [List.range_succ, List.map_append, List.map_singleton]

theorem planar_run_split (sp : LinSolve nx ny) (C : Planar.Config nx ny nf) (x : (ℕ → ℕ → ℝ) × ℝ) (cs : List ((ℕ → ℕ → ℝ) × ℝ)) :
    ∀ σ τ : Planar.State nx ny nf, Planar.run sp C (cs ++ [x]) σ = some (.ok τ) →
      ∃ ρ b, Planar.run sp C cs σ = some (.ok ρ) ∧ Planar.update sp C x.1 x.2 ρ = some (.ok (τ, b)) := by
  induction cs with
  | nil =>
    intro σ τ h
    rw [List.nil_append] at h
    unfold Planar.run at h
    match h1 : Planar.update sp C x.1 x.2 σ with
    | none => simp [h1] at h
    | some (.error e) => simp [h1] at h
    | some (.ok (ρ, b)) =>
      simp only [h1] at h
      obtain rfl := Except.ok.inj (Option.some.inj h)
      exact ⟨σ, b, rfl, h1⟩
  | cons y ys ih =>
    intro σ τ h
    rw [List.cons_append] at h
    unfold Planar.run at h
    match h1 : Planar.update sp C y.1 y.2 σ with
    | none => simp [h1] at h
    | some (.error e) => simp [h1] at h
    | some (.ok (ρ, b)) =>
      simp only [h1] at h
      obtain ⟨ρ', b', h2, h3⟩ := ih ρ τ h
      refine ⟨ρ', b', ?_, h3⟩
      unfold Planar.run
      simp only [h1]
      exact h2

/-- The last time step of a run that returns. -/
theorem planar_last_step (sp : LinSolve nx ny) (C C' : Planar.Config nx ny nf) (hC : PlanarUsable C') (c : Runner.Cfg ℝ) (rand : ℕ → ℕ → ℕ → ℝ) (σ τ : Planar.State nx ny nf)
    (h : Planar.run sp C' (planarCalls rand (planarSteps C c)) σ = some (.ok τ)) :
    ∃ ρ, Planar.run sp C' (planarCalls rand (planarSteps C c - 1)) σ = some (.ok ρ) ∧
      Planar.update sp C' (rand (planarSteps C c - 1)) (-1) ρ = some (.ok (τ, true)) := by
  obtain ⟨m, hm⟩ : ∃ m, planarSteps C c = m + 1 := ⟨_, rfl⟩
  rw [hm, planarCalls_last] at h
  obtain ⟨ρ, b, h1, h2⟩ := planar_run_split sp C' _ _ σ τ h
  obtain ⟨hb, -⟩ := C140_step sp C' hC _ _ ρ τ b h2
  rw [hm, Nat.add_sub_cancel]
  refine ⟨ρ, h1, ?_⟩
  cases b with
  | true => exact h2
  | false => exact absurd (hb.mp rfl) (lt_irrefl _)

/-- **C147** Moisture and salt at the end of a run that returns: with infiltration the moisture content is between zero and the porosity, with the soil moisture
method between the residual and the saturated content; the salt content is between zero and one. -/
theorem C147_moisture (sp : LinSolve nx ny) (C : Planar.Config nx ny nf) (F : PlanarProgram.Files nx ny nf) (hS : PlanarStartable C F) (hF : PlanarSeries C)
    (hacc : 0 < C.accfac) (c : Runner.Cfg ℝ) (rand : ℕ → ℕ → ℕ → ℝ) (solves : Planar.State nx ny nf × ℕ → ℕ) (restart : Runner.RestartArg)
    (walls : List (ℝ × ℝ)) (s : Runner.St ℝ (Planar.State nx ny nf × ℕ)) (r : ℝ × ℝ)
    (h : PlanarProgram.program sp C F rand solves c restart walls = .ok (some (s, r))) (j : Fin (cells nx ny)) :
    (C.moist.processMoist = true → lower C.moist.method = "infiltration" → 0 ≤ C.moist.porosity →
      0 ≤ (s.w.1.moist j).moist ∧ (s.w.1.moist j).moist ≤ C.moist.porosity) ∧
    (C.moist.processMoist = true → lower C.moist.method = "surf_moisture" → C.moist.resw ≤ C.moist.satd →
      C.moist.resw ≤ (s.w.1.moist j).moist ∧ (s.w.1.moist j).moist ≤ C.moist.satd) ∧
    (0 < C.moist.layerThickness → (∀ rows, C.meteoFile = some rows → ∀ x ∈ rows, 0 ≤ x.2 2) →
      0 ≤ (s.w.1.moist j).salt ∧ (s.w.1.moist j).salt ≤ 1) := by
  obtain ⟨-, -, C', σ, hi, hI, hR, hrun, -⟩ := C147_returned sp C F hS hacc c rand solves restart walls s r h
  have em : C'.moist = C.moist := by rw [hR.same]
  have ef : C'.meteoFile = C.meteoFile := by rw [hR.same]
  refine ⟨fun hon hm hp => ?_, fun hon hm hr => ?_, fun hl hRH => ?_⟩
  · rw [← em] at hon hm hp ⊢
    exact C144_moisture_infiltration sp C' hR.usable hon hm hp _ σ s.w.1 hrun (fun c => by rw [(hI.dry c).1]; exact ⟨le_rfl, hp⟩) j
  · rw [← em] at hon hm hr ⊢
    obtain ⟨ρ, -, hu⟩ := planar_last_step sp C C' hR.usable c rand σ s.w.1 hrun
    obtain ⟨-, -, hbt, -⟩ := C140_step sp C' hR.usable _ _ ρ s.w.1 true hu
    obtain ⟨E, -, hE, -⟩ := hbt rfl
    obtain ⟨-, met, -, -, -, hmo⟩ := hE.moisture
    obtain ⟨h1, -, h2, -⟩ := C62_range _ _ _ _ _ _ _ hon hm (hmo j)
    exact ⟨by rwa [min_eq_left hr] at h2, h1⟩
  · rw [← em] at hl
    rw [← ef] at hRH
    exact C144_salt sp C' hR.usable (planar_readied_series hR hF) hl hRH _ σ s.w.1 hrun (fun c => by rw [(hI.dry c).2]; exact ⟨le_rfl, zero_le_one⟩) j

theorem planar_initialised_plants {C C' : Planar.Config nx ny nf} {F : PlanarProgram.Files nx ny nf} {t : ℝ} {σ : Planar.State nx ny nf}
    (h : PlanarProgram.initialise C F t = some (.ok (C', σ))) : σ.veg = PlanarProgram.plants C F := by
  unfold PlanarProgram.initialise at h
  split at h
  · cases h
  · split at h
    · cases h
    · split at h
      · cases h
      · dsimp only at h
        split at h
        · cases h
        · cases h
        · cases h
          rfl

/-- **C147** Vegetation at the end of a run that returns, with densities of at most one in the file: with the height-based growth model heights are between zero
and the maximum, and densities between zero and one and equal to the square of the relative height. -/
theorem C147_vegetation (sp : LinSolve nx ny) (C : Planar.Config nx ny nf) (F : PlanarProgram.Files nx ny nf) (hS : PlanarStartable C F)
    (hacc : 0 < C.accfac) (c : Runner.Cfg ℝ) (rand : ℕ → ℕ → ℕ → ℝ) (solves : Planar.State nx ny nf × ℕ → ℕ) (restart : Runner.RestartArg)
    (walls : List (ℝ × ℝ)) (s : Runner.St ℝ (Planar.State nx ny nf × ℕ)) (r : ℝ × ℝ)
    (h : PlanarProgram.program sp C F rand solves c restart walls = .ok (some (s, r))) (horig : C.shelter.veg.orig = true) (hmax : 0 < C.shelter.veg.hmax)
    (hfile : ∀ file, F.veg = some file → ∀ i j, file i j ≤ 1) (i j : ℕ) :
    0 ≤ (s.w.1.veg i j).h ∧ (s.w.1.veg i j).h ≤ C.shelter.veg.hmax ∧ (s.w.1.veg i j).rho = ((s.w.1.veg i j).h / C.shelter.veg.hmax) ^ 2 ∧
      0 ≤ (s.w.1.veg i j).rho ∧ (s.w.1.veg i j).rho ≤ 1 := by
  obtain ⟨-, -, C', σ, hi, hI, hR, hrun, -⟩ := C147_returned sp C F hS hacc c rand solves restart walls s r h
  have em : C'.shelter.veg = C.shelter.veg := by rw [hR.same]
  have hv := planar_initialised_plants hi
  rw [← em] at horig hmax ⊢
  refine C144_vegetation_height sp C' hR.usable horig hmax _ σ s.w.1 hrun (fun i j => ?_) i j
  rw [em] at hmax ⊢
  rw [hv]
  unfold PlanarProgram.plants
  match hf : F.veg with
  | none => simp [hmax.le]
  | some file =>
    have h1 := hfile file hf i j
    have h2 : (if file i j < 0 then file i j * 0 else file i j) = max 0 (file i j) := by
      split_ifs with h0
      · rw [mul_zero, max_eq_left h0.le]
      · rw [max_eq_right (not_lt.mp h0)]
    have h3 : 0 ≤ max 0 (file i j) := le_max_left _ _
    have h4 : max 0 (file i j) ≤ 1 := max_le zero_le_one h1
    simp only [Veg.initCell, h2]
    refine ⟨mul_nonneg hmax.le (Real.sqrt_nonneg _), ?_, ?_, Or.inl trivial⟩
    · exact mul_le_of_le_one_right hmax.le (Real.sqrt_le_one.mpr h4)
    · rw [mul_div_cancel_left₀ _ hmax.ne', Real.sq_sqrt h3]

/-- **C147** Water and groundwater in the last time step of a run that returns: there is a state `ρ` before it, reached with one time step less, so that the
water is at or above its bed; with groundwater the groundwater is at the still water where that covers the bed and not above the bed elsewhere. -/
theorem C147_water (sp : LinSolve nx ny) (C : Planar.Config nx ny nf) (F : PlanarProgram.Files nx ny nf) (hS : PlanarStartable C F)
    (hacc : 0 < C.accfac) (c : Runner.Cfg ℝ) (rand : ℕ → ℕ → ℕ → ℝ) (solves : Planar.State nx ny nf × ℕ → ℕ) (restart : Runner.RestartArg)
    (walls : List (ℝ × ℝ)) (s : Runner.St ℝ (Planar.State nx ny nf × ℕ)) (r : ℝ × ℝ)
    (h : PlanarProgram.program sp C F rand solves c restart walls = .ok (some (s, r))) :
    ∃ C' σ ρ, PlanarProgram.initialise C F c.tstart = some (.ok (C', σ)) ∧ Planar.run sp C' (planarCalls rand (planarSteps C c - 1)) σ = some (.ok ρ) ∧
      (∀ c : Fin (cells nx ny), (ρ.core.sand.bed c).zb ≤ (s.w.1.water (rowIx c)).zs (colOf c)) ∧
      (C.ground.on = true → 1 ≤ C.ground.tfac → C.ground.tfac ≤ C.ts.dt → ∀ c : Fin (cells nx ny),
        let level := (s.w.1.water (rowIx c)).DSWL (colOf c)
        let gw := (s.w.1.hydro (rowIx c)).gw (colOf c)
        ((ρ.core.sand.bed c).zb < level → gw = level) ∧ (level ≤ (ρ.core.sand.bed c).zb → gw ≤ (ρ.core.sand.bed c).zb)) := by
  obtain ⟨-, -, C', σ, hi, hI, hR, hrun, -⟩ := C147_returned sp C F hS hacc c rand solves restart walls s r h
  have eg : C'.ground = C.ground := by rw [hR.same]
  have et : C'.ts = C.ts := by rw [hR.same]
  obtain ⟨ρ, h1, hu⟩ := planar_last_step sp C C' hR.usable c rand σ s.w.1 hrun
  refine ⟨C', σ, ρ, hi, h1, fun j => sub_nonneg.mp (C144_water sp C' hR.usable _ _ ρ s.w.1 hu j).1, fun hon ht hle j => ?_⟩
  rw [← eg] at hon ht hle
  rw [← et] at hle
  exact C144_groundwater sp C' hR.usable hon ht _ _ (by rw [if_neg (by norm_num)]; exact hle) ρ s.w.1 hu j

/-! ### Groundwater: when a run completes -/

/-- Water levels that the water module gives at time `t` over row `i` of a bed. -/
def PlanarLevels (C : Planar.Config nx ny nf) (bed : ℕ → ℕ → ℝ) (i : ℕ) (t : ℝ) (w' : Hydro.Water) : Prop :=
  ∃ zb w, (∀ j ≤ nx, zb j = bed i j) ∧
    Hydro.interpolate C.water ⟨zb, C.tideMask i, C.waveMask i, C.runupMask.map fun m => m i⟩ t w = .ok w'

/-- A beach for groundwater: steps of at least a second within a time step, a known landward boundary, and at all times, in every row, the first two cells are not
above the set-up level and some other cell is. -/
structure PlanarBeach (C : Planar.Config nx ny nf) (bed : ℕ → ℕ → ℝ) : Prop where
  steps : 1 ≤ C.ground.tfac ∧ C.ground.tfac ≤ C.ts.dt
  boundary : lower C.ground.boundary = "no_flow" ∨ lower C.ground.boundary = "static"
  shore : ∀ i ≤ ny, ∀ t w, PlanarLevels C bed i t w →
    bed i 0 ≤ w.DSWL 0 ∧ bed i 1 ≤ w.DSWL 1 ∧ ∃ j, 2 ≤ j ∧ j ≤ nx ∧ w.DSWL j < bed i j

theorem planar_zb_of {bed : ℕ → ℕ → ℝ} {σ : Planar.State nx ny nf} (h : ∀ c, (σ.core.sand.bed c).zb = bed (rowOf c) (colOf c)) (i j : ℕ) (hi : i ≤ ny)
    (hj : j ≤ nx) : σ.zb i j = bed i j := by
  obtain ⟨hc, e, m⟩ := grid_at (nx := nx) hi hj
  unfold Planar.State.zb Planar.grid
  rw [e, h]
  congr 1
  · show (i * (nx + 1) + j) / (nx + 1) = i
    rw [mul_comm, Nat.mul_add_div (by omega), Nat.div_eq_of_lt (by omega), add_zero]

theorem planar_hydro_returns {C : Planar.Config nx ny nf} {bed : ℕ → ℕ → ℝ} (hB : PlanarBeach C bed) (hon : C.ground.on = true) (hF : PlanarSeries C)
    (hdt : 0 < C.ts.dt) (hnx : 2 ≤ nx) (σ : Planar.State nx ny nf) (hz : ∀ c, (σ.core.sand.bed c).zb = bed (rowOf c) (colOf c)) :
    ∃ s, Hydro.gridStep C.water (fun i => ⟨σ.zb i, C.tideMask i, C.waveMask i, C.runupMask.map fun m => m i⟩)
      { C.ground with n := nx + 1 } (fun i => ⟨C.core.ds i, C.gwMask i, fun j => (C.g i j).1⟩) σ.clock.t C.ts.dt σ.hydro = .ok s := by
  obtain ⟨d, m, hs, -⟩ := C86_coverage C.ts.dt C.ground.tfac (by linarith [hB.steps.1]) hB.steps.2
  refine (C148_succeeds _ _ { C.ground with n := nx + 1 } _ _ _ _ hon hB.steps.1 hdt.le).mpr ⟨d, m, hs, hB.steps.2, hB.boundary, fun k _ i => ?_⟩
  have hin : (i : ℕ) ≤ ny := Nat.lt_succ_iff.mp i.2
  obtain ⟨w, hw⟩ := C60_never_fails C.water ⟨σ.zb i, C.tideMask i, C.waveMask i, C.runupMask.map fun m => m i⟩ (σ.clock.t + k * d) (σ.hydro i).water
    hF.tide hF.wave
  obtain ⟨h0, h1, j, hj, hjn, hd⟩ := hB.shore i hin _ w ⟨σ.zb i, (σ.hydro i).water, fun j hj => planar_zb_of hz i j hin hj, hw⟩
  refine ⟨w, hw, ?_, ?_, j, hj, Nat.lt_succ_of_le hjn, ?_⟩
  · show σ.zb i 0 ≤ _
    rw [planar_zb_of hz i 0 hin (by omega)]
    exact h0
  · show σ.zb i 1 ≤ _
    rw [planar_zb_of hz i 1 hin (by omega)]
    exact h1
  · show _ < σ.zb i j
    rw [planar_zb_of hz i j hin hjn]
    exact hd

/-- **C147** With groundwater on a beach a run in a breeze completes, and its last state has the bed of the bed file, clear air, and groundwater at the still water
where that covers the bed and not above the bed elsewhere. -/
theorem C147_breeze_ground (sp : LinSolve nx ny) (hsp : Exact sp) (C : Planar.Config nx ny nf) (F : PlanarProgram.Files nx ny nf) (hS : PlanarStartable C F)
    (hN : NamesOk C.core) (hF : PlanarSeries C) (hs : WindFromSector C F) (hon : C.ground.on = true) (hB : PlanarBeach C F.bed) (hacc : 0 < C.accfac)
    (c : Runner.Cfg ℝ) (hc : Asked c) (rand : ℕ → ℕ → ℕ → ℝ) (solves : Planar.State nx ny nf × ℕ → ℕ) (walls : List (ℝ × ℝ))
    (hw : planarSteps C c ≤ walls.length)
    (hin : NoInflow C.core) (hcs : 0 ≤ C.core.thr.csalt) (hmix : C.core.setup.mixing = false) (hlev : PlanarNoOtherChanges C)
    (hflat : PlanarSheltering C) (hmask : ∀ c, 1 ≤ (C.thresholdMask c).1) (umax z0 : ℝ) (hu : PlanarWindBelow C umax) (hz : PlanarRoughness C z0)
    (hlow : ∀ f, umax * |C.wind.kappa / Real.log (C.wind.z / z0)| ≤ grainThreshold C.core f) :
    ∃ s r, PlanarProgram.program sp C F rand solves c .absent walls = .ok (some (s, r)) ∧
      (∀ c, (s.w.1.core.sand.bed c).zb = F.bed (rowOf c) (colOf c)) ∧ (∀ c f, s.w.1.core.sand.Ct c f = 0) ∧
      ∀ c : Fin (cells nx ny),
        let level := (s.w.1.water (rowIx c)).DSWL (colOf c)
        let gw := (s.w.1.hydro (rowIx c)).gw (colOf c)
        (F.bed (rowOf c) (colOf c) < level → gw = level) ∧ (level ≤ F.bed (rowOf c) (colOf c) → gw ≤ F.bed (rowOf c) (colOf c)) := by
  have hready : ∀ C', PlanarReadied C F C' → ∀ (cs : List ((ℕ → ℕ → ℝ) × ℝ)) (σ τ : Planar.State nx ny nf),
      (∀ c, ∀ k < C.core.setup.bed.nl, ∀ f, 0 ≤ (σ.core.sand.bed c).mass k f) →
      (∀ c f, 0 ≤ (σ.core.cap c f).Cu0) → (∀ c f, σ.core.sand.Ct c f = 0) → (∀ c, (σ.moist c).salt ≤ 1) → (∀ i j, 0 ≤ (σ.veg i j).rho) →
      Planar.run sp C' cs σ = some (.ok τ) → Still C.core.setup.bed.nl σ.core τ.core := by
    intro C' hR cs σ τ h1 h2 h3 h4 h5 hrun
    have e := hR.same
    have hnl : C'.core.setup.bed.nl = C.core.setup.bed.nl := by rw [e]
    have hstill := C141_breeze_any sp hsp C' hR.usable (planar_readied_series hR hF) (planar_readied_sector hR hs)
      (by rw [e]; exact ⟨hin.off, hin.on⟩) (by rw [e]; exact hcs) (by rw [e]; exact hmix) (by rw [e]; exact hlev)
      (by rw [e]; exact ⟨hflat.shear, hflat.fences, hflat.plants⟩) (by rw [e]; exact hmask) umax z0 (planar_readied_below hR hu)
      (planar_readied_rough hR hz) (by rw [e]; exact hlow) cs σ τ (by rw [hnl]; exact h1) h2 h3 h4 h5 hrun
    rwa [hnl] at hstill
  obtain ⟨C', σ, τ, s, r, hi, hI, hR, hp, hsw, hrun, -⟩ := planar_completes_within sp C F hS c
    (fun σ => (∀ c, (σ.core.sand.bed c).zb = F.bed (rowOf c) (colOf c)) ∧
      (∀ c, ∀ k < C.core.setup.bed.nl, ∀ f, 0 ≤ (σ.core.sand.bed c).mass k f) ∧
      (∀ c f, 0 ≤ (σ.core.cap c f).Cu0) ∧ (∀ c f, σ.core.sand.Ct c f = 0) ∧ (∀ c, (σ.moist c).salt ≤ 1) ∧ (∀ i j, 0 ≤ (σ.veg i j).rho))
    (fun σ hI => ⟨hI.bed, hI.sound.sand.mass, fun c f => (hI.sound.cap c f).2.2, hI.air, fun c => by rw [(hI.dry c).2]; exact zero_le_one,
      planar_initial_plants hI⟩)
    (by
      rintro C' hR r σ ⟨h0, h1, h2, h3, h4, h5⟩
      have hB' : PlanarBeach C' F.bed := by
        rw [hR.same]
        exact ⟨hB.steps, hB.boundary, hB.shore⟩
      have hon' : C'.ground.on = true := by rw [hR.same]; exact hon
      have hdt' : 0 < C'.ts.dt := by rw [hR.same]; exact hS.step.2.1
      obtain ⟨τ, b, hu', h2'⟩ := (C140_returns sp C' hR.usable (planar_readied_names hR hN) (planar_readied_series hR hF) (planar_readied_sector hR hs)
        r (-1) σ h2).mpr (Or.inr (by
          rw [if_neg (by norm_num)]
          exact planar_hydro_returns hB' hon' (planar_readied_series hR hF) hdt' hS.columns σ h0))
      obtain ⟨-, -, -, hs1, hs2⟩ := C140_step sp C' hR.usable r (-1) σ τ b hu'
      have hst := hready C' hR [(r, -1)] σ τ h1 h2 h3 h4 h5 (by unfold Planar.run; simp only [hu']; rfl)
      exact ⟨τ, b, hu', fun c => (hst.level c).trans (h0 c), fun c k hk f => by rw [hst.mass c k hk]; exact h1 c k hk f, h2', hst.air, hs1 h4, hs2 h5⟩)
    hacc hc rand solves walls hw
  obtain ⟨σ', -, hb, -, ha⟩ := C147_breeze_any sp hsp C F hS hF hs hacc c rand solves .absent walls s r hp hin hcs hmix hlev hflat hmask umax z0 hu hz hlow
  refine ⟨s, r, hp, hb, ha, fun d => ?_⟩
  rw [hsw]
  obtain ⟨ρ, h1, h2⟩ := planar_last_step sp C C' hR.usable c rand σ τ hrun
  have hst := hready C' hR _ σ ρ hI.sound.sand.mass (fun c f => (hI.sound.cap c f).2.2) hI.air
    (fun c => by rw [(hI.dry c).2]; exact zero_le_one) (planar_initial_plants hI) h1
  rw [← (hst.level d).trans (hI.bed d)]
  have eg : C'.ground = C.ground := by rw [hR.same]
  have et : C'.ts = C.ts := by rw [hR.same]
  exact C144_groundwater sp C' hR.usable (by rw [eg]; exact hon) (by rw [eg]; exact hB.steps.1) _ _
    (by rw [if_neg (by norm_num), eg, et]; exact hB.steps.2) ρ τ h2 d

theorem planar_update_fails (sp : LinSolve nx ny) (C : Planar.Config nx ny nf) (hC : PlanarUsable C) (hF : PlanarSeries C) (r : ℕ → ℕ → ℝ)
    (σ : Planar.State nx ny nf) (e : PyErr)
    (h : Hydro.gridStep C.water (fun i => ⟨σ.zb i, C.tideMask i, C.waveMask i, C.runupMask.map fun m => m i⟩)
      { C.ground with n := nx + 1 } (fun i => ⟨C.core.ds i, C.gwMask i, fun j => (C.g i j).1⟩) σ.clock.t C.ts.dt σ.hydro = .error e) :
    Planar.update sp C r (-1) σ = some (.error e) := by
  obtain ⟨w, hw⟩ := planar_windNow_total C hF σ
  obtain ⟨z, hzr, hz0, hz1⟩ := hC.rough
  have hz := planar_roughnesses C z hzr σ w.1
  obtain ⟨res, hres⟩ := stresses_total C σ (windComponents C w) (shear0 C σ w fun _ => z) hF.bubbles
  let Q := prepared C σ (windComponents C w) res (shearNow C σ (windComponents C w) res (shear0 C σ w fun _ => z))
  have hk := planar_timestep C hC (tsGrids C Q (windComponents C w)) Q.clock (-1)
  rw [if_neg (lt_irrefl _), if_neg (by norm_num)] at hk
  let ρ : Planar.State nx ny nf := { Q with clock := { Q.clock with dt := C.ts.dt } }
  obtain ⟨met, hmet⟩ := planar_meteo_total C hF (Hydro.lastTime C.ground ρ.clock.t ρ.clock.dt)
  have hh : waters C ρ ρ.clock.t ρ.clock.dt = .error e := h
  have hex : Planar.execute sp C r (windComponents C w) (shear0 C σ w fun _ => z) ρ = some (.error e) := by
    unfold Planar.execute
    simp only [hmet, hh]
  unfold Planar.update
  simp only [hw, hz, hres]
  show (if (setTimestep C.ts (tsGrids C Q (windComponents C w)) Q.clock (-1)).2 = true then
      match Planar.execute sp C r (windComponents C w) (shear0 C σ w fun _ => z)
        { Q with clock := (setTimestep C.ts (tsGrids C Q (windComponents C w)) Q.clock (-1)).1 } with
      | none => none
      | some (.error e) => some (.error e)
      | some (.ok τ) => some (.ok (τ, true))
    else some (.ok ({ Q with clock := (setTimestep C.ts (tsGrids C Q (windComponents C w)) Q.clock (-1)).1 }, false)))
      = (some (.error e) : Option (Except PyErr (Planar.State nx ny nf × Bool)))
  rw [hk]
  simp only [if_true]
  rw [hex]

theorem error_of_not_ok {α ε : Type*} {x : Except ε α} (h : ¬ ∃ s, x = .ok s) : ∃ e, x = .error e := by
  cases x with
  | error e => exact ⟨e, rfl⟩
  | ok s => exact absurd ⟨s, rfl⟩ h

/-- **C147** (finding) With groundwater a run on a bed file with a row whose first or second cell is above the set-up level at the start, or that lies nowhere above
it, ends with an exception in the first time step. -/
theorem C147_no_shoreline_fails (sp : LinSolve nx ny) (C : Planar.Config nx ny nf) (F : PlanarProgram.Files nx ny nf) (hS : PlanarStartable C F)
    (hF : PlanarSeries C) (hon : C.ground.on = true) (hsteps : 1 ≤ C.ground.tfac) (c : Runner.Cfg ℝ) (hc : Asked c) (i : ℕ) (hin : i ≤ ny)
    (hdry : ∀ w, PlanarLevels C F.bed i c.tstart w → w.DSWL 0 < F.bed i 0 ∨ w.DSWL 1 < F.bed i 1 ∨ ∀ j ≤ nx, F.bed i j ≤ w.DSWL j)
    (rand : ℕ → ℕ → ℕ → ℝ) (solves : Planar.State nx ny nf × ℕ → ℕ) (walls : List (ℝ × ℝ)) (hw : walls ≠ []) :
    ∃ e, PlanarProgram.program sp C F rand solves c .absent walls = .error e := by
  obtain ⟨C', σ, hi, hI, hR⟩ := C147_initialise C F hS c.tstart
  have hcl : σ.clock.t = c.tstart := hI.clock
  have hF' := planar_readied_series hR hF
  have hnx := hS.columns
  have hnot : ¬ ∃ s, Hydro.gridStep C'.water (fun i => ⟨σ.zb i, C'.tideMask i, C'.waveMask i, C'.runupMask.map fun m => m i⟩)
      { C'.ground with n := nx + 1 } (fun i => ⟨C'.core.ds i, C'.gwMask i, fun j => (C'.g i j).1⟩) σ.clock.t C'.ts.dt σ.hydro = .ok s := by
    have eg : C'.ground = C.ground := by rw [hR.same]
    have et : C'.ts = C.ts := by rw [hR.same]
    intro hgo
    obtain ⟨d, m, hs, hle, -, hall⟩ := (C148_succeeds _ _ { C'.ground with n := nx + 1 } _ _ _ _ (by rw [eg]; exact hon) (by rw [eg]; exact hsteps)
      (by rw [et]; exact hS.step.2.1.le)).mp hgo
    have hm : 0 < m := by
      obtain ⟨d', m', hs', -, -, -, -, h5⟩ := C86_coverage C'.ts.dt C'.ground.tfac (by rw [eg]; linarith) hle
      have := hs.symm.trans hs'
      simp only [Except.ok.injEq, Prod.mk.injEq] at this
      rw [this.2]
      exact h5 (by rw [eg]; exact hsteps)
    obtain ⟨w, hw, h0, h1, j, hj, hjn, hd⟩ := hall 0 hm ⟨i, Nat.lt_succ_of_le hin⟩
    rw [Nat.cast_zero, zero_mul, add_zero, hcl] at hw
    have hz := fun j hj => planar_zb_of (σ := σ) (bed := F.bed) hI.bed i j hin hj
    have hL : PlanarLevels C F.bed i c.tstart w := by
      refine ⟨σ.zb i, (σ.hydro ⟨i, Nat.lt_succ_of_le hin⟩).water, hz, ?_⟩
      rw [hR.same] at hw
      exact hw
    have h0 : σ.zb i 0 ≤ w.DSWL 0 := h0
    have h1 : σ.zb i 1 ≤ w.DSWL 1 := h1
    have hd : w.DSWL j < σ.zb i j := hd
    have hjn : j < nx + 1 := hjn
    rw [hz 0 (by omega)] at h0
    rw [hz 1 (by omega)] at h1
    rw [hz j (by omega)] at hd
    rcases hdry w hL with h | h | h
    · exact absurd h0 (not_le.mpr h)
    · exact absurd h1 (not_le.mpr h)
    · exact absurd (h j (by omega)) (not_le.mpr hd)
  obtain ⟨e, he⟩ := error_of_not_ok hnot
  have hup := planar_update_fails sp C' hR.usable hF' (rand 0) σ e he
  refine ⟨e, ?_⟩
  unfold PlanarProgram.program
  simp only [hi]
  unfold Runner.run
  simp only [Runner.loadRestart]
  have ho : ∃ s, Runner.outputWrite c (PlanarProgram.engine sp C' rand) (Runner.St.init (σ, 0)) = .ok s ∧ s.w = (σ, 0) ∧ s.hasClear = true := by
    have hf : σ.clock.t - 0 ≥ c.outputTimes ∨ σ.clock.t = 0 := by
      rw [hcl, sub_zero]
      exact hc.first.symm.imp id id
    unfold Runner.outputWrite
    simp only [PlanarProgram.engine, Runner.St.init, hc.restart, hc.snapshot]
    rw [if_pos hf]
    exact ⟨_, if_neg (by simp), rfl, by simp⟩
  obtain ⟨s, ho, hsw, hcr⟩ := ho
  simp only [ho]
  obtain ⟨a, l, rfl⟩ := List.exists_cons_of_ne_nil hw
  have hle : (PlanarProgram.engine sp C' rand).time s.w ≤ c.tstop := by
    show s.w.1.clock.t ≤ _
    rw [hsw]
    exact hcl.le.trans hc.time.le
  have hr : Runner.round c (PlanarProgram.engine sp C' rand) a s = .error e := by
    unfold Runner.round Runner.runnerUpdate Runner.runCallback
    have : (PlanarProgram.engine sp C' rand).update s.w = .error e := by
      rw [hsw]
      show (match Planar.update sp C' (rand 0) (-1) σ with
        | none => Except.error PyErr.valueError
        | some (.error e) => .error e
        | some (.ok (σ, b)) => .ok (σ, if b then 0 + 1 else 0)) = _
      rw [hup]
    simp [PlanarProgram.engine, hcr] at this ⊢
    rw [this]
    rfl
  unfold Runner.loop
  rw [if_pos hle, hr]

/-! ### Examples -/

/-- Three rows of ten cells with groundwater in a breeze of 3 m/s. -/
noncomputable def calmMarsh : Planar.Config 9 2 1 := { marshConfig with wind := (bayConfig 3 false).wind }

/-- A bed that rises a metre from column to column, from `z` on. -/
def marshFiles (z : ℝ) : PlanarProgram.Files 9 2 1 where
  bed := fun _ j => j + z
  bedcomp := none
  grainDist := .single fun _ => 1
  intDtype := false
  veg := none
  fence := fun _ _ => 0
  convention := "nautical"

theorem marsh_startable (z : ℝ) : PlanarStartable calmMarsh (marshFiles z) where
  core := duneConfig_ok
  columns := by norm_num
  rows := le_rfl
  coordinates := by simp [calmMarsh, marshConfig]
  speed := rfl
  kappa := by norm_num [calmMarsh, bayConfig]
  rough := ⟨0.001, Or.inl ⟨rfl, rfl⟩, by norm_num, by norm_num [calmMarsh, bayConfig]⟩
  weights := fun _ _ => by norm_num [calmMarsh, marshConfig]
  mask := fun _ => by norm_num [calmMarsh, marshConfig]
  step := ⟨rfl, by norm_num [calmMarsh, marshConfig], rfl⟩
  density := by norm_num [calmMarsh, marshConfig, duneConfig]
  layers := fun _ => rfl
  composition := ⟨rfl, ⟨fun _ => zero_le_one, by simp⟩⟩
  convention := Or.inr (Or.inl rfl)

theorem calmMarsh_series : PlanarSeries calmMarsh where
  wind := (bay_files 3 false).wind
  tide := marsh_series.tide
  wave := marsh_series.wave
  moist := marsh_series.moist
  salt := fun h => by cases h
  meteo := fun rows h => by cases h
  dune := fun h => by cases h
  bubbles := fun _ => rfl

theorem marsh_over {bed : ℕ → ℕ → ℝ} {i : ℕ} {t : ℝ} {w : Hydro.Water} (h : PlanarLevels calmMarsh bed i t w) (j : ℕ) : 0 ≤ w.DSWL j ∧ w.DSWL j ≤ 1 := by
  obtain ⟨zb, v, -, hw⟩ := h
  obtain ⟨h1, h2⟩ := rising_levels zb t v w hw
  rw [h1]
  exact h2 j

theorem marsh_beach : PlanarBeach calmMarsh (marshFiles (-2)).bed where
  steps := by norm_num [calmMarsh, marshConfig, floodGround]
  boundary := Or.inl (by show lower "no_flow" = "no_flow"; decide +kernel)
  shore := fun i _ t w h => by
    refine ⟨?_, ?_, 5, by norm_num, by norm_num, ?_⟩
    · have := (marsh_over h 0).1; norm_num [marshFiles]; linarith
    · have := (marsh_over h 1).1; norm_num [marshFiles]; linarith
    · have := (marsh_over h 5).2; norm_num [marshFiles]; linarith

theorem marsh_wind_sector (z : ℝ) : WindFromSector calmMarsh (marshFiles z) := bay_wind_sector 3 (by norm_num) false

theorem marsh_steps : planarSteps calmMarsh twoDays = 49 := by
  unfold planarSteps
  have : (twoDays.tstop - twoDays.tstart) / (calmMarsh.ts.dt * calmMarsh.accfac) = (48 : ℕ) := by
    norm_num [twoDays, calmMarsh, marshConfig]
  rw [this, Nat.floor_natCast]

/-- C147: two days with groundwater on a beach of three rows. -/
example (rand : ℕ → ℕ → ℕ → ℝ) (solves : Planar.State 9 2 1 × ℕ → ℕ) (walls : List (ℝ × ℝ)) (hw : 49 ≤ walls.length) :
    ∃ s r, PlanarProgram.program byInverse calmMarsh (marshFiles (-2)) rand solves twoDays .absent walls = .ok (some (s, r)) ∧ s.w.2 = 49 ∧
      (∀ c, (s.w.1.core.sand.bed c).zb = colOf c + (-2)) ∧
      (∀ c, 0 ≤ (s.w.1.moist c).moist ∧ (s.w.1.moist c).moist ≤ calmMarsh.moist.porosity) := by
  obtain ⟨s, r, hp, hb, -, hg⟩ := C147_breeze_ground byInverse byInverse_exact calmMarsh (marshFiles (-2)) (marsh_startable _) duneConfig_names
    calmMarsh_series (marsh_wind_sector _) rfl marsh_beach one_pos twoDays twoDays_asked rand solves walls (hw.trans' marsh_steps.le)
    ⟨⟨fun _ => rfl, fun _ => rfl⟩, fun _ => rfl, fun _ => rfl⟩ (by norm_num [calmMarsh, marshConfig, duneConfig, exThreshold]) rfl ⟨rfl, rfl, rfl⟩
    ⟨(bay_sheltering 3).shear, rfl, fun _ => ⟨by norm_num [calmMarsh, marshConfig], fun _ _ => by norm_num [calmMarsh, marshConfig],
      fun _ => by norm_num [calmMarsh, marshConfig, cells]⟩⟩
    (fun _ => le_rfl) 3 0.001 ⟨rfl, _, rfl, by norm_num⟩ (Or.inl ⟨rfl, rfl⟩) (fun f => by
      show (3 : ℝ) * |0.41 / Real.log (10 / 0.001)| ≤ grainThreshold duneConfig f
      rw [abs_of_nonneg coast_ratio.1]
      exact le_trans (by linarith [coast_ratio.2]) (coast_grains f))
  refine ⟨s, r, hp, ?_, hb, fun c => ?_⟩
  · rw [(C147_returned byInverse _ _ (marsh_startable _) one_pos twoDays rand solves _ walls s r hp).2.1, marsh_steps]
  · exact (C147_moisture byInverse _ _ (marsh_startable _) calmMarsh_series one_pos twoDays rand solves _ walls s r hp c).1 rfl
      (by show lower "infiltration" = "infiltration"; decide +kernel) (by norm_num [calmMarsh, marshConfig, bayConfig])

/-- C147: a grid that begins two metres above still water cannot be run with groundwater. -/
example (rand : ℕ → ℕ → ℕ → ℝ) (solves : Planar.State 9 2 1 × ℕ → ℕ) (walls : List (ℝ × ℝ)) (hw : walls ≠ []) :
    ∃ e, PlanarProgram.program byInverse calmMarsh (marshFiles 2) rand solves twoDays .absent walls = .error e :=
  C147_no_shoreline_fails byInverse calmMarsh (marshFiles 2) (marsh_startable _) calmMarsh_series rfl marsh_beach.steps.1
    twoDays twoDays_asked 1 (by norm_num) (fun w h => Or.inl (by have := (marsh_over h 0).2; norm_num [marshFiles]; linarith)) rand solves walls hw

end

end Aeolis.Props
