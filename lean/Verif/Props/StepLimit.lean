import Verif.Props.Run
import Verif.Props.PlanarExamples
import Verif.Props.FullRun

/-!
# The time step of a complete call of `update`
-/

namespace Aeolis.Props

open Finset Aeolis.Spec Aeolis.Sand Aeolis.Solver Aeolis.Whole

/-- The length `s` of a time step under the limits of the documentation: `dt` the length asked for, `prev` the length of the step before,
`us` and `un` the components of the wind, `ds` and `dn` the sizes of the cells, `dzb` the change of the bed level in the step before. -/
structure WithinLimits {ι : Type*} (p : TsParams ℝ) (us un : ℝ) (ds dn dzb : ι → ℝ) (prev dt s : ℝ) : Prop where
  requested : s ≤ if 0 < dt then dt else p.dt
  courant : p.explicit = true → 0 < p.CFL → (∀ i, 0 < ds i) → (∀ i, 0 < dn i) → ∀ i, |us| * s / ds i + |un| * s / dn i ≤ p.CFL
  bed : p.maxChange ≠ 999 → 0 < prev → ∀ i, 0 < dzb i → s * (dzb i / prev) ≤ max p.maxChange 0
  attained : s = (if 0 < dt then dt else p.dt) ∨
    (p.explicit = true ∧ ∃ i j, s * (|us| / ds i + |un| / dn j) = p.CFL) ∨
    (p.maxChange ≠ 999 ∧ ∃ i, s * dzb i = prev * p.maxChange)

theorem withinLimits {ι : Type*} [Fintype ι] [Nonempty ι] (p : TsParams ℝ) (us un : ℝ) (ds dn dzb : ι → ℝ) (c c' : Clock ℝ) (dt : ℝ)
    (h : setTimestep p ⟨fun _ => us, ds, fun _ => un, dn, dzb⟩ c dt = (c', true)) : WithinLimits p us un ds dn dzb c.dtPrev dt c'.dt where
  requested := by
    obtain ⟨h1, h2⟩ := C20_step_at_most_requested _ _ _ _ _ h
    split_ifs with hd
    · exact h1 hd
    · exact h2 (not_lt.mp hd)
  courant := fun hx hc hds hdn i => C21_cfl_in_every_cell _ _ _ _ _ hx hc hds hdn h i
  bed := fun h9 hp i hi => C20_bed_rise_limited _ _ _ _ _ h h9 hp i hi
  attained := by
    have key : ∀ c0 : Clock ℝ, c0.dtPrev = c.dtPrev → (limitBedChange p ⟨fun _ => us, ds, fun _ => un, dn, dzb⟩ c0).dt = c0.dt ∨
        (p.maxChange ≠ 999 ∧ ∃ i, (limitBedChange p ⟨fun _ => us, ds, fun _ => un, dn, dzb⟩ c0).dt * dzb i = c.dtPrev * p.maxChange) := by
      intro c0 h0
      unfold limitBedChange
      split_ifs with hl
      · obtain ⟨h9, hm, -⟩ := hl
        simp only at hm ⊢
        rcases min_choice c0.dt (c0.dtPrev * p.maxChange / gridMax dzb) with e | e
        · exact .inl e
        · refine .inr ⟨h9, ?_⟩
          obtain ⟨i, hi⟩ := exists_gridMax dzb
          refine ⟨i, ?_⟩
          rw [e, ← hi, h0]
          field_simp
      · exact .inl rfl
    unfold setTimestep at h
    split at h
    · cases h
    · simp only at h
      split at h
      · rename_i hx
        split at h
        · rename_i hr
          injection h with h _
          subst h
          rcases key { c with dt := min (if 0 < dt then dt else p.dt) (p.CFL / dtref ⟨fun _ => us, ds, fun _ => un, dn, dzb⟩) } rfl with e | e
          · rw [e]
            rcases min_choice (if 0 < dt then dt else p.dt) (p.CFL / dtref ⟨fun _ => us, ds, fun _ => un, dn, dzb⟩) with e | e
            · exact .inl e
            · refine .inr (.inl ⟨hx.1, ?_⟩)
              obtain ⟨i, hi⟩ := exists_gridMax fun i => |us| / ds i
              obtain ⟨j, hj⟩ := exists_gridMax fun i => |un| / dn i
              refine ⟨i, j, ?_⟩
              have hd : dtref ⟨fun _ => us, ds, fun _ => un, dn, dzb⟩ = |us| / ds i + |un| / dn j := by
                unfold dtref
                rw [hi, hj]
              rw [e, ← hd]
              field_simp
          · exact .inr (.inr e)
        · cases h
      · injection h with h _
        subst h
        rcases key { c with dt := if 0 < dt then dt else p.dt } rfl with e | e
        · exact .inl e
        · exact .inr (.inr e)

/-- An executed step keeps the other fields of the clock. -/
theorem setTimestep_clock {ι : Type*} [Fintype ι] [Nonempty ι] (p : TsParams ℝ) (g : TsGrids ℝ ι) (c c' : Clock ℝ) (dt : ℝ)
    (h : setTimestep p g c dt = (c', true)) : c' = { c with dt := c'.dt } := by
  have hl : ∀ c0 : Clock ℝ, c0.t = c.t → c0.dtPrev = c.dtPrev → limitBedChange p g c0 = { c with dt := (limitBedChange p g c0).dt } := by
    intro c0 h1 h2
    unfold limitBedChange
    split_ifs <;> cases c0 <;> simp_all
  unfold setTimestep at h
  split at h
  · cases h
  · simp only at h
    split at h
    · split at h
      · injection h with h _
        subst h
        exact hl _ rfl rfl
      · cases h
    · injection h with h _
      subst h
      exact hl _ rfl rfl

/-- The same step results from asking for it with the limits off. -/
theorem setTimestep_unlimited {ι : Type*} [Fintype ι] [Nonempty ι] (p : TsParams ℝ) (g : TsGrids ℝ ι) (c c' : Clock ℝ) (dt : ℝ)
    (h : setTimestep p g c dt = (c', true)) (h0 : 0 < c'.dt) :
    setTimestep { p with explicit := false, maxChange := 999 } g c c'.dt = (c', true) := by
  have key := setTimestep_clock p g c c' dt h
  have hd : ¬ c'.dt < -1 := by linarith
  unfold setTimestep limitBedChange
  simp [hd, h0]
  exact key.symm

/-- An implicit step with a positive limit on the change of the bed level, if the bed did not fall everywhere in the step before. -/
theorem setTimestep_implicit {ι : Type*} [Fintype ι] [Nonempty ι] (p : TsParams ℝ) (dzb : ι → ℝ) (prev dt : ℝ) (hx : p.explicit = false)
    (hM : 0 < p.maxChange) (h1 : -1 ≤ dt) (hdt : 0 < dt ∨ 0 < p.dt) (hc : 0 ≤ prev) (hz : ∃ i, 0 ≤ dzb i) :
    ∃ s, 0 < s ∧ (s ≤ if 0 < dt then dt else p.dt) ∧ ∀ (k : Clock ℝ) (g : TsGrids ℝ ι), k.dtPrev = prev → g.dzb = dzb →
      setTimestep p g k dt = setTimestep { p with explicit := false, maxChange := 999 } g k s := by
  have e : ∀ (k : Clock ℝ) (g : TsGrids ℝ ι), setTimestep p g k dt = (limitBedChange p g { k with dt := if 0 < dt then dt else p.dt }, true) := by
    intro k g
    unfold setTimestep
    rw [if_neg (not_lt.mpr h1)]
    simp [hx]
  have e0 := e ⟨0, 0, prev⟩ ⟨dzb, dzb, dzb, dzb, dzb⟩
  have hs := C20_step_positive_partial _ _ _ _ _ e0 hdt (.inr ⟨hM, hc, hz⟩)
  refine ⟨_, hs, ?_, fun k g hk hg => ?_⟩
  · obtain ⟨h1, h2⟩ := C20_step_at_most_requested _ _ _ _ _ e0
    split_ifs with hd
    · simpa [hd] using h1 hd
    · simpa [hd] using h2 (not_lt.mp hd)
  · have hd : (limitBedChange p g { k with dt := if 0 < dt then dt else p.dt }).dt =
        (limitBedChange p ⟨dzb, dzb, dzb, dzb, dzb⟩ ⟨0, if 0 < dt then dt else p.dt, prev⟩).dt := by
      unfold limitBedChange
      simp only [hk, hg]
      split_ifs <;> rfl
    have h := setTimestep_unlimited p g k _ dt (e k g) (by rw [hd]; exact hs)
    rw [hd] at h
    exact (e k g).trans h.symm

theorem forall₂_requested {α : Type*} (d : ℝ) (h : 0 < d) (xs : List (α × ℝ)) :
    List.Forall₂ (fun x y => y.1 = x.1 ∧ 0 < y.2 ∧ y.2 ≤ if 0 < x.2 then x.2 else d) xs (xs.map fun y => (y.1, if 0 < y.2 then y.2 else d)) := by
  induction xs with
  | nil => exact .nil
  | cons x xs ih =>
    refine .cons ⟨rfl, ?_, le_rfl⟩ ih
    simp only
    split_ifs with hx
    · exact hx
    · exact h

section Transect

open Aeolis.Full

variable {nx nf : ℕ}

/-- **C155** An executed call of `update` on a transect, whatever the settings, moves the clock by a time step that is not longer than asked
for, keeps the Courant number of the wind of the file in every cell below the limit if the scheme is explicit, keeps the rise of the bed below its
limit at the pace of the step before, and is not shorter than one of these demands. -/
theorem C155_transect (sp : LinSolve nx 0) (C : Full.Config nx nf) (r : ℕ → ℝ) (dt : ℝ) (σ τ : Full.State nx nf)
    (h : Full.update sp C r dt σ = some (.ok (τ, true))) (file : List Wind.Record) (hp : C.wind.processWind = true)
    (hf : C.wind.file = some file) : ∃ v d, Wind.windAt file σ.clock.t = some (v, d) ∧ -1 ≤ dt ∧
      τ.clock.t = σ.clock.t + τ.clock.dt * C.accfac ∧
      WithinLimits C.ts (-v * Real.sin ((d - C.wind.alfa + C.alpha) / 180 * Real.pi))
        (-v * Real.cos ((d - C.wind.alfa + C.alpha) / 180 * Real.pi)) (fun c : Fin (cells nx 0) => C.core.ds 0 c)
        (fun c => C.core.dn 0 c) (fun c => (σ.core.sand.bed c).dzb) σ.clock.dt dt τ.clock.dt := by
  obtain ⟨w, z0, hw, -, hb, -, hT⟩ := Full.update_ok h
  obtain ⟨met, h', m, E, ρ, zb, -, -, -, -, -, -, rfl⟩ := Full.execute_ok (hT rfl)
  have hwin : Wind.windAt file σ.clock.t = some (w.1, w.2) := by
    unfold windNow at hw
    rw [hp, hf] at hw
    simp only at hw
    split at hw
    · cases hw
    · rename_i w' hw'
      rw [hw', Except.ok.inj hw]
  obtain ⟨e1, e2⟩ := Full.components_direction C w
  refine ⟨w.1, w.2, hwin, ?_, ?_, ?_⟩
  · by_contra hd
    unfold setTimestep at hb
    rw [if_pos (not_le.mp hd)] at hb
    cases hb
  · exact congrArg (fun k : Clock ℝ => k.t + k.dt * C.accfac) (setTimestep_clock _ _ _ _ _ (Prod.ext rfl hb.symm))
  · rw [← e1, ← e2]
    exact withinLimits _ _ _ _ _ _ _ _ _ (Prod.ext rfl hb.symm)

/-- The same settings without limits on the time step. -/
def unlimited (C : Full.Config nx nf) : Full.Config nx nf := { C with ts := { C.ts with explicit := false, maxChange := 999 } }

theorem transect_update_ts (sp : LinSolve nx 0) (C : Full.Config nx nf) (r : ℕ → ℝ) (dt s : ℝ) (σ : Full.State nx nf)
    (h : ∀ (k : Clock ℝ) (g : TsGrids ℝ (Fin (cells nx 0))), k.dtPrev = σ.clock.dt → g.dzb = (fun c => (σ.core.sand.bed c).dzb) →
      setTimestep C.ts g k dt = setTimestep (unlimited C).ts g k s) :
    Full.update sp C r dt σ = Full.update sp (unlimited C) r s σ := by
  unfold Full.update
  have e : ∀ now w z0, setTimestep C.ts (tsGrids C (prepared C σ w z0) now) (prepared C σ w z0).clock dt = _ :=
    fun now w z0 => h (prepared C σ w z0).clock (tsGrids C (prepared C σ w z0) now) rfl rfl
  simp only [e]
  rfl

theorem transect_update_of {sp : LinSolve nx 0} {C : Full.Config nx nf} {r : ℕ → ℝ} {dt : ℝ} {σ τ : Full.State nx nf} {w : ℝ × ℝ}
    {z0 : Fin (cells nx 0) → ℝ} {k : Clock ℝ} (hw : windNow C σ = .ok w) (hz : roughnesses C σ w.1 = some (.ok z0))
    (hk : setTimestep C.ts (tsGrids C (prepared C σ w z0) (windComponents C w)) (prepared C σ w z0).clock dt = (k, true))
    (he : execute sp C r (windComponents C w) (shear0 C σ w z0) { prepared C σ w z0 with clock := k } = some (.ok τ)) :
    Full.update sp C r dt σ = some (.ok (τ, true)) := by
  unfold Full.update
  simp only [hw, hz, hk, he, if_true]

/-- **C155** Whatever the limits on the time step, an executed call of `update` with a positive time step does what a call with this time step
does without limits. -/
theorem C155_transect_unlimited (sp : LinSolve nx 0) (C : Full.Config nx nf) (r : ℕ → ℝ) (dt : ℝ) (σ τ : Full.State nx nf)
    (h : Full.update sp C r dt σ = some (.ok (τ, true))) (h0 : 0 < τ.clock.dt) :
    Full.update sp (unlimited C) r τ.clock.dt σ = some (.ok (τ, true)) := by
  obtain ⟨w, z0, hw, hz, hb, -, hT⟩ := Full.update_ok h
  have hT := hT rfl
  have hd : τ.clock.dt =
      (setTimestep C.ts (tsGrids C (prepared C σ w z0) (windComponents C w)) (prepared C σ w z0).clock dt).1.dt := by
    obtain ⟨met, h', m, E, ρ, zb, -, -, -, -, -, -, rfl⟩ := Full.execute_ok hT
    rfl
  have e := setTimestep_unlimited _ _ _ _ _ (Prod.ext rfl hb.symm) (hd ▸ h0)
  rw [← hd] at e
  exact transect_update_of hw hz e hT

/-- **C155** With an implicit scheme and a positive limit on the change of the bed level, a call of `update` does what a call with some positive
time step, not longer, does without limit, failures included, if the bed did not fall in all cells in the step before. -/
theorem C155_transect_limited (sp : LinSolve nx 0) (C : Full.Config nx nf) (hx : C.ts.explicit = false) (hM : 0 < C.ts.maxChange)
    (r : ℕ → ℝ) (dt : ℝ) (h1 : -1 ≤ dt) (hdt : 0 < dt ∨ 0 < C.ts.dt) (σ : Full.State nx nf) (hc : 0 ≤ σ.clock.dt)
    (hz : ∃ c, 0 ≤ (σ.core.sand.bed c).dzb) :
    ∃ s, 0 < s ∧ (s ≤ if 0 < dt then dt else C.ts.dt) ∧ Full.update sp C r dt σ = Full.update sp (unlimited C) r s σ := by
  obtain ⟨s, h0, hs, h⟩ := setTimestep_implicit C.ts (fun c => (σ.core.sand.bed c).dzb) σ.clock.dt dt hx hM h1 hdt hc hz
  exact ⟨s, h0, hs, transect_update_ts sp C r dt s σ h⟩

/-- **C155** So does a run. -/
theorem C155_transect_run (sp : LinSolve nx 0) (C : Full.Config nx nf) (hx : C.ts.explicit = false) (hM : 0 < C.ts.maxChange)
    (hd : 0 < C.ts.dt) (calls : List ((ℕ → ℝ) × ℝ)) (h1 : ∀ x ∈ calls, -1 ≤ x.2) (σ : Full.State nx nf)
    (hz : ∀ k < calls.length, ∀ ρ, Full.run sp C (calls.take k) σ = some (.ok ρ) → 0 ≤ ρ.clock.dt ∧ ∃ c, 0 ≤ (ρ.core.sand.bed c).dzb) :
    ∃ calls' : List ((ℕ → ℝ) × ℝ), List.Forall₂ (fun x y => y.1 = x.1 ∧ 0 < y.2 ∧ y.2 ≤ if 0 < x.2 then x.2 else C.ts.dt) calls calls' ∧
      Full.run sp C calls σ = Full.run sp (unlimited C) calls' σ := by
  induction calls generalizing σ with
  | nil => exact ⟨[], .nil, rfl⟩
  | cons x xs ih =>
    obtain ⟨hc, hb⟩ := hz 0 (by simp) σ rfl
    obtain ⟨s, h0, hs, e⟩ := C155_transect_limited sp C hx hM x.1 x.2 (h1 x (by simp)) (.inr hd) σ hc hb
    match hu : Full.update sp (unlimited C) x.1 s σ with
    | none =>
      refine ⟨(x.1, s) :: xs.map fun y => (y.1, if 0 < y.2 then y.2 else C.ts.dt), .cons ⟨rfl, h0, hs⟩ ?_, ?_⟩
      · exact forall₂_requested _ hd xs
      · unfold Full.run
        simp only [e, hu]
    | some (.error er) =>
      refine ⟨(x.1, s) :: xs.map fun y => (y.1, if 0 < y.2 then y.2 else C.ts.dt), .cons ⟨rfl, h0, hs⟩ ?_, ?_⟩
      · exact forall₂_requested _ hd xs
      · unfold Full.run
        simp only [e, hu]
    | some (.ok (ρ, b)) =>
      obtain ⟨ys, hy, er⟩ := ih (fun x hx => h1 x (by simp [hx])) ρ fun k hk ρ' hρ => hz (k + 1) (by simpa using hk) ρ' (by
        rw [List.take_succ_cons]
        unfold Full.run
        simp only [e, hu]
        exact hρ)
      refine ⟨(x.1, s) :: ys, .cons ⟨rfl, h0, hs⟩ hy, ?_⟩
      unfold Full.run
      simp only [e, hu]
      exact er

end Transect

section Planar

open Aeolis.Planar

variable {nx ny nf : ℕ}

/-- **C155** An executed call of `update` on a planar grid, whatever the settings, moves the clock by a time step that is not longer than asked
for, keeps the Courant number of the wind of the file in every cell below the limit if the scheme is explicit, keeps the rise of the bed below its
limit at the pace of the step before, and is not shorter than one of these demands. -/
theorem C155_planar (sp : LinSolve nx ny) (C : Planar.Config nx ny nf) (r : ℕ → ℕ → ℝ) (dt : ℝ) (σ τ : Planar.State nx ny nf)
    (h : Planar.update sp C r dt σ = some (.ok (τ, true))) (file : List Wind.Record) (hp : C.wind.processWind = true)
    (hf : C.wind.file = some file) : ∃ v d, Wind.windAt file σ.clock.t = some (v, d) ∧ -1 ≤ dt ∧
      τ.clock.t = σ.clock.t + τ.clock.dt * C.accfac ∧
      WithinLimits C.ts (-v * Real.sin ((d - C.wind.alfa + C.alpha) / 180 * Real.pi))
        (-v * Real.cos ((d - C.wind.alfa + C.alpha) / 180 * Real.pi)) (fun c : Fin (cells nx ny) => C.core.ds (rowOf c) (colOf c))
        (fun c => C.core.dn (rowOf c) (colOf c)) (fun c => (σ.core.sand.bed c).dzb) σ.clock.dt dt τ.clock.dt := by
  obtain ⟨w, z0, res, hw, -, -, hb, -, hT⟩ := Planar.update_ok h
  obtain ⟨met, h', m, E, ρ, zb, -, -, -, -, -, -, rfl⟩ := Planar.execute_ok (hT rfl)
  have hwin : Wind.windAt file σ.clock.t = some (w.1, w.2) := by
    unfold windNow at hw
    rw [hp, hf] at hw
    simp only at hw
    split at hw
    · cases hw
    · rename_i w' hw'
      rw [hw', Except.ok.inj hw]
  obtain ⟨e1, e2⟩ := Planar.components_direction C w
  refine ⟨w.1, w.2, hwin, ?_, ?_, ?_⟩
  · by_contra hd
    unfold setTimestep at hb
    rw [if_pos (not_le.mp hd)] at hb
    cases hb
  · exact congrArg (fun k : Clock ℝ => k.t + k.dt * C.accfac) (setTimestep_clock _ _ _ _ _ (Prod.ext rfl hb.symm))
  · rw [← e1, ← e2]
    exact withinLimits _ _ _ _ _ _ _ _ _ (Prod.ext rfl hb.symm)

/-- The same settings without limits on the time step. -/
def planarUnlimited (C : Planar.Config nx ny nf) : Planar.Config nx ny nf := { C with ts := { C.ts with explicit := false, maxChange := 999 } }

theorem planar_update_ts (sp : LinSolve nx ny) (C : Planar.Config nx ny nf) (r : ℕ → ℕ → ℝ) (dt s : ℝ) (σ : Planar.State nx ny nf)
    (h : ∀ (k : Clock ℝ) (g : TsGrids ℝ (Fin (cells nx ny))), k.dtPrev = σ.clock.dt → g.dzb = (fun c => (σ.core.sand.bed c).dzb) →
      setTimestep C.ts g k dt = setTimestep (planarUnlimited C).ts g k s) :
    Planar.update sp C r dt σ = Planar.update sp (planarUnlimited C) r s σ := by
  unfold Planar.update
  have e : ∀ now res u, setTimestep C.ts (tsGrids C (prepared C σ now res u) now) (prepared C σ now res u).clock dt = _ :=
    fun now res u => h (prepared C σ now res u).clock (tsGrids C (prepared C σ now res u) now) rfl rfl
  simp only [e]
  rfl

theorem planar_update_of {sp : LinSolve nx ny} {C : Planar.Config nx ny nf} {r : ℕ → ℕ → ℝ} {dt : ℝ} {σ τ : Planar.State nx ny nf} {w : ℝ × ℝ}
    {z0 : Fin (cells nx ny) → ℝ} {res : Option Shear.Result} {k : Clock ℝ} (hw : windNow C σ = .ok w) (hz : roughnesses C σ w.1 = some (.ok z0))
    (hr : stresses C σ (windComponents C w) (shear0 C σ w z0) = .ok res)
    (hk : setTimestep C.ts (tsGrids C (prepared C σ (windComponents C w) res (shearNow C σ (windComponents C w) res (shear0 C σ w z0)))
      (windComponents C w)) (prepared C σ (windComponents C w) res (shearNow C σ (windComponents C w) res (shear0 C σ w z0))).clock dt = (k, true))
    (he : execute sp C r (windComponents C w) (shear0 C σ w z0)
      { prepared C σ (windComponents C w) res (shearNow C σ (windComponents C w) res (shear0 C σ w z0)) with clock := k } = some (.ok τ)) :
    Planar.update sp C r dt σ = some (.ok (τ, true)) := by
  unfold Planar.update
  simp only [hw, hz, hr, hk, he, if_true]

/-- **C155** Whatever the limits on the time step, an executed call of `update` with a positive time step does what a call with this time step
does without limits. -/
theorem C155_planar_unlimited (sp : LinSolve nx ny) (C : Planar.Config nx ny nf) (r : ℕ → ℕ → ℝ) (dt : ℝ) (σ τ : Planar.State nx ny nf)
    (h : Planar.update sp C r dt σ = some (.ok (τ, true))) (h0 : 0 < τ.clock.dt) :
    Planar.update sp (planarUnlimited C) r τ.clock.dt σ = some (.ok (τ, true)) := by
  obtain ⟨w, z0, res, hw, hz, hr, hb, -, hT⟩ := Planar.update_ok h
  have hT := hT rfl
  have hd : τ.clock.dt = (setTimestep C.ts (tsGrids C (prepared C σ (windComponents C w) res
      (shearNow C σ (windComponents C w) res (shear0 C σ w z0))) (windComponents C w)) (prepared C σ (windComponents C w) res
      (shearNow C σ (windComponents C w) res (shear0 C σ w z0))).clock dt).1.dt := by
    obtain ⟨met, h', m, E, ρ, zb, -, -, -, -, -, -, rfl⟩ := Planar.execute_ok hT
    rfl
  have e := setTimestep_unlimited _ _ _ _ _ (Prod.ext rfl hb.symm) (hd ▸ h0)
  rw [← hd] at e
  exact planar_update_of hw hz hr e hT

/-- **C155** With an implicit scheme and a positive limit on the change of the bed level, a call of `update` does what a call with some positive
time step, not longer, does without limit, failures included, if the bed did not fall in all cells in the step before. -/
theorem C155_planar_limited (sp : LinSolve nx ny) (C : Planar.Config nx ny nf) (hx : C.ts.explicit = false) (hM : 0 < C.ts.maxChange)
    (r : ℕ → ℕ → ℝ) (dt : ℝ) (h1 : -1 ≤ dt) (hdt : 0 < dt ∨ 0 < C.ts.dt) (σ : Planar.State nx ny nf) (hc : 0 ≤ σ.clock.dt)
    (hz : ∃ c, 0 ≤ (σ.core.sand.bed c).dzb) :
    ∃ s, 0 < s ∧ (s ≤ if 0 < dt then dt else C.ts.dt) ∧ Planar.update sp C r dt σ = Planar.update sp (planarUnlimited C) r s σ := by
  obtain ⟨s, h0, hs, h⟩ := setTimestep_implicit C.ts (fun c => (σ.core.sand.bed c).dzb) σ.clock.dt dt hx hM h1 hdt hc hz
  exact ⟨s, h0, hs, planar_update_ts sp C r dt s σ h⟩

/-- **C155** So does a run. -/
theorem C155_planar_run (sp : LinSolve nx ny) (C : Planar.Config nx ny nf) (hx : C.ts.explicit = false) (hM : 0 < C.ts.maxChange)
    (hd : 0 < C.ts.dt) (calls : List ((ℕ → ℕ → ℝ) × ℝ)) (h1 : ∀ x ∈ calls, -1 ≤ x.2) (σ : Planar.State nx ny nf)
    (hz : ∀ k < calls.length, ∀ ρ, Planar.run sp C (calls.take k) σ = some (.ok ρ) → 0 ≤ ρ.clock.dt ∧ ∃ c, 0 ≤ (ρ.core.sand.bed c).dzb) :
    ∃ calls' : List ((ℕ → ℕ → ℝ) × ℝ), List.Forall₂ (fun x y => y.1 = x.1 ∧ 0 < y.2 ∧ y.2 ≤ if 0 < x.2 then x.2 else C.ts.dt) calls calls' ∧
      Planar.run sp C calls σ = Planar.run sp (planarUnlimited C) calls' σ := by
  induction calls generalizing σ with
  | nil => exact ⟨[], .nil, rfl⟩
  | cons x xs ih =>
    obtain ⟨hc, hb⟩ := hz 0 (by simp) σ rfl
    obtain ⟨s, h0, hs, e⟩ := C155_planar_limited sp C hx hM x.1 x.2 (h1 x (by simp)) (.inr hd) σ hc hb
    match hu : Planar.update sp (planarUnlimited C) x.1 s σ with
    | none =>
      refine ⟨(x.1, s) :: xs.map fun y => (y.1, if 0 < y.2 then y.2 else C.ts.dt), .cons ⟨rfl, h0, hs⟩ ?_, ?_⟩
      · exact forall₂_requested _ hd xs
      · unfold Planar.run
        simp only [e, hu]
    | some (.error er) =>
      refine ⟨(x.1, s) :: xs.map fun y => (y.1, if 0 < y.2 then y.2 else C.ts.dt), .cons ⟨rfl, h0, hs⟩ ?_, ?_⟩
      · exact forall₂_requested _ hd xs
      · unfold Planar.run
        simp only [e, hu]
    | some (.ok (ρ, b)) =>
      obtain ⟨ys, hy, er⟩ := ih (fun x hx => h1 x (by simp [hx])) ρ fun k hk ρ' hρ => hz (k + 1) (by simpa using hk) ρ' (by
        rw [List.take_succ_cons]
        unfold Planar.run
        simp only [e, hu]
        exact hρ)
      refine ⟨(x.1, s) :: ys, .cons ⟨rfl, h0, hs⟩ hy, ?_⟩
      unfold Planar.run
      simp only [e, hu]
      exact er

end Planar

/-! ### Examples -/

/-- The limit on the change of the bed level: one metre per step. -/
noncomputable def limitedCoast : Full.Config 2 1 := { coastConfig 20 true with ts := ⟨3600, false, 1, 1⟩ }

theorem limitedCoast_first (r : ℕ → ℝ) : ∃ τ s, Full.update byInverse limitedCoast r 0 coastState = some (.ok (τ, true)) ∧ 0 < s ∧ s ≤ 3600 ∧
    τ.clock.t = coastState.clock.t + s := by
  obtain ⟨s, h0, hs, e⟩ := C155_transect_limited byInverse limitedCoast rfl (by norm_num [limitedCoast]) r 0 (by norm_num)
    (.inr (by norm_num [limitedCoast])) coastState (by norm_num [coastState]) ⟨0, le_rfl⟩
  obtain ⟨τ, b, h, -⟩ := C133_total byInverse (coastConfig 20 true) (coast_usable 20 true) duneConfig_names (coast_files 20 true) r s coastState
    fun _ _ => le_rfl
  obtain ⟨hb, -, hbt, -⟩ := C133_step byInverse _ (coast_usable 20 true) r s _ τ b h
  have hb : b = true := by
    cases b with
    | false => exact absurd (hb.mp rfl) (by linarith)
    | true => rfl
  subst hb
  obtain ⟨E, hS, -, ht, -⟩ := hbt rfl
  refine ⟨τ, s, e.trans h, h0, by simpa [limitedCoast] using hs, ?_⟩
  rw [ht, hS.time.2, if_pos h0]
  simp [coastConfig]

/-- C155: the first step on the coast with the limit on. -/
example (r : ℕ → ℝ) : ∃ τ, Full.update byInverse limitedCoast r 0 coastState = some (.ok (τ, true)) ∧
    τ.clock.t = coastState.clock.t + τ.clock.dt ∧ τ.clock.dt ≤ 3600 := by
  obtain ⟨τ, s, h, -⟩ := limitedCoast_first r
  obtain ⟨v, d, -, -, ht, hl⟩ := C155_transect byInverse limitedCoast r 0 coastState τ h _ rfl rfl
  refine ⟨τ, h, ?_, ?_⟩
  · simpa [limitedCoast, coastConfig] using ht
  · simpa [limitedCoast] using hl.requested

/-- C155: the first step in the bay with the limit on. -/
example (veg : ℕ → ℕ → Veg.Cell) (fence : Fin (cells 2 2) → Lee.Fence) (r : ℕ → ℕ → ℝ) :
    ∃ s τ b, 0 < s ∧ s ≤ 600 ∧ Planar.update byInverse { bayConfig 20 true with ts := ⟨3600, false, 1, 0.1⟩ } r 600 (bayState veg fence) =
      some (.ok (τ, b)) ∧ Planar.update byInverse (bayConfig 20 true) r s (bayState veg fence) = some (.ok (τ, b)) := by
  obtain ⟨s, h0, hs, e⟩ := C155_planar_limited byInverse { bayConfig 20 true with ts := ⟨3600, false, 1, 0.1⟩ } rfl (by norm_num) r 600 (by norm_num)
    (.inl (by norm_num)) (bayState veg fence) (by norm_num [bayState]) ⟨0, le_rfl⟩
  obtain ⟨τ, b, h, -⟩ := C140_total byInverse _ (bay_usable 20 true) duneConfig_names (bay_files 20 true) (bay_sector 20 (by norm_num) true) r
    s (bayState veg fence) fun _ _ => le_rfl
  exact ⟨s, τ, b, h0, by simpa using hs, e.trans h, h⟩

/-- C155: an explicit step over two cells, where the Courant number decides, and one where the rise of the bed decides. -/
example : WithinLimits (ι := Fin 2) ⟨3600, true, 1, 999⟩ 4 3 (fun _ => 2) (fun _ => 1) (fun _ => 0) 60 60 (1 / 5) ∧
    ¬ WithinLimits (ι := Fin 2) ⟨3600, true, 1, 999⟩ 4 3 (fun _ => 2) (fun _ => 1) (fun _ => 0) 60 60 (1 / 4) ∧
    ¬ WithinLimits (ι := Fin 2) ⟨3600, true, 1, 999⟩ 4 3 (fun _ => 2) (fun _ => 1) (fun _ => 0) 60 60 (1 / 6) ∧
    WithinLimits (ι := Fin 2) ⟨3600, false, 1, 1⟩ 4 3 (fun _ => 2) (fun _ => 1) (fun _ => 2) 60 60 30 := by
  refine ⟨⟨by norm_num, fun _ _ _ _ _ => by norm_num [abs_of_pos], fun h => absurd rfl h, .inr (.inl ⟨rfl, 0, 0, by norm_num [abs_of_pos]⟩)⟩,
    fun h => ?_, fun h => ?_, ⟨by norm_num, fun h => by simp at h, fun _ _ _ _ => by norm_num, .inr (.inr ⟨by norm_num, 0, by norm_num⟩)⟩⟩
  · have := h.courant rfl (by norm_num) (fun _ => by norm_num) (fun _ => by norm_num) 0
    norm_num [abs_of_pos] at this
  · rcases h.attained with h | ⟨-, _, _, h⟩ | ⟨h, -⟩
    · norm_num at h
    · norm_num [abs_of_pos] at h
    · exact h rfl

end Aeolis.Props
