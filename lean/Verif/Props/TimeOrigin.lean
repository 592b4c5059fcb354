import Verif.Props.DatumProgram
import Verif.Props.Interp
import Verif.Props.Fractions

/-!
Property C161: the origin of time does not matter.  With the times of all series, and the start of the groundwater, moved by the same amount, a transect
that is as much later does the same as much later.  Likewise, when all series have a common period, a transect does the same a period later.
Exceptions are the steps at time zero, at which the code sets the initial weights of the fractions and the scanning curves of the moisture.
-/

namespace Aeolis.Props

open Aeolis.Sand Aeolis.Whole Aeolis.Full

noncomputable section

variable {nx ny nf : ℕ}

/-! ### Series -/

/-- A series with all times moved. -/
def delayedSeries {α : Type*} (s : ℝ) (ts : List (ℝ × α)) : List (ℝ × α) := ts.map fun k => (k.1 + s, k.2)

theorem interpFrom_delayed (s x : ℝ) (l : List (ℝ × ℝ)) : ∀ k : ℝ × ℝ, interpFrom (x + s) (k.1 + s, k.2) (delayedSeries s l) = interpFrom x k l := by
  induction l with
  | nil => intro k; rfl
  | cons k1 l ih =>
    intro k
    obtain ⟨x0, f0⟩ := k
    obtain ⟨x1, f1⟩ := k1
    show (if x + s < x1 + s then (f1 - f0) / (x1 + s - (x0 + s)) * (x + s - (x0 + s)) + f0 else interpFrom (x + s) (x1 + s, f1) (delayedSeries s l)) =
      if x < x1 then (f1 - f0) / (x1 - x0) * (x - x0) + f0 else interpFrom x (x1, f1) l
    rw [ih (x1, f1), add_sub_add_right_eq_sub, add_sub_add_right_eq_sub]
    simp only [add_lt_add_iff_right]

theorem npInterp_delayed (s x : ℝ) (ts : List (ℝ × ℝ)) : npInterp (delayedSeries s ts) (x + s) = npInterp ts x := by
  rcases ts with _ | ⟨⟨x0, f0⟩, l⟩
  · rfl
  · show some (if x + s < x0 + s then f0 else interpFrom (x + s) (x0 + s, f0) (delayedSeries s l)) = some (if x < x0 then f0 else interpFrom x (x0, f0) l)
    rw [interpFrom_delayed s x l (x0, f0)]
    simp only [add_lt_add_iff_right]

theorem listMin_delayed (s : ℝ) (l : List ℝ) : ∀ a, listMin (a + s) (l.map (· + s)) = listMin a l + s := by
  induction l with
  | nil => intro a; rfl
  | cons b l ih =>
    intro a
    show listMin (min (a + s) (b + s)) (l.map (· + s)) = listMin (min a b) l + s
    rw [min_add_add_right, ih]

theorem listMax_delayed (s : ℝ) (l : List ℝ) : ∀ a, listMax (a + s) (l.map (· + s)) = listMax a l + s := by
  induction l with
  | nil => intro a; rfl
  | cons b l ih =>
    intro a
    show listMax (max (a + s) (b + s)) (l.map (· + s)) = listMax (max a b) l + s
    rw [max_add_add_right, ih]

/-- **C161** A delayed series has the values of the series, later. -/
theorem C161_series (s : ℝ) (ts : List (ℝ × ℝ)) (t : ℝ) : interpCircular (delayedSeries s ts) (t + s) = interpCircular ts t := by
  rcases ts with _ | ⟨k0, l⟩
  · rfl
  unfold interpCircular
  have e : (delayedSeries s l).map Prod.fst = (l.map Prod.fst).map (· + s) := by
    simp [delayedSeries]
  show npInterp (delayedSeries s (k0 :: l)) (listMin (k0.1 + s) ((delayedSeries s l).map Prod.fst) +
      npMod (t + s - listMax (k0.1 + s) ((delayedSeries s l).map Prod.fst) - 1)
        (listMax (k0.1 + s) ((delayedSeries s l).map Prod.fst) - listMin (k0.1 + s) ((delayedSeries s l).map Prod.fst) + 1)) =
    npInterp (k0 :: l) (listMin k0.1 (l.map Prod.fst) +
      npMod (t - listMax k0.1 (l.map Prod.fst) - 1) (listMax k0.1 (l.map Prod.fst) - listMin k0.1 (l.map Prod.fst) + 1))
  rw [e, listMin_delayed, listMax_delayed, add_sub_add_right_eq_sub, add_sub_add_right_eq_sub, add_right_comm, npInterp_delayed]

/-! ### Two configurations with the same conditions, one later -/

/-- The configuration with other series and another start of the groundwater. -/
def retimed (C : Full.Config nx nf) (wind : Option (List Wind.Record)) (tide : Option (List (ℝ × ℝ))) (wave : Option (List (ℝ × ℝ × ℝ)))
    (meteo : Option (List (ℝ × (Fin 5 → ℝ)))) (tstart : ℝ) : Full.Config nx nf :=
  { C with
    wind := { C.wind with file := wind }
    water := { C.water with tideFile := tide, waveFile := wave }
    meteoFile := meteo
    ground := { C.ground with tstart := tstart } }

/-- The second configuration differs from the first in series and start of the groundwater only, and its series have the values of the first `s` later. -/
structure Delayed (s : ℝ) (C C' : Full.Config nx nf) : Prop where
  same : C' = retimed C C'.wind.file C'.water.tideFile C'.water.waveFile C'.meteoFile C'.ground.tstart
  wind : SameStage (fun f f' => ∀ t, Wind.windAt f' (t + s) = Wind.windAt f t) C.wind.file C'.wind.file
  tide : SameStage (fun f f' => ∀ t, Hydro.series f' (t + s) = Hydro.series f t) C.water.tideFile C'.water.tideFile
  wave : SameStage (fun f f' : List (ℝ × ℝ × ℝ) => ∀ t,
    Hydro.series (f'.map fun x => (x.1, x.2.1)) (t + s) = Hydro.series (f.map fun x => (x.1, x.2.1)) t ∧
      Hydro.series (f'.map fun x => (x.1, x.2.2)) (t + s) = Hydro.series (f.map fun x => (x.1, x.2.2)) t) C.water.waveFile C'.water.waveFile
  meteo : SameStage (fun f f' : List (ℝ × (Fin 5 → ℝ)) => ∀ t (i : Fin 5),
    Hydro.series (f'.map fun x => (x.1, x.2 i)) (t + s) = Hydro.series (f.map fun x => (x.1, x.2 i)) t) C.meteoFile C'.meteoFile

/-- All series and the start of the groundwater delayed. -/
def delayedConfig (s : ℝ) (C : Full.Config nx nf) : Full.Config nx nf :=
  retimed C (C.wind.file.map (delayedSeries s)) (C.water.tideFile.map (delayedSeries s)) (C.water.waveFile.map (delayedSeries s))
    (C.meteoFile.map (delayedSeries s)) (C.ground.tstart + s)

theorem sameStage_map {α : Type*} {R : α → α → Prop} {f : α → α} (h : ∀ a, R a (f a)) (o : Option α) : SameStage R o (o.map f) := by
  rcases o with _ | a
  · exact trivial
  · exact h a

theorem sameStage_refl {α : Type*} {R : α → α → Prop} (o : Option α) (h : ∀ a ∈ o, R a a) : SameStage R o o := by
  rcases o with _ | a
  · exact trivial
  · exact h a rfl

theorem delayedSeries_map {α β : Type*} (s : ℝ) (g : α → β) (ts : List (ℝ × α)) :
    (delayedSeries s ts).map (fun x => (x.1, g x.2)) = delayedSeries s (ts.map fun x => (x.1, g x.2)) := by
  simp [delayedSeries]

theorem series_delayed (s : ℝ) (ts : List (ℝ × ℝ)) (t : ℝ) : Hydro.series (delayedSeries s ts) (t + s) = Hydro.series ts t := by
  unfold Hydro.series
  rw [C161_series]

theorem windAt_delayed (s : ℝ) (file : List Wind.Record) (t : ℝ) : Wind.windAt (delayedSeries s file) (t + s) = Wind.windAt file t := by
  have h : ∀ g : ℝ × ℝ → ℝ, interpCircular ((delayedSeries s file).map fun r => (r.1, g r.2)) (t + s) = interpCircular (file.map fun r => (r.1, g r.2)) t := by
    intro g
    rw [delayedSeries_map, C161_series]
  unfold Wind.windAt
  have h1 := h fun r => r.1
  have h2 := h fun r => Real.sin (r.2 / 180 * Real.pi)
  have h3 := h fun r => Real.cos (r.2 / 180 * Real.pi)
  dsimp only at h1 h2 h3 ⊢
  rw [h1, h2, h3]

theorem delayed_config (s : ℝ) (C : Full.Config nx nf) : Delayed s C (delayedConfig s C) where
  same := rfl
  wind := sameStage_map (fun f t => windAt_delayed s f t) _
  tide := sameStage_map (fun f t => series_delayed s f t) _
  wave := sameStage_map (fun f t => ⟨by rw [delayedSeries_map s Prod.fst, series_delayed], by rw [delayedSeries_map s Prod.snd, series_delayed]⟩) _
  meteo := sameStage_map (fun f t i => by rw [delayedSeries_map s fun y : Fin 5 → ℝ => y i, series_delayed]) _

/-! ### Parts of a step -/

theorem interpolate_series {s : ℝ} {W W' : Hydro.WaterConfig} (e : W' = { W with tideFile := W'.tideFile, waveFile := W'.waveFile })
    (ht : SameStage (fun f f' => ∀ t, Hydro.series f' (t + s) = Hydro.series f t) W.tideFile W'.tideFile)
    (hv : SameStage (fun f f' : List (ℝ × ℝ × ℝ) => ∀ t,
      Hydro.series (f'.map fun x => (x.1, x.2.1)) (t + s) = Hydro.series (f.map fun x => (x.1, x.2.1)) t ∧
        Hydro.series (f'.map fun x => (x.1, x.2.2)) (t + s) = Hydro.series (f.map fun x => (x.1, x.2.2)) t) W.waveFile W'.waveFile)
    (r : Hydro.Row) (t : ℝ) (w : Hydro.Water) : Hydro.interpolate W' r (t + s) w = Hydro.interpolate W r t w := by
  obtain ⟨p1, p2, p3, tide, wave, g, b⟩ := W
  obtain ⟨q1, q2, q3, tide', wave', g', b'⟩ := W'
  dsimp only at e ht hv
  cases e
  have h1 : Hydro.stillWater ⟨p1, p2, p3, tide', wave', g, b⟩ r (t + s) = Hydro.stillWater ⟨p1, p2, p3, tide, wave, g, b⟩ r t := by
    unfold Hydro.stillWater
    rcases tide with _ | f <;> rcases tide' with _ | f'
    · rfl
    · exact ht.elim
    · exact ht.elim
    · dsimp only
      rw [ht t]
  have h2 : ∀ S, Hydro.waves ⟨p1, p2, p3, tide', wave', g, b⟩ r (t + s) S = Hydro.waves ⟨p1, p2, p3, tide, wave, g, b⟩ r t S := by
    intro S
    unfold Hydro.waves
    rcases wave with _ | f <;> rcases wave' with _ | f'
    · rcases p2 <;> rfl
    · exact hv.elim
    · exact hv.elim
    · rcases p2
      · rfl
      · dsimp only
        rw [(hv t).1, (hv t).2]
  have h3 : ∀ w, Hydro.mixing ⟨p1, p2, p3, tide', wave', g, b⟩ r (t + s) w = Hydro.mixing ⟨p1, p2, p3, tide, wave, g, b⟩ r t w := by
    intro w
    unfold Hydro.mixing
    rcases wave with _ | f <;> rcases wave' with _ | f'
    · rcases p2 <;> rfl
    · exact hv.elim
    · exact hv.elim
    · rcases p2
      · rfl
      · dsimp only
        rw [(hv t).1]
  unfold Hydro.interpolate
  rw [h1]
  simp only [h2, h3]
  rfl

theorem interpolate_delayed {s : ℝ} {C C' : Full.Config nx nf} (D : Delayed s C C') (r : Hydro.Row) (t : ℝ) (w : Hydro.Water) :
    Hydro.interpolate C'.water r (t + s) w = Hydro.interpolate C.water r t w :=
  interpolate_series (W := C.water) (W' := C'.water) (congrArg Full.Config.water D.same) D.tide D.wave r t w

theorem groundSubs_delayed {s : ℝ} {C C' : Full.Config nx nf} (D : Delayed s C C') (r : Hydro.Row) (dtgw t : ℝ) (m : ℕ) : ∀ (i : ℕ) x,
    Hydro.groundSubs C'.water r (groundIn C') dtgw (t + s) i m x = Hydro.groundSubs C.water r (groundIn C) dtgw t i m x := by
  induction m with
  | zero => intro i x; rfl
  | succ m ih =>
    intro i x
    have h : Hydro.groundSub C'.water r (groundIn C') dtgw (t + s + i * dtgw) x = Hydro.groundSub C.water r (groundIn C) dtgw (t + i * dtgw) x := by
      unfold Hydro.groundSub
      rw [add_right_comm, interpolate_delayed D, D.same]
      rfl
    unfold Hydro.groundSubs
    rw [h]
    rcases Hydro.groundSub C.water r (groundIn C) dtgw (t + i * dtgw) x with e | y
    · rfl
    · exact ih (i + 1) y

open Classical in
theorem hydroStep_delayed {s : ℝ} {C C' : Full.Config nx nf} (D : Delayed s C C') (r : Hydro.Row) (t dt : ℝ)
    (hg : C.ground.on = true → (t + s = C'.ground.tstart ↔ t = C.ground.tstart)) (x : Hydro.HydroState) :
    Hydro.hydroStep C'.water r (groundIn C') (t + s) dt x = Hydro.hydroStep C.water r (groundIn C) t dt x := by
  unfold Hydro.hydroStep
  rw [interpolate_delayed D]
  rcases Hydro.interpolate C.water r t x.water with e | w
  · rfl
  dsimp only
  have hon : C'.ground.on = C.ground.on := by rw [D.same]; rfl
  unfold Hydro.groundPart
  by_cases h : C.ground.on = true
  · rw [if_pos (show (groundIn C').on = true from hon.trans h), if_pos (show (groundIn C).on = true from h)]
    have e1 : (groundIn C').inGw = (groundIn C).inGw := by rw [D.same]; rfl
    have e2 : (groundIn C').tfac = (groundIn C).tfac := by rw [D.same]; rfl
    have e3 : (t + s = (groundIn C').tstart) = (t = (groundIn C).tstart) := propext (hg h)
    have e4 : ∀ m w gw, Hydro.previousLevel C'.water r (groundIn C') (t + s) m w gw = Hydro.previousLevel C.water r (groundIn C) t m w gw := by
      intro m w gw
      unfold Hydro.previousLevel
      rw [interpolate_delayed D, D.same]
      rfl
    simp only [e1, e2, e3, e4, groundSubs_delayed D]
  · rw [if_neg (show ¬(groundIn C').on = true from fun q => h (hon.symm.trans q)), if_neg (show ¬(groundIn C).on = true from h)]

theorem lastTime_delayed {s : ℝ} {C C' : Full.Config nx nf} (D : Delayed s C C') (t dt : ℝ) :
    Hydro.lastTime C'.ground (t + s) dt = Hydro.lastTime C.ground t dt + s := by
  rw [D.same]
  unfold Hydro.lastTime
  show (if C.ground.on = true then _ else _) = _
  split_ifs
  · show (match Ground.substeps dt C.ground.tfac with | .error _ => _ | .ok (dtgw, m) => _) = _
    rcases Ground.substeps dt C.ground.tfac with e | ⟨d, m⟩
    · rfl
    · show t + s + _ = t + _ + s
      ring
  · rfl

open Classical in
theorem meteoAt_delayed {s : ℝ} {C C' : Full.Config nx nf} (D : Delayed s C C') (t : ℝ) : meteoAt C' (t + s) = meteoAt C t := by
  have hm := D.meteo
  have e1 : C'.moist = C.moist := by rw [D.same]; rfl
  unfold meteoAt
  rw [e1]
  revert hm
  generalize C.meteoFile = f
  generalize C'.meteoFile = f'
  intro hm
  rcases f with _ | f <;> rcases f' with _ | f'
  · rfl
  · exact hm.elim
  · exact hm.elim
  · dsimp only
    simp only [hm t]

theorem eroded_delayed {s : ℝ} {C C' : Full.Config nx nf} (D : Delayed s C C') (t dt : ℝ) (w : Hydro.Water) (zb : ℕ → ℝ) :
    Full.eroded C' (t + s) dt w zb = Full.eroded C t dt w zb := by
  have ht := D.tide
  have hv := D.wave
  have e1 : C'.dune = C.dune := by rw [D.same]; rfl
  have e2 : slid C' = slid C := by rw [D.same]; rfl
  have e3 : C'.x = C.x := by rw [D.same]; rfl
  unfold Full.eroded
  rw [e1, e2, e3]
  revert ht hv
  generalize C.water.tideFile = a
  generalize C'.water.tideFile = a'
  generalize C.water.waveFile = b
  generalize C'.water.waveFile = b'
  intro ht hv
  rcases a with _ | a <;> rcases a' with _ | a'
  · rcases b with _ | b <;> rcases b' with _ | b' <;> rfl
  · exact ht.elim
  · exact ht.elim
  rcases b with _ | b <;> rcases b' with _ | b'
  · rfl
  · exact hv.elim
  · exact hv.elim
  · dsimp only
    rw [ht t, (hv t).2]

/-- Nothing is done at time zero only: the composition of the bed is read from a file, and there are no scanning curves of the moisture. -/
def Timeless (C : Full.Config nx nf) : Prop :=
  C.core.bedcomp = true ∧ (C.moist.processMoist = true → lower C.moist.method = "surf_moisture" → C.moist.processScanning = false)

open Classical in
theorem moisture_delayed (c : Moisture.Config) (s t dt : ℝ)
    (h0 : (t + s = 0 ↔ t = 0) ∨ (c.processMoist = true → lower c.method = "surf_moisture" → c.processScanning = false))
    (met : Option Moisture.Meteo) (x : Moisture.Input) (y : Moisture.Cell) : Moisture.update c (t + s) dt met x y = Moisture.update c t dt met x y := by
  have h : Moisture.moisture c (t + s) dt met x y = Moisture.moisture c t dt met x y := by
    unfold Moisture.moisture
    by_cases hp : c.processMoist = true
    · rw [if_pos hp, if_pos hp]
      by_cases hi : lower c.method = "infiltration"
      · rw [if_pos hi, if_pos hi]
      rw [if_neg hi, if_neg hi]
      by_cases hq : lower c.method = "surf_moisture"
      · rw [if_pos hq, if_pos hq]
        have hc : ∀ y, Moisture.capillary c (t + s) x y = Moisture.capillary c t x y := by
          intro y
          unfold Moisture.capillary
          rcases h0 with h0 | h0
          · simp only [h0]
          · rw [h0 hp hq]
            rfl
        unfold Moisture.surface
        simp only [hc]
      · rw [if_neg hq, if_neg hq]
    · rw [if_neg hp, if_neg hp]
  unfold Moisture.update
  rw [h]

/-- The chain with the time moved. -/
def laterEnv (s : ℝ) (E : Env nx ny nf) : Env nx ny nf := { E with t := E.t + s }

theorem step_later (sp : LinSolve nx ny) (C : Whole.Config nf) (s : ℝ) (E : Env nx ny nf) (h0 : (E.t + s = 0 ↔ E.t = 0) ∨ C.bedcomp = true)
    (σ : Whole.State nx ny nf) : Whole.step sp C (laterEnv s E) σ = Whole.step sp C E σ := by
  have hw : ∀ σ cap c, initialWeights C (laterEnv s E) σ cap c = initialWeights C E σ cap c := by
    intro σ cap c
    unfold initialWeights
    rcases h0 with h0 | h0
    · show (if E.t + s = 0 ∧ C.bedcomp = false then _ else _) = _
      simp only [h0]
    · rw [if_neg (fun q : (laterEnv s E).t = 0 ∧ C.bedcomp = false => by have := q.2; rw [h0] at this; cases this),
        if_neg (fun q : E.t = 0 ∧ C.bedcomp = false => by have := q.2; rw [h0] at this; cases this)]
  have hx : ∀ σ thr cap speed, Whole.exchange sp C (laterEnv s E) σ thr cap speed = Whole.exchange sp C E σ thr cap speed := by
    intro σ thr cap speed
    unfold Whole.exchange
    rw [show initialWeights C (laterEnv s E) σ cap = initialWeights C E σ cap from funext fun c => hw σ cap c]
    rfl
  have ht : ∀ σ, transport sp C (laterEnv s E) σ = transport sp C E σ := by
    intro σ
    unfold transport
    simp only [hx]
    rfl
  unfold Whole.step
  dsimp only
  rw [show Whole.waves C (laterEnv s E) σ = Whole.waves C E σ from rfl, ht]
  rfl

/-! ### The step -/

/-- The state with the clock moved. -/
def later (s : ℝ) (σ : Full.State nx nf) : Full.State nx nf := { σ with clock := { σ.clock with t := σ.clock.t + s } }

/-- The outcome of a call with the clock moved. -/
def laterOutcome {α : Type*} (f : α → α) : Option (Except PyErr α) → Option (Except PyErr α)
  | none => none
  | some (.error e) => some (.error e)
  | some (.ok a) => some (.ok (f a))

open Classical in
theorem execute_later (sp : LinSolve nx 0) {s : ℝ} {C C' : Full.Config nx nf} (D : Delayed s C C') (r : ℕ → ℝ) (now : Now) (u0 : ℕ → Wind.Shear)
    (σ : Full.State nx nf) (hg : C.ground.on = true → (σ.clock.t + s = C'.ground.tstart ↔ σ.clock.t = C.ground.tstart))
    (h0 : (σ.clock.t + s = 0 ↔ σ.clock.t = 0) ∨ Timeless C) :
    execute sp C' r now u0 (later s σ) = laterOutcome (later s) (execute sp C r now u0 σ) := by
  unfold execute
  rw [show (later s σ).clock.t = σ.clock.t + s from rfl, show (later s σ).clock.dt = σ.clock.dt from rfl, lastTime_delayed D, meteoAt_delayed D]
  rcases meteoAt C (Hydro.lastTime C.ground σ.clock.t σ.clock.dt) with e | met
  · rfl
  dsimp only
  have hrow : row C' (later s σ) = row C σ := by rw [D.same]; rfl
  rw [hrow, show (later s σ).hydro = σ.hydro from rfl, hydroStep_delayed D _ _ _ hg]
  rcases Hydro.hydroStep C.water (row C σ) (groundIn C) σ.clock.t σ.clock.dt σ.hydro with e | h
  · rfl
  dsimp only
  have hm : moistures C' (later s σ) (σ.clock.t + s) σ.clock.dt now.uw met h = moistures C σ σ.clock.t σ.clock.dt now.uw met h := by
    have e1 : C'.moist = C.moist := by rw [D.same]; rfl
    unfold moistures
    rw [e1]
    simp only [moisture_delayed C.moist s σ.clock.t σ.clock.dt (h0.imp_right And.right)]
    rfl
  rw [hm]
  rcases moistures C σ σ.clock.t σ.clock.dt now.uw met h with _ | (e | m)
  · rfl
  · rfl
  dsimp only
  have hE : env C' (later s σ) now u0 (later s σ).shear σ.clock.dt h m (later s σ).zsep =
      (env C σ now u0 σ.shear σ.clock.dt h m σ.zsep).map (laterEnv s) := by
    rw [D.same]
    unfold env
    dsimp only
    split_ifs with q q' q'
    · show (match duranSpeeds C (envWith C σ now u0 σ.shear σ.clock.dt h m fun _ _ => ⟨0, 0, 0⟩) σ.core σ.zsep with
        | none => none
        | some v => some _) = _
      rcases duranSpeeds C (envWith C σ now u0 σ.shear σ.clock.dt h m fun _ _ => ⟨0, 0, 0⟩) σ.core σ.zsep with _ | v
      · rfl
      · rfl
    · exact (q' q).elim
    · exact (q q').elim
    · rfl
  have ht : ∀ E ∈ env C σ now u0 σ.shear σ.clock.dt h m σ.zsep, E.t = σ.clock.t := by
    intro E hE
    unfold env at hE
    dsimp only at hE
    split_ifs at hE
    · split at hE
      · cases hE
      · cases hE
        rfl
    · cases hE
      rfl
  rw [hE]
  rcases hEE : env C σ now u0 σ.shear σ.clock.dt h m σ.zsep with _ | E
  · rfl
  rw [Option.map_some]
  dsimp only
  have hc : C'.core = C.core := by rw [D.same]; rfl
  rw [hc, show (later s σ).core = σ.core from rfl, step_later sp C.core s E (by rw [ht E hEE]; exact h0.imp_right And.left)]
  rcases Whole.step sp C.core E σ.core with _ | (e | τ)
  · rfl
  · rfl
  dsimp only
  rw [eroded_delayed D]
  rcases Full.eroded C σ.clock.t σ.clock.dt h.water (col fun c => (τ.sand.bed c).zb) with e | z
  · rfl
  · show some (Except.ok (finished C' r (later s σ) (later s σ).zb h m (withLevels τ z))) = some (.ok (later s (finished C r σ σ.zb h m (withLevels τ z))))
    rw [D.same]
    unfold finished later
    dsimp only [retimed]
    rw [add_right_comm]
    rfl

theorem setTimestep_later (p : TsParams ℝ) (g : TsGrids ℝ (Fin (cells nx ny))) (c : Clock ℝ) (s dt : ℝ) :
    setTimestep p g { c with t := c.t + s } dt = ({ (setTimestep p g c dt).1 with t := (setTimestep p g c dt).1.t + s }, (setTimestep p g c dt).2) := by
  unfold setTimestep limitBedChange
  by_cases h1 : dt < -1
  · rw [if_pos h1, if_pos h1, add_right_comm]
  rw [if_neg h1, if_neg h1]
  dsimp only
  by_cases h2 : p.explicit = true ∧ 0 < p.CFL
  · rw [if_pos h2, if_pos h2]
    by_cases h3 : 0 < dtref g
    · rw [if_pos h3, if_pos h3]
      by_cases h4 : p.maxChange ≠ 999 ∧ gridMax g.dzb ≠ 0 ∧ c.dtPrev ≠ 0
      · rw [if_pos h4, if_pos h4]
      · rw [if_neg h4, if_neg h4]
    · rw [if_neg h3, if_neg h3]
  · rw [if_neg h2, if_neg h2]
    by_cases h4 : p.maxChange ≠ 999 ∧ gridMax g.dzb ≠ 0 ∧ c.dtPrev ≠ 0
    · rw [if_pos h4, if_pos h4]
    · rw [if_neg h4, if_neg h4]

open Classical in
/-- **C161** A call of `update` with all series delayed, on a state that is as much later: the same outcome, as much later. -/
theorem C161_update (sp : LinSolve nx 0) {s : ℝ} {C C' : Full.Config nx nf} (D : Delayed s C C') (r : ℕ → ℝ) (dt : ℝ) (σ : Full.State nx nf)
    (hg : C.ground.on = true → (σ.clock.t + s = C'.ground.tstart ↔ σ.clock.t = C.ground.tstart))
    (h0 : (σ.clock.t + s = 0 ↔ σ.clock.t = 0) ∨ Timeless C) :
    Full.update sp C' r dt (later s σ) = laterOutcome (fun a => (later s a.1, a.2)) (Full.update sp C r dt σ) := by
  have hw : windNow C' (later s σ) = windNow C σ := by
    have hf := D.wind
    have e : C'.wind.processWind = C.wind.processWind := by rw [D.same]; rfl
    unfold windNow
    rw [e]
    revert hf
    generalize C.wind.file = f
    generalize C'.wind.file = f'
    intro hf
    rcases f with _ | f <;> rcases f' with _ | f'
    · rcases C.wind.processWind <;> rfl
    · exact hf.elim
    · exact hf.elim
    · rcases C.wind.processWind
      · rfl
      · show (match Wind.windAt f' (σ.clock.t + s) with | none => _ | some w => _) = _
        rw [hf]
        rfl
  unfold Full.update
  rw [hw]
  rcases windNow C σ with e | w
  · rfl
  dsimp only
  have hr : roughnesses C' (later s σ) w.1 = roughnesses C σ w.1 := by rw [D.same]; rfl
  rw [hr]
  rcases roughnesses C σ w.1 with _ | (e | z0)
  · rfl
  · rfl
  dsimp only
  have hp : prepared C' (later s σ) w z0 = later s (prepared C σ w z0) := by rw [D.same]; rfl
  have hn : windComponents C' w = windComponents C w := by rw [D.same]; rfl
  have hgr : tsGrids C' (later s (prepared C σ w z0)) (windComponents C w) = tsGrids C (prepared C σ w z0) (windComponents C w) := by rw [D.same]; rfl
  have hs0 : shear0 C' (later s σ) w z0 = shear0 C σ w z0 := by rw [D.same]; rfl
  have hts : C'.ts = C.ts := by rw [D.same]; rfl
  rw [hp, hn, hgr, hs0, hts, show (later s (prepared C σ w z0)).clock = { (prepared C σ w z0).clock with t := (prepared C σ w z0).clock.t + s } from rfl,
    setTimestep_later]
  generalize hk : setTimestep C.ts (tsGrids C (prepared C σ w z0) (windComponents C w)) (prepared C σ w z0).clock dt = k
  obtain ⟨k, b⟩ := k
  dsimp only
  rcases b
  · rfl
  · rw [if_pos rfl, if_pos rfl]
    have ht : k.t = σ.clock.t := by
      have : (setTimestep C.ts (tsGrids C (prepared C σ w z0) (windComponents C w)) (prepared C σ w z0).clock dt).2 = true := by rw [hk]
      have h2 : (setTimestep C.ts (tsGrids C (prepared C σ w z0) (windComponents C w)) (prepared C σ w z0).clock dt).1.t = (prepared C σ w z0).clock.t := by
        revert this
        unfold setTimestep limitBedChange
        split_ifs <;> intro q <;> first | (cases q; done) | (dsimp only; split_ifs <;> rfl)
      rw [hk] at h2
      exact h2
    have hX := execute_later sp D r (windComponents C w) (shear0 C σ w z0) { prepared C σ w z0 with clock := k } (by rw [ht]; exact hg) (by rw [ht]; exact h0)
    change (match execute sp C' r (windComponents C w) (shear0 C σ w z0) (later s { prepared C σ w z0 with clock := k }) with
      | none => none
      | some (Except.error e) => some (Except.error e)
      | some (Except.ok τ) => some (Except.ok (τ, true))) = _
    rw [hX]
    rcases execute sp C r (windComponents C w) (shear0 C σ w z0) { prepared C σ w z0 with clock := k } with _ | (e | τ) <;> rfl

open Classical in
/-- **C161** Any number of calls, with all series delayed, from a state that is as much later: the same outcome, as much later. -/
theorem C161_run (sp : LinSolve nx 0) (s : ℝ) (C : Full.Config nx nf) (h0 : Timeless C) (calls : List ((ℕ → ℝ) × ℝ)) : ∀ σ : Full.State nx nf,
    Full.run sp (delayedConfig s C) calls (later s σ) = laterOutcome (later s) (Full.run sp C calls σ) := by
  induction calls with
  | nil => intro σ; rfl
  | cons a calls ih =>
    intro σ
    have hX := C161_update sp (delayed_config s C) a.1 a.2 σ (fun _ => add_left_inj s) (Or.inr h0)
    unfold Full.run
    rw [hX]
    rcases Full.update sp C a.1 a.2 σ with _ | (e | ⟨τ, b⟩)
    · rfl
    · rfl
    · exact ih τ

open Classical in
/-- **C161** A start from delayed files: the same state, later. -/
theorem C161_initialise (C : Full.Config nx nf) (F : Program.Files nx nf) (t s : ℝ) :
    Program.initialise (delayedConfig s C) F (t + s) =
      (Program.initialise C F t).map fun a => (delayedConfig s a.1, later s a.2) := by
  unfold Program.initialise
  have hd : Program.directions (delayedConfig s C) F = (Program.directions C F).map (Option.map (delayedSeries s)) := by
    unfold Program.directions
    show (match C.wind.file.map (delayedSeries s) with | none => _ | some file => _) = _
    rcases C.wind.file with _ | file
    · rfl
    dsimp only [Option.map_some]
    have : Wind.applyConvention F.convention (delayedSeries s file) = (Wind.applyConvention F.convention file).map (delayedSeries s) := by
      unfold Wind.applyConvention
      split_ifs
      · simp only [Except.map, delayedSeries, List.map_map]
        congr 2
        funext r
        simp only [Function.comp]
        split_ifs <;> rfl
      · simp only [Except.map, delayedSeries, List.map_map]
        congr 2
        funext r
        simp only [Function.comp]
        split_ifs <;> rfl
      · rfl
    rw [this]
    rcases Wind.applyConvention F.convention file with e | f <;> rfl
  rw [hd, show Program.composition (delayedConfig s C) F = Program.composition C F from rfl]
  change (match Grid.initGrid 0 nx (fun _ j => C.x j) (fun _ _ => 0) with
    | .error e => Except.error e
    | .ok m => _) = _
  rcases Grid.initGrid 0 nx (fun _ j => C.x j) (fun _ _ => 0) with e | m
  · rfl
  dsimp only
  rcases Program.composition C F with e | mass
  · rfl
  dsimp only
  rcases Program.directions C F with e | wind
  · rfl
  dsimp only [Except.map]
  change (match collect fun c => Wind.roughness C.wind.methodRoughness (rough (Program.configured C F m wind) (Program.started C F t mass) 0 c) with
    | .error e => Except.error e
    | .ok _ => _) = _
  rcases collect fun c => Wind.roughness C.wind.methodRoughness (rough (Program.configured C F m wind) (Program.started C F t mass) 0 c) with e | z
  · rfl
  · rfl

/-- A period of a series: that of the interpolation, which is a second longer than the series. -/
def HasPeriod (P : ℝ) {α : Type*} (ts : List (ℝ × α)) : Prop :=
  match ts.map Prod.fst with
  | [] => True
  | a :: l => ∃ n : ℤ, P = n * (listMax a l - listMin a l + 1)

theorem interpCircular_period {P : ℝ} (ts : List (ℝ × ℝ)) (h : HasPeriod P ts) (t : ℝ) : interpCircular ts (t + P) = interpCircular ts t := by
  rcases ts with _ | ⟨k0, l⟩
  · rfl
  obtain ⟨n, hn⟩ := h
  have hn : P = n * (listMax k0.1 (l.map Prod.fst) - listMin k0.1 (l.map Prod.fst) + 1) := hn
  unfold interpCircular
  show npInterp (k0 :: l) (listMin k0.1 (l.map Prod.fst) +
      npMod (t + P - listMax k0.1 (l.map Prod.fst) - 1) (listMax k0.1 (l.map Prod.fst) - listMin k0.1 (l.map Prod.fst) + 1)) =
    npInterp (k0 :: l) (listMin k0.1 (l.map Prod.fst) +
      npMod (t - listMax k0.1 (l.map Prod.fst) - 1) (listMax k0.1 (l.map Prod.fst) - listMin k0.1 (l.map Prod.fst) + 1))
  revert hn
  generalize hq : listMax k0.1 (l.map Prod.fst) - listMin k0.1 (l.map Prod.fst) + 1 = q
  intro hn
  have hmin : ∀ (l : List ℝ) a, listMin a l ≤ a := by
    intro l
    induction l with
    | nil => intro a; exact le_rfl
    | cons b l ih => intro a; exact (ih (min a b)).trans (min_le_left _ _)
  have hmax : ∀ (l : List ℝ) a, a ≤ listMax a l := by
    intro l
    induction l with
    | nil => intro a; exact le_rfl
    | cons b l ih => intro a; exact (le_max_left _ _).trans (ih (max a b))
  have hq0 : q ≠ 0 := by
    have h1 := hmin (l.map Prod.fst) k0.1
    have h2 := hmax (l.map Prod.fst) k0.1
    rw [← hq]
    linarith
  congr 2
  unfold npMod
  rw [hn, show (t + n * q - listMax k0.1 (l.map Prod.fst) - 1) / q = (t - listMax k0.1 (l.map Prod.fst) - 1) / q + n by field_simp; ring, Int.floor_add_intCast]
  push_cast
  ring

theorem hasPeriod_map {P : ℝ} {α : Type*} {ts : List (ℝ × α)} (h : HasPeriod P ts) {β : Type*} (g : α → β) :
    HasPeriod P (ts.map fun x => (x.1, g x.2)) := by
  unfold HasPeriod at h ⊢
  rw [List.map_map]
  exact h

/-- All series of the configuration have the period. -/
structure Periodic (P : ℝ) (C : Full.Config nx nf) : Prop where
  wind : ∀ f ∈ C.wind.file, HasPeriod P f
  tide : ∀ f ∈ C.water.tideFile, HasPeriod P f
  wave : ∀ f ∈ C.water.waveFile, HasPeriod P f
  meteo : ∀ f ∈ C.meteoFile, HasPeriod P f

theorem delayed_period {P : ℝ} {C : Full.Config nx nf} (h : Periodic P C) : Delayed P C C := by
  have hs : ∀ (ts : List (ℝ × ℝ)), HasPeriod P ts → ∀ t, Hydro.series ts (t + P) = Hydro.series ts t := by
    intro ts h t
    unfold Hydro.series
    rw [interpCircular_period ts h]
  refine ⟨rfl, sameStage_refl _ fun f hf t => ?_, sameStage_refl _ fun f hf t => hs f (h.tide f hf) t,
    sameStage_refl _ fun f hf t => ⟨hs _ (hasPeriod_map (h.wave f hf) Prod.fst) t, hs _ (hasPeriod_map (h.wave f hf) Prod.snd) t⟩,
    sameStage_refl _ fun f hf t i => hs _ (hasPeriod_map (h.meteo f hf) fun y : Fin 5 → ℝ => y i) t⟩
  have q : ∀ g : ℝ × ℝ → ℝ, interpCircular (f.map fun r => (r.1, g r.2)) (t + P) = interpCircular (f.map fun r => (r.1, g r.2)) t :=
    fun g => interpCircular_period _ (hasPeriod_map (h.wind f hf) g) t
  have h1 := q fun r => r.1
  have h2 := q fun r => Real.sin (r.2 / 180 * Real.pi)
  have h3 := q fun r => Real.cos (r.2 / 180 * Real.pi)
  unfold Wind.windAt
  dsimp only at h1 h2 h3 ⊢
  rw [h1, h2, h3]

open Classical in
/-- **C161** Series with a common period (for each series that is its length plus one second, or a multiple): a call of `update` does the same a period
later. -/
theorem C161_period (sp : LinSolve nx 0) {P : ℝ} (C : Full.Config nx nf) (h : Periodic P C) (r : ℕ → ℝ) (dt : ℝ) (σ : Full.State nx nf)
    (hg : C.ground.on = true → σ.clock.t ≠ C.ground.tstart ∧ σ.clock.t + P ≠ C.ground.tstart)
    (h0 : (σ.clock.t + P = 0 ↔ σ.clock.t = 0) ∨ Timeless C) :
    Full.update sp C r dt (later P σ) = laterOutcome (fun a => (later P a.1, a.2)) (Full.update sp C r dt σ) :=
  C161_update sp (delayed_period h) r dt σ (fun q => iff_of_false (hg q).2 (hg q).1) h0

/-- Time does not run backward in calls of `update`. -/
theorem update_forward (sp : LinSolve nx 0) (C : Full.Config nx nf) (hC : Usable C) (hacc : 0 ≤ C.accfac) (r : ℕ → ℝ) (dt : ℝ) {σ τ : Full.State nx nf}
    {b : Bool} (h : Full.update sp C r dt σ = some (.ok (τ, b))) : σ.clock.t ≤ τ.clock.t := by
  obtain ⟨h1, h2, h3, -⟩ := C133_step sp C hC r dt σ τ b h
  rcases b with _ | _
  · rw [(h2 rfl).2.1]
    linarith [h1.mp rfl]
  · obtain ⟨E, hE, -, ht, -⟩ := h3 rfl
    have hd : 0 ≤ E.dt := by
      rw [hE.time.2]
      split_ifs with q
      · exact q.le
      · exact hC.step.2.1.le
    rw [ht]
    linarith [mul_nonneg hd hacc]

open Classical in
/-- Calls from a time after zero and after the start of the groundwater. -/
theorem run_later (sp : LinSolve nx 0) {s : ℝ} (hs : 0 ≤ s) {C C' : Full.Config nx nf} (D : Delayed s C C') (hC : Usable C) (hacc : 0 ≤ C.accfac)
    (hg : ∀ t, 0 < t → (C'.ground.tstart ≠ C.ground.tstart + s → C.ground.on = true → C.ground.tstart < t) →
      C.ground.on = true → (t + s = C'.ground.tstart ↔ t = C.ground.tstart))
    (calls : List ((ℕ → ℝ) × ℝ)) : ∀ σ : Full.State nx nf, 0 < σ.clock.t →
      (C'.ground.tstart ≠ C.ground.tstart + s → C.ground.on = true → C.ground.tstart < σ.clock.t) →
      Full.run sp C' calls (later s σ) = laterOutcome (later s) (Full.run sp C calls σ) := by
  induction calls with
  | nil => intro σ _ _; rfl
  | cons a calls ih =>
    intro σ ht hq
    have hX := C161_update sp D a.1 a.2 σ (hg _ ht hq) (Or.inl (iff_of_false (by positivity) ht.ne'))
    unfold Full.run
    rw [hX]
    rcases hu : Full.update sp C a.1 a.2 σ with _ | (e | ⟨τ, b⟩)
    · rfl
    · rfl
    · have hf := update_forward sp C hC hacc a.1 a.2 hu
      exact ih τ (lt_of_lt_of_le ht hf) fun h1 h2 => lt_of_lt_of_le (hq h1 h2) hf

open Classical in
/-- **C161** Any number of calls, with all series delayed, from a state after time zero and as much later: the same outcome, as much later. -/
theorem C161_run_started (sp : LinSolve nx 0) (s : ℝ) (hs : 0 ≤ s) (C : Full.Config nx nf) (hC : Usable C) (hacc : 0 ≤ C.accfac)
    (calls : List ((ℕ → ℝ) × ℝ)) (σ : Full.State nx nf) (ht : 0 < σ.clock.t) :
    Full.run sp (delayedConfig s C) calls (later s σ) = laterOutcome (later s) (Full.run sp C calls σ) :=
  run_later sp hs (delayed_config s C) hC hacc (fun _ _ _ _ => add_left_inj s) calls σ ht fun h => absurd rfl h

open Classical in
/-- **C161** Series with a common period: any number of calls, from a state after time zero and after the start of the groundwater, do the same a period
later. -/
theorem C161_run_period (sp : LinSolve nx 0) {P : ℝ} (hP : 0 ≤ P) (C : Full.Config nx nf) (h : Periodic P C) (hC : Usable C) (hacc : 0 ≤ C.accfac)
    (calls : List ((ℕ → ℝ) × ℝ)) (σ : Full.State nx nf) (ht : 0 < σ.clock.t) (hg : C.ground.on = true → C.ground.tstart < σ.clock.t) :
    Full.run sp C calls (later P σ) = laterOutcome (later P) (Full.run sp C calls σ) := by
  refine run_later sp hP (delayed_period h) hC hacc (fun t _ hq hon => ?_) calls σ ht fun _ h => hg h
  by_cases hz : C.ground.tstart = C.ground.tstart + P
  · have : P = 0 := by linarith
    rw [this, add_zero]
  · have := hq hz hon
    exact iff_of_false (by linarith) this.ne'

/-- Two fractions, of which only the first is in the bed. -/
def sortedState : Whole.State 0 0 2 :=
  { sand := { bed := fun _ => { mass := fun _ f => if f = 0 then 159 else 0, pickup := fun _ => 0, zb := 1, zs := 0, dzb := 0 }, Ct := fun _ _ => 0 },
    thr := fun _ => ⟨fun _ => XR.fin 0, fun _ => XR.fin 0, fun _ => XR.fin 0⟩, cap := fun _ _ => ⟨0, 0, 0⟩, speed := fun _ _ => ⟨0, 0, 0⟩,
    w := fun _ _ => 0 }

/-- Wind in the first time step. -/
def firstHour : Env 0 0 2 :=
  { t := 0, dt := 3600, wind := fun _ => ⟨10, 10, 0, 0.5, 0.5, 0, 0.5⟩, duran := fun _ _ => ⟨0, 0, 0⟩, hsmix := fun _ => 0, zs := fun _ => 0,
    moist := fun _ => 0, salt := fun _ => 0, mask := fun _ => (1, 0), zne := fun _ => none, levels := id }

/-- **C161** (finding) At time zero the origin does matter: the first weights of the fractions are those of the grain size distribution there, and those
of the bed at any other time. -/
theorem C161_time_zero : ∃ (C : Whole.Config 2) (E : Env 0 0 2) (σ : Whole.State 0 0 2) (cap : Fin (cells 0 0) → Fin 2 → Capacity) (c : Fin (cells 0 0)),
    E.t = 0 ∧ initialWeights C E σ cap c ≠ initialWeights C (laterEnv 1 E) σ cap c := by
  refine ⟨mixedConfig, firstHour, sortedState, fun _ _ => ⟨0, 0, 0⟩, ⟨0, by decide⟩, rfl, fun h => ?_⟩
  have h1 := congrFun h 1
  unfold initialWeights at h1
  rw [if_pos ⟨rfl, rfl⟩, if_neg fun q => by
    have := q.1
    norm_num [laterEnv, firstHour] at this] at h1
  simp [computeWeights, weightsBed, weightsAir, normalize, normalizeRef, sortedState, mixedConfig] at h1

/-! ### Examples -/

/-- The coast with a file for the composition of the bed. -/
def layeredCoast : Full.Config 2 1 := { coastConfig 20 true with core := { duneConfig with bedcomp := true } }

theorem layeredCoast_core : ConfigOk layeredCoast.core := { duneConfig_ok with }

theorem layeredCoast_names : NamesOk layeredCoast.core := { duneConfig_names with }

theorem layeredCoast_usable : Usable layeredCoast :=
  let h := coast_usable 20 true
  ⟨layeredCoast_core, { h.grid with }, h.speed, h.on, h.kappa, h.rough, h.weights, h.mask, h.step⟩

theorem layeredCoast_files : FilesOk layeredCoast :=
  let h := coast_files 20 true
  ⟨⟨h.wind, h.tide, h.wave, h.moist, h.salt, h.meteo, h.dune⟩, h.ground⟩

theorem layeredCoast_timeless : Timeless layeredCoast := ⟨rfl, fun _ _ => rfl⟩

/-- C161: series that start in the year 2000 instead of 1970. -/
example (calls : List ((ℕ → ℝ) × ℝ)) : ∃ τ, Full.run byInverse layeredCoast calls coastState = some (.ok τ) ∧
    Full.run byInverse (delayedConfig 946684800 layeredCoast) calls (later 946684800 coastState) = some (.ok (later 946684800 τ)) := by
  obtain ⟨τ, hτ⟩ := C133_run_total byInverse layeredCoast layeredCoast_usable layeredCoast_names layeredCoast_files calls coastState fun _ _ => le_rfl
  refine ⟨τ, hτ, ?_⟩
  rw [C161_run byInverse 946684800 layeredCoast layeredCoast_timeless, hτ]
  rfl

/-- C161: the same without a file for the composition, from an hour after the start. -/
example (calls : List ((ℕ → ℝ) × ℝ)) : ∃ τ, Full.run byInverse (coastConfig 20 true) calls (later 3600 coastState) = some (.ok τ) ∧
    Full.run byInverse (delayedConfig 946684800 (coastConfig 20 true)) calls (later 946684800 (later 3600 coastState)) =
      some (.ok (later 946684800 τ)) := by
  obtain ⟨τ, hτ⟩ := C133_run_total byInverse (coastConfig 20 true) (coast_usable 20 true) duneConfig_names (coast_files 20 true) calls
    (later 3600 coastState) fun _ _ => le_rfl
  refine ⟨τ, hτ, ?_⟩
  rw [C161_run_started byInverse 946684800 (by norm_num) (coastConfig 20 true) (coast_usable 20 true) zero_le_one calls _
    (by norm_num [later, coastState]), hτ]
  rfl

/-- C161: a common period of wind (two hours), tide (six hours) and waves (a day), each and one second. -/
theorem coast_periodic : Periodic (7201 * 21601 * 86401) (coastConfig 20 true) where
  wind := fun f h => by
    obtain rfl := Option.some.inj h
    exact ⟨21601 * 86401, by norm_num [listMax, listMin]⟩
  tide := fun f h => by
    obtain rfl := Option.some.inj h
    exact ⟨7201 * 86401, by norm_num [listMax, listMin]⟩
  wave := fun f h => by
    obtain rfl := Option.some.inj h
    exact ⟨7201 * 21601, by norm_num [listMax, listMin]⟩
  meteo := fun f h => by cases h

example (r : ℕ → ℝ) (dt : ℝ) (σ : Full.State 2 1) (ht : 0 < σ.clock.t) :
    Full.update byInverse (coastConfig 20 true) r dt (later (7201 * 21601 * 86401) σ) =
      laterOutcome (fun a => (later (7201 * 21601 * 86401) a.1, a.2)) (Full.update byInverse (coastConfig 20 true) r dt σ) :=
  C161_period byInverse (coastConfig 20 true) coast_periodic r dt σ (fun h => by cases h)
    (Or.inl (iff_of_false (by positivity) ht.ne'))

example (calls : List ((ℕ → ℝ) × ℝ)) (σ : Full.State 2 1) (ht : 0 < σ.clock.t) :
    Full.run byInverse (coastConfig 20 true) calls (later (7201 * 21601 * 86401) σ) =
      laterOutcome (later (7201 * 21601 * 86401)) (Full.run byInverse (coastConfig 20 true) calls σ) :=
  C161_run_period byInverse (by norm_num) (coastConfig 20 true) coast_periodic (coast_usable 20 true) zero_le_one calls σ ht fun h => by cases h

end

end Aeolis.Props
