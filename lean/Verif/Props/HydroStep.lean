import Verif.Proofs.HydroStep
import Verif.Props.Hydro
import Verif.Props.Groundwater

/-! C123 (time of the water levels in a step with groundwater, and when the step fails), C124 (whether the groundwater rises). -/

set_option linter.unusedSectionVars false

namespace Aeolis.Props

open Aeolis.Hydro Aeolis.Spec

theorem hydroStep_on {c : WaterConfig} {r : Row} {G : GroundIn} {t dt : ℝ} {s s' : HydroState}
    (hon : G.on = true) {d : ℤ} {m : ℕ} (hs : Ground.substeps dt G.tfac = .ok (d, m)) (h : hydroStep c r G t dt s = .ok s') :
    ∃ w, interpolate c r t s.water = .ok w ∧
      groundSubs c r G d t 0 m (w, if t = G.tstart then fun _ => G.inGw else s.gw) = .ok (s'.water, s'.gw) ∧
      s'.gwPrev = previousLevel c r G t m w (if t = G.tstart then fun _ => G.inGw else s.gw) ∧
      s'.wetting = fun j => decide ((if t = G.tstart then (if t = G.tstart then fun _ => G.inGw else s.gw) else s.gwPrev) j <
        (if t = G.tstart then fun _ => G.inGw else s.gw) j) := by
  unfold hydroStep at h
  match h1 : interpolate c r t s.water with
  | .error e => simp [h1] at h
  | .ok w =>
    simp only [h1, groundPart, hon, if_true, hs] at h
    refine ⟨w, rfl, ?_⟩
    match h2 : groundSubs c r G d t 0 m (w, if t = G.tstart then fun _ => G.inGw else s.gw) with
    | .error e => simp [h2] at h
    | .ok (w', g') =>
      simp only [h2] at h
      obtain rfl := Except.ok.inj h
      exact ⟨rfl, rfl, rfl⟩

/-- C123: without groundwater the water levels and waves used in a time step are those at the start of the step, and the groundwater is
left alone. -/
theorem C123_levels_off (c : WaterConfig) (r : Row) (G : GroundIn) (t dt : ℝ) (s s' : HydroState) (hoff : G.on = false)
    (h : hydroStep c r G t dt s = .ok s') :
    interpolate c r t s.water = .ok s'.water ∧ s'.gw = s.gw := by
  unfold hydroStep at h
  match h1 : interpolate c r t s.water with
  | .error e => simp [h1] at h
  | .ok w =>
    simp [h1, groundPart, hoff] at h
    rw [← h]; exact ⟨rfl, rfl⟩

/-- C123: with groundwater in `m + 1` steps of `d` seconds, the water levels and waves used in the rest of the time step are those at the
last groundwater step, time `t + m d`. -/
theorem C123_levels_on (c : WaterConfig) (r : Row) (G : GroundIn) (t dt : ℝ) (s s' : HydroState) (hon : G.on = true)
    (d : ℤ) (m : ℕ) (hs : Ground.substeps dt G.tfac = .ok (d, m + 1)) (h : hydroStep c r G t dt s = .ok s') :
    interpolate c r (t + m * d) s.water = .ok s'.water := by
  obtain ⟨w, h1, h2, -⟩ := hydroStep_on hon hs h
  have := groundSubs_water h2
  rw [Nat.zero_add, interpolate_twice h1] at this
  exact this

/-- C123: after a step with groundwater in steps of at least a second the groundwater is at the set-up level where the bed is below it, and at
most at the bed elsewhere. -/
theorem C123_limits (c : WaterConfig) (r : Row) (G : GroundIn) (t dt : ℝ) (s s' : HydroState) (hon : G.on = true)
    (ht : 1 ≤ G.tfac) (hle : G.tfac ≤ dt) (h : hydroStep c r G t dt s = .ok s') (j : ℕ) :
    (r.zb j < s'.water.DSWL j → s'.gw j = s'.water.DSWL j) ∧ (s'.water.DSWL j ≤ r.zb j → s'.gw j ≤ r.zb j) := by
  obtain ⟨d, n, hs, -, -, -, -, hn⟩ := C86_coverage dt G.tfac (by linarith) hle
  obtain ⟨m, rfl⟩ : ∃ k, n = k + 1 := ⟨n - 1, by have := hn ht; omega⟩
  obtain ⟨w, -, h2, -⟩ := hydroStep_on hon hs h
  obtain ⟨b, gw, e⟩ := groundSubs_last h2
  rw [e]
  unfold Ground.gwStep Ground.limit groundForcing
  dsimp only
  exact ⟨fun hlt => by rw [if_pos hlt], fun hle => by rw [if_neg (not_lt.mpr hle)]; exact min_le_right _ _⟩

/-- C123: so with groundwater the water levels are those of some time in the last two groundwater steps before the end of the time step,
not of its start. -/
theorem C123_window (c : WaterConfig) (r : Row) (G : GroundIn) (t dt : ℝ) (s s' : HydroState) (hon : G.on = true)
    (ht : 1 ≤ G.tfac) (hle : G.tfac ≤ dt) (h : hydroStep c r G t dt s = .ok s') :
    ∃ (τ : ℝ) (d : ℤ), 1 ≤ d ∧ (d : ℝ) ≤ dt / G.tfac ∧ t ≤ τ ∧ t + dt - 2 * d < τ ∧ τ ≤ t + dt - d ∧
      interpolate c r τ s.water = .ok s'.water := by
  obtain ⟨d, n, hs, hd1, hd2, hd3, hd4, hn⟩ := C86_coverage dt G.tfac (by linarith) hle
  obtain ⟨m, rfl⟩ : ∃ k, n = k + 1 := ⟨n - 1, by have := hn ht; omega⟩
  have hd : (1 : ℝ) ≤ d := by exact_mod_cast hd1
  push_cast at hd3 hd4
  refine ⟨t + m * d, d, hd1, hd2, ?_, by linarith, by linarith, C123_levels_on c r G t dt s s' hon d m hs h⟩
  have : (0 : ℝ) ≤ m * d := by positivity
  linarith

/-- C123: in every case they are those of the start of the time step or, with groundwater, of some time in it. -/
theorem C123_some_time (c : WaterConfig) (r : Row) (G : GroundIn) (t dt : ℝ) (s s' : HydroState) (h : hydroStep c r G t dt s = .ok s') :
    ∃ τ, (τ = t ∨ G.on = true ∧ (0 < G.tfac → 0 ≤ dt → t ≤ τ ∧ τ ≤ t + dt)) ∧ interpolate c r τ s.water = .ok s'.water := by
  match hon : G.on with
  | false => exact ⟨t, Or.inl rfl, (C123_levels_off c r G t dt s s' hon h).1⟩
  | true =>
    match hs : Ground.substeps dt G.tfac with
    | .error e =>
      unfold hydroStep at h
      match h1 : interpolate c r t s.water with
      | .error e => simp [h1] at h
      | .ok w => simp [h1, groundPart, hon, hs] at h
    | .ok (d, m + 1) =>
      refine ⟨_, Or.inr ⟨rfl, fun ht hdt => ?_⟩, C123_levels_on c r G t dt s s' hon d m hs h⟩
      have hle : G.tfac ≤ dt := by
        by_contra hc
        rw [C86_short_steps_fail dt G.tfac hdt (not_le.mp hc)] at hs
        cases hs
      obtain ⟨d', n', hs', hd1, -, hd3, -⟩ := C86_coverage dt G.tfac ht hle
      obtain ⟨rfl, rfl⟩ : d' = d ∧ n' = m + 1 := by rw [hs] at hs'; simpa [eq_comm] using hs'
      have hd : (1 : ℝ) ≤ d' := by exact_mod_cast hd1
      push_cast at hd3
      have : (0 : ℝ) ≤ m * d' := by positivity
      constructor <;> linarith
    | .ok (d, 0) =>
      unfold hydroStep at h
      match h1 : interpolate c r t s.water with
      | .error e => simp [h1] at h
      | .ok w =>
        simp only [h1, groundPart, hon, hs, groundSubs, if_true] at h
        obtain rfl := Except.ok.inj h
        exact ⟨t, Or.inl rfl, h1⟩

/-- C123: the time step succeeds exactly if the groundwater step is at least a second, the landward boundary is known, and at every
groundwater step the water levels can be interpolated, the first two cells are not above the set-up level and some other cell is. -/
theorem C123_succeeds (c : WaterConfig) (r : Row) (G : GroundIn) (t dt : ℝ) (s : HydroState) (hon : G.on = true)
    (ht : 1 ≤ G.tfac) (hdt : 0 ≤ dt) :
    (∃ s', hydroStep c r G t dt s = .ok s') ↔
      ∃ (d : ℤ) (m : ℕ), Ground.substeps dt G.tfac = .ok (d, m) ∧ G.tfac ≤ dt ∧
        (lower G.boundary = "no_flow" ∨ lower G.boundary = "static") ∧
        ∀ k < m, ∃ w, interpolate c r (t + k * d) s.water = .ok w ∧
          r.zb 0 ≤ w.DSWL 0 ∧ r.zb 1 ≤ w.DSWL 1 ∧ ∃ j, 2 ≤ j ∧ j < G.n ∧ w.DSWL j < r.zb j := by
  have hbnd : (∃ b, Ground.boundary G.boundary = .ok b) ↔ lower G.boundary = "no_flow" ∨ lower G.boundary = "static" := by
    unfold Ground.boundary
    split_ifs with h1 h2
    · simp [h1]
    · simp [h2]
    · simp [h1, h2]
  constructor
  · rintro ⟨s', h⟩
    have hle : G.tfac ≤ dt := by
      by_contra hc
      have hf := C86_short_steps_fail dt G.tfac hdt (not_le.mp hc)
      unfold hydroStep at h
      match h1 : interpolate c r t s.water with
      | .error e => simp [h1] at h
      | .ok w => simp [h1, groundPart, hon, hf] at h
    obtain ⟨d, n, hs, hd1, hd2, hd3, hd4, hn⟩ := C86_coverage dt G.tfac (by linarith) hle
    obtain ⟨w, h1, h2, -⟩ := hydroStep_on hon hs h
    obtain ⟨hb, hk⟩ := (groundSubs_succeeds (Or.inr ⟨t, h1⟩)).mp ⟨_, h2⟩
    refine ⟨d, n, hs, hle, hbnd.mp (hb.resolve_left (by have := hn ht; omega)), fun k hkn => ?_⟩
    obtain ⟨w', hw', hf⟩ := hk k (by omega) (by omega)
    exact ⟨w', hw', one_lt_firstDry.mp hf⟩
  · rintro ⟨d, n, hs, hle, hb, hk⟩
    obtain ⟨d', n', hs', -, -, -, -, hn⟩ := C86_coverage dt G.tfac (by linarith) hle
    obtain ⟨rfl, rfl⟩ : d' = d ∧ n' = n := by rw [hs] at hs'; simpa [eq_comm] using hs'
    obtain ⟨w, hw, -⟩ := hk 0 (by have := hn ht; omega)
    rw [Nat.cast_zero, zero_mul, add_zero] at hw
    obtain ⟨⟨w', g'⟩, h2⟩ := (groundSubs_succeeds (G := G) (d := d') (t := t) (i := 0) (m := n')
        (g := if t = G.tstart then fun _ => G.inGw else s.gw) (Or.inr ⟨t, hw⟩)).mpr
      ⟨Or.inr (hbnd.mpr hb), fun k _ h3 => by
        obtain ⟨w', hw', hf⟩ := hk k (by omega)
        exact ⟨w', hw', one_lt_firstDry.mpr hf⟩⟩
    unfold hydroStep
    simp only [hw, groundPart, hon, if_true, hs, h2]
    exact ⟨_, rfl⟩

/-- C123: a transect whose bed is above the set-up level in its first cell, or in its second, or nowhere, at the start of the time step,
makes the groundwater computation raise `ValueError`. -/
theorem C123_no_shoreline_fails (c : WaterConfig) (r : Row) (G : GroundIn) (t dt : ℝ) (s : HydroState) (w : Water) (hon : G.on = true)
    (ht : 1 ≤ G.tfac) (hle : G.tfac ≤ dt) (hb : lower G.boundary = "no_flow" ∨ lower G.boundary = "static")
    (hw : interpolate c r t s.water = .ok w)
    (hdry : w.DSWL 0 < r.zb 0 ∨ w.DSWL 1 < r.zb 1 ∨ ∀ j < G.n, r.zb j ≤ w.DSWL j) :
    hydroStep c r G t dt s = .error .valueError := by
  obtain ⟨d, n, hs, -, -, -, -, hn⟩ := C86_coverage dt G.tfac (by linarith) hle
  obtain ⟨m, rfl⟩ : ∃ k, n = k + 1 := ⟨n - 1, by have := hn ht; omega⟩
  have hw2 : interpolate c r t w = .ok w := by rw [interpolate_twice hw, hw]
  have hf : firstDry G r w ≤ 1 := by
    by_contra hc
    obtain ⟨h0, h1, j, hj, hjn, hd⟩ := one_lt_firstDry.mp (not_le.mp hc)
    rcases hdry with h | h | h
    · linarith
    · linarith
    · exact absurd (h j hjn) (not_le.mpr hd)
  obtain ⟨b, hb⟩ : ∃ b, Ground.boundary G.boundary = .ok b := by
    unfold Ground.boundary
    rcases hb with h | h
    · exact ⟨0, by simp [h]⟩
    · exact ⟨1, by simp [h]⟩
  unfold hydroStep
  simp only [hw, groundPart, hon, if_true, hs, groundSubs, groundSub, Nat.cast_zero, zero_mul, add_zero, hw2, hb, if_pos hf]

/-- C124: at the start of the simulation no cell is marked as wetting. -/
theorem C124_start (c : WaterConfig) (r : Row) (G : GroundIn) (dt : ℝ) (s s' : HydroState) (hon : G.on = true)
    (h : hydroStep c r G G.tstart dt s = .ok s') (j : ℕ) : s'.wetting j = false := by
  unfold hydroStep at h
  match h1 : interpolate c r G.tstart s.water with
  | .error e => simp [h1] at h
  | .ok w =>
    simp only [h1, groundPart, hon, if_true] at h
    match h2 : Ground.substeps dt G.tfac with
    | .error e => simp [h2] at h
    | .ok (d, m) =>
      simp only [h2] at h
      match h3 : groundSubs c r G d G.tstart 0 m (w, fun _ => G.inGw) with
      | .error e => simp [h3] at h
      | .ok (w', g') =>
        simp only [h3] at h
        obtain rfl := Except.ok.inj h
        simp

theorem firstDry_eq {G : GroundIn} {r : Row} {w : Water} {shl : ℕ} (hn : shl + 1 < G.n) (hwet : ∀ i ≤ shl, r.zb i ≤ w.DSWL i)
    (hdry : w.DSWL (shl + 1) < r.zb (shl + 1)) : firstDry G r w = shl + 1 := by
  classical
  unfold firstDry firstCell
  have hex : ∃ j, j < G.n ∧ w.DSWL j < r.zb j := ⟨_, hn, hdry⟩
  rw [dif_pos hex]
  rw [Nat.find_eq_iff]
  exact ⟨⟨hn, hdry⟩, fun m hm h => absurd (hwet m (by omega)) (not_le.mpr h.2)⟩

private theorem hydroStep_prev {c : WaterConfig} {r : Row} {G : GroundIn} {t dt : ℝ} {s s' : HydroState} {w : Water} (hon : G.on = true)
    (ht : 1 ≤ G.tfac) (hle : G.tfac ≤ dt) (h : hydroStep c r G t dt s = .ok s') (hw : interpolate c r t s.water = .ok w) :
    ∃ b, Ground.boundary G.boundary = .ok b ∧
    s'.gwPrev = Ground.conditioned G.cfg b G.n (firstDry G r w - 1) (firstDry G r w - 1) w.DSWL r.zb
      (if t = G.tstart then fun _ => G.inGw else s.gw) := by
  obtain ⟨d, n, hs, -, -, -, -, hn⟩ := C86_coverage dt G.tfac (by linarith) hle
  obtain ⟨m, rfl⟩ : ∃ k, n = k + 1 := ⟨n - 1, by have := hn ht; omega⟩
  obtain ⟨w₁, h1, h2, h3, -⟩ := hydroStep_on hon hs h
  rw [hw] at h1
  obtain rfl := Except.ok.inj h1
  have hw2 : interpolate c r t w = .ok w := by rw [interpolate_twice hw, hw]
  obtain ⟨hb, -⟩ := (groundSubs_succeeds (Or.inr ⟨t, hw⟩)).mp ⟨_, h2⟩
  obtain ⟨b, hb⟩ := hb.resolve_left (by omega)
  refine ⟨b, hb, ?_⟩
  rw [h3]
  unfold previousLevel
  rw [if_neg (by omega)]
  simp only [hw2, hb]

private theorem hydroStep_wetting {c : WaterConfig} {r : Row} {G : GroundIn} {t dt : ℝ} {s s' : HydroState} (hon : G.on = true)
    (h0 : t ≠ G.tstart) (h : hydroStep c r G t dt s = .ok s') (j : ℕ) : s'.wetting j = true ↔ s.gwPrev j < s.gw j := by
  unfold hydroStep at h
  match h1 : interpolate c r t s.water with
  | .error e => simp [h1] at h
  | .ok w =>
    simp only [h1, groundPart, hon, if_true, if_neg h0] at h
    match h2 : Ground.substeps dt G.tfac with
    | .error e => simp [h2] at h
    | .ok (d, m) =>
      simp only [h2] at h
      match h3 : groundSubs c r G d t 0 m (w, s.gw) with
      | .error e => simp [h3] at h
      | .ok (w', g') =>
        simp only [h3] at h
        obtain rfl := Except.ok.inj h
        simp

/-- C124: in a later step a cell is marked as wetting exactly if the groundwater rose in the previous time step (of which `shl` is the last
cell not above the set-up level), for cells other than `shl` and the last three, and without seepage face landward of `shl`. -/
theorem C124_rises (c : WaterConfig) (r r' : Row) (G : GroundIn) (t dt t' dt' : ℝ) (s s' s'' : HydroState) (w : Water) (hon : G.on = true)
    (ht : 1 ≤ G.tfac) (hle : G.tfac ≤ dt) (h0 : t ≠ G.tstart) (h0' : t' ≠ G.tstart)
    (h : hydroStep c r G t dt s = .ok s') (h' : hydroStep c r' G t' dt' s' = .ok s'')
    (hw : interpolate c r t s.water = .ok w) (shl : ℕ) (hn : shl + 1 < G.n) (hwet : ∀ i ≤ shl, r.zb i ≤ w.DSWL i)
    (hdry : w.DSWL (shl + 1) < r.zb (shl + 1)) (j : ℕ) (hj : j + 3 < G.n) (hne : j ≠ shl) (hseep : G.cfg.seepage = false ∨ j < shl) :
    s''.wetting j = true ↔ s.gw j < s'.gw j := by
  obtain ⟨b, -, hp⟩ := hydroStep_prev hon ht hle h hw
  rw [hydroStep_wetting hon h0' h', hp, firstDry_eq hn hwet hdry, if_neg h0]
  have : Ground.conditioned G.cfg b G.n (shl + 1 - 1) (shl + 1 - 1) w.DSWL r.zb s.gw j = s.gw j := by
    unfold Ground.conditioned Ground.seepageFace Ground.bounds
    simp only [Nat.add_sub_cancel]
    have e : (if G.n - 3 ≤ j ∧ j < G.n then
          if b = 0 then Function.update (Function.update s.gw shl (w.DSWL shl)) shl (w.DSWL shl) (G.n - 4)
          else if b = 1 then G.cfg.gwStat
          else Function.update (Function.update s.gw shl (w.DSWL shl)) shl (w.DSWL shl) j
        else Function.update (Function.update s.gw shl (w.DSWL shl)) shl (w.DSWL shl) j) = s.gw j := by
      rw [if_neg (by omega), Function.update_of_ne hne, Function.update_of_ne hne]
    match hs : G.cfg.seepage with
    | false => simp only [Bool.false_eq_true, if_false]; exact e
    | true =>
      have hlt := hseep.resolve_left (by simp [hs])
      simp only [if_true]
      rw [if_neg (by omega)]
      exact e
  rw [this]

/-- C124: at the shoreline of the previous step the level is compared with the set-up level at the start of that step, because saving the
groundwater level keeps a reference to the array in which the boundary values are set: the groundwater there may have been lower. -/
theorem C124_shoreline (c : WaterConfig) (r r' : Row) (G : GroundIn) (t dt t' dt' : ℝ) (s s' s'' : HydroState) (w : Water) (hon : G.on = true)
    (ht : 1 ≤ G.tfac) (hle : G.tfac ≤ dt) (h0' : t' ≠ G.tstart)
    (h : hydroStep c r G t dt s = .ok s') (h' : hydroStep c r' G t' dt' s' = .ok s'')
    (hw : interpolate c r t s.water = .ok w) (shl : ℕ) (hn : shl + 3 < G.n) (hwet : ∀ i ≤ shl, r.zb i ≤ w.DSWL i)
    (hdry : w.DSWL (shl + 1) < r.zb (shl + 1)) (hseep : G.cfg.seepage = false) :
    s''.wetting shl = true ↔ w.DSWL shl < s'.gw shl := by
  obtain ⟨b, -, hp⟩ := hydroStep_prev hon ht hle h hw
  rw [hydroStep_wetting hon h0' h', hp, firstDry_eq (by omega) hwet hdry]
  have : ∀ g, Ground.conditioned G.cfg b G.n (shl + 1 - 1) (shl + 1 - 1) w.DSWL r.zb g shl = w.DSWL shl := by
    intro g
    unfold Ground.conditioned Ground.seepageFace Ground.bounds
    simp only [Nat.add_sub_cancel, hseep, Bool.false_eq_true, if_false]
    rw [if_neg (by omega), Function.update_self]
  rw [this]

private theorem firstAbove_eq {G : GroundIn} {r : Row} {w : Water} {ru : ℕ} (hn : ru + 1 < G.n) (hwet : ∀ i ≤ ru, r.zb i ≤ w.TWL i)
    (hdry : w.TWL (ru + 1) < r.zb (ru + 1)) : firstAbove G r w = ru + 1 := by
  classical
  unfold firstAbove firstCell
  have hex : ∃ j, j < G.n ∧ w.TWL j < r.zb j := ⟨_, hn, hdry⟩
  rw [dif_pos hex]
  rw [Nat.find_eq_iff]
  exact ⟨⟨hn, hdry⟩, fun m hm h => absurd (hwet m (by omega)) (not_le.mpr h.2)⟩

/-- C90: with waves the water that infiltrates in a groundwater step, on a grid with equal cell sizes, has a factor between zero and one, in
the stretch between the last cell below the set-up level and the last cell the runup reaches only. -/
theorem C90_infiltration (c : WaterConfig) (r : Row) (G : GroundIn) (w : Water) (hc : c.processWave = true) (x0 d : ℝ) (hd : 0 < d)
    (hx : ∀ j, G.x j = x0 + j * d) (shl ru : ℕ) (hlt : shl < ru) (hn : ru + 1 < G.n) (hwet : ∀ i ≤ shl, r.zb i ≤ w.DSWL i)
    (hdry : w.DSWL (shl + 1) < r.zb (shl + 1)) (hrun : ∀ i ≤ ru, r.zb i ≤ w.TWL i) (htop : w.TWL (ru + 1) < r.zb (ru + 1)) (j : ℕ) :
    0 ≤ (groundForcing c r G w).fx j ∧ (groundForcing c r G w).fx j ≤ 1 ∧
      (j < shl ∨ ru ≤ j → (groundForcing c r G w).fx j = 0) ∧ (j = shl + 2 * (ru - shl) / 3 → (groundForcing c r G w).fx j = 1) := by
  have e : (groundForcing c r G w).fx = Ground.overheight G.x shl (shl + 2 * (ru - shl) / 3) ru := by
    unfold groundForcing Ground.infiltrated
    simp only [hc, if_true, firstDry_eq (show shl + 1 < G.n by omega) hwet hdry, firstAbove_eq hn hrun htop, Nat.add_sub_cancel,
      Nat.add_one_ne_zero, if_false]
    rw [show (shl + 2 * ru) / 3 = shl + 2 * (ru - shl) / 3 by omega]
  rw [e]
  obtain ⟨h1, h2, h3, h4⟩ := C90_overheight G.x x0 d hd hx shl ru hlt j
  exact ⟨h1, h2, h4, fun h => by rw [h]; exact h3⟩

/-- C90: without waves nothing infiltrates. -/
theorem C90_no_waves (c : WaterConfig) (r : Row) (G : GroundIn) (w : Water) (hc : c.processWave = false) (j : ℕ) :
    (groundForcing c r G w).fx j = 0 := by
  unfold groundForcing
  simp [hc]

/-- C90: if the runup covers the whole transect the runup limit is taken to be the cell before the first one, which is the last one: the
factor decreases linearly from three, instead of one, over all cells landward of the shoreline. -/
theorem C90_overwash (c : WaterConfig) (r : Row) (G : GroundIn) (w : Water) (hc : c.processWave = true) (x0 d : ℝ) (hd : 0 < d)
    (hx : ∀ j, G.x j = x0 + j * d) (shl : ℕ) (h1 : 1 ≤ shl) (hn : shl + 1 < G.n) (hwet : ∀ i ≤ shl, r.zb i ≤ w.DSWL i)
    (hdry : w.DSWL (shl + 1) < r.zb (shl + 1)) (hrun : ∀ i < G.n, r.zb i ≤ w.TWL i) (j : ℕ) (hj : shl ≤ j) (hjn : j + 1 < G.n) :
    (groundForcing c r G w).fx j = 3 * (((G.n : ℝ) - 1 - j) / ((G.n : ℝ) - 1 - shl)) := by
  have e : firstAbove G r w = 0 := by
    classical
    unfold firstAbove firstCell
    rw [dif_neg]
    rintro ⟨i, hi, h⟩
    exact absurd (hrun i hi) (not_le.mpr h)
  unfold groundForcing Ground.infiltrated Ground.overheight
  simp only [hc, if_true, firstDry_eq hn hwet hdry, e, Nat.add_sub_cancel]
  rw [if_neg (by omega), if_pos (by omega)]
  obtain ⟨N, hN⟩ : ∃ N, G.n = N + 1 := ⟨G.n - 1, by omega⟩
  rw [hN, hx, hx, hx]
  have hlt : (shl : ℝ) < N := by exact_mod_cast (by omega : shl < N)
  have hpos : (0 : ℝ) < N - shl := by linarith
  have hd' := hd.ne'
  have hp' := hpos.ne'
  simp only [Nat.add_sub_cancel]
  push_cast
  rw [show x0 + (N : ℝ) * d - (x0 + shl * d) = (N - shl) * d by ring, show x0 + (j : ℝ) * d - (x0 + shl * d) = (j - shl) * d by ring,
    show (N : ℝ) + 1 - 1 - j = N - j by ring, show (N : ℝ) + 1 - 1 - shl = N - shl by ring]
  field_simp
  ring

/-- A rising tide without waves: 0 m at the start, 1 m after 54 minutes. -/
def floodConfig : WaterConfig where
  processTide := true
  processWave := false
  processRunup := true
  tideFile := some [(0, 0), (3240, 1), (7200, 1)]
  waveFile := none
  gamma := 0.5
  beachSlope := 0.1

/-- A beach with bed level `j - 2`. -/
def floodRow : Row where
  zb := fun j => j - 2
  tideMask := fun _ => (1, 0)
  waveMask := fun _ => (1, 0)
  runupMask := none

/-- Groundwater on ten cells, ten steps in a time step. -/
def floodGround : GroundIn where
  on := true
  cfg := ⟨0, 0.00078, 0.3, 10, 0.7, false⟩
  boundary := "no_flow"
  n := 10
  tfac := 10
  tstart := 0
  inGw := 0
  ds := fun _ => 1
  mask := fun _ => (1, 0)
  x := fun j => j

/-- Still water and dry bed everywhere. -/
def floodState : HydroState := ⟨calmWater, fun _ => 0, fun _ => 0, fun _ => false⟩

theorem flood_inc : Increasing [((0 : ℝ), (0 : ℝ)), (3240, 1), (7200, 1)] := by
  simp [Increasing]; norm_num

theorem flood_levels (t : ℝ) (w w' : Water) (h : interpolate floodConfig floodRow t w = .ok w') :
    (∀ j, w'.DSWL j = w'.SWL j) ∧ ∀ j, 0 ≤ w'.SWL j ∧ w'.SWL j ≤ 1 := by
  constructor
  · intro j
    obtain ⟨SWL, Hs, Tp, Hm, h1, h2, h3, rfl⟩ := interpolate_ok h
    obtain ⟨rfl, rfl⟩ : (fun j : ℕ => floodRow.zb j * 0) = Hs ∧ (fun j : ℕ => floodRow.zb j * 0) = Tp := by
      simpa [waves, floodConfig] using h2
    simp [runup, floodConfig, floodRow, stockdon]
  · intro j
    obtain ⟨v, hv, hj⟩ := (C60_still_water _ _ _ _ _ h j).2.2 _ rfl rfl
    obtain ⟨v', hv', h1, h2⟩ := C10_within_data_range [((0 : ℝ), (0 : ℝ)), (3240, 1), (7200, 1)] (by simp) flood_inc t 0 1 (by simp)
    rw [hv] at hv'
    obtain rfl := Option.some.inj hv'
    rw [hj]; simp only [floodRow]; constructor <;> linarith

theorem rising_levels (zb : ℕ → ℝ) (t : ℝ) (w w' : Water) (h : interpolate floodConfig ⟨zb, fun _ => (1, 0), fun _ => (1, 0), none⟩ t w = .ok w') :
    (∀ j, w'.DSWL j = w'.SWL j) ∧ ∀ j, 0 ≤ w'.SWL j ∧ w'.SWL j ≤ 1 := by
  constructor
  · intro j
    obtain ⟨SWL, Hs, Tp, Hm, h1, h2, h3, rfl⟩ := interpolate_ok h
    obtain ⟨rfl, rfl⟩ : (fun j : ℕ => zb j * 0) = Hs ∧ (fun j : ℕ => zb j * 0) = Tp := by
      simpa [waves, floodConfig] using h2
    simp [runup, floodConfig, stockdon]
  · intro j
    obtain ⟨v, hv, hj⟩ := (C60_still_water _ _ _ _ _ h j).2.2 _ rfl rfl
    obtain ⟨v', hv', h1, h2⟩ := C10_within_data_range [((0 : ℝ), (0 : ℝ)), (3240, 1), (7200, 1)] (by simp) flood_inc t 0 1 (by simp)
    rw [hv] at hv'
    obtain rfl := Option.some.inj hv'
    rw [hj]
    constructor <;> linarith

theorem flood_steps : Ground.substeps (3600 : ℝ) floodGround.tfac = .ok (360, 9 + 1) := by
  have h1 : (3600 : ℝ) / 10 = (360 : ℤ) := by norm_num
  have h2 : (3600 : ℝ) / ((360 : ℤ) : ℝ) = (10 : ℤ) := by norm_num
  unfold Ground.substeps Ground.pyInt floodGround
  simp only [h1, Int.floor_intCast, if_neg (show ¬ (10 : ℝ) = 0 by norm_num), if_pos (show (0 : ℝ) ≤ ((360 : ℤ) : ℝ) by norm_num), h2,
    if_pos (show (0 : ℝ) ≤ ((10 : ℤ) : ℝ) by norm_num)]
  norm_num
  rfl

/-- The time step succeeds for the rising tide, whatever its start time and the state before. -/
theorem flood_succeeds (t : ℝ) (s : HydroState) : ∃ s', hydroStep floodConfig floodRow floodGround t 3600 s = .ok s' := by
  refine (C123_succeeds _ _ _ _ _ _ rfl (by norm_num [floodGround]) (by norm_num)).mpr
    ⟨_, _, flood_steps, by norm_num [floodGround], Or.inl (by decide +kernel), fun k _ => ?_⟩
  obtain ⟨w, hw⟩ := C60_never_fails floodConfig floodRow (t + k * (360 : ℤ)) s.water (by
    rintro ts h
    obtain rfl : [((0 : ℝ), (0 : ℝ)), (3240, 1), (7200, 1)] = ts := Option.some.inj h
    exact ⟨by simp, flood_inc⟩) (by rintro ts h; cases h)
  obtain ⟨h1, h2⟩ := flood_levels _ _ _ hw
  refine ⟨w, hw, ?_, ?_, 5, by norm_num, by norm_num [floodGround], ?_⟩
  all_goals rw [h1]
  · have := (h2 0).1; norm_num [floodRow]; linarith
  · have := (h2 1).1; norm_num [floodRow]; linarith
  · have := (h2 5).2; norm_num [floodRow]; linarith

/-- C123: the difference is visible: with a rising tide the still water level used in the first hour is 1 m with groundwater, and 0 m
without. -/
theorem C123_late (s : HydroState) :
    (∃ s', hydroStep floodConfig floodRow floodGround 0 3600 s = .ok s' ∧ ∀ j, s'.water.SWL j = 1) ∧
    (∀ s', hydroStep floodConfig floodRow { floodGround with on := false } 0 3600 s = .ok s' → ∀ j, s'.water.SWL j = 0) := by
  constructor
  · obtain ⟨s', h⟩ := flood_succeeds 0 s
    refine ⟨s', h, fun j => ?_⟩
    have hw := C123_levels_on _ _ _ _ _ _ _ rfl _ _ flood_steps h
    rw [show (0 : ℝ) + (9 : ℕ) * ((360 : ℤ) : ℝ) = 3240 by norm_num] at hw
    obtain ⟨v, hv, hj⟩ := (C60_still_water _ _ _ _ _ hw j).2.2 _ rfl rfl
    have := C08_listed_times _ flood_inc 1 (by simp)
    simp only [List.getElem_cons_succ, List.getElem_cons_zero] at this
    rw [this] at hv
    obtain rfl := Option.some.inj hv
    rw [hj]; simp [floodRow]
  · intro s' h j
    obtain ⟨hw, -⟩ := C123_levels_off _ _ _ _ _ _ _ rfl h
    obtain ⟨v, hv, hj⟩ := (C60_still_water _ _ _ _ _ hw j).2.2 _ rfl rfl
    have := C08_listed_times _ flood_inc 0 (by simp)
    simp only [List.getElem_cons_zero] at this
    rw [this] at hv
    obtain rfl := Option.some.inj hv
    rw [hj]; simp [floodRow]

/-- The window is met with a step of an hour. -/
example (s : HydroState) : ∃ s', hydroStep floodConfig floodRow floodGround 7200 3600 s = .ok s' ∧
    ∃ (τ : ℝ) (d : ℤ), 1 ≤ d ∧ (d : ℝ) ≤ 3600 / floodGround.tfac ∧ 7200 ≤ τ ∧ (7200 : ℝ) + 3600 - 2 * d < τ ∧ τ ≤ 7200 + 3600 - d ∧
      interpolate floodConfig floodRow τ s.water = .ok s'.water := by
  obtain ⟨s', h⟩ := flood_succeeds 7200 s
  exact ⟨s', h, C123_window _ _ _ _ _ _ _ rfl (by norm_num [floodGround]) (by norm_num [floodGround]) h⟩

/-- A beach entirely above the water. -/
example (s : HydroState) : hydroStep floodConfig { floodRow with zb := fun j => j + 2 } floodGround 0 3600 s = .error .valueError := by
  obtain ⟨w, hw⟩ := C60_never_fails floodConfig { floodRow with zb := fun j => j + 2 } 0 s.water (by
    rintro ts h
    obtain rfl : [((0 : ℝ), (0 : ℝ)), (3240, 1), (7200, 1)] = ts := Option.some.inj h
    exact ⟨by simp, flood_inc⟩) (by rintro ts h; cases h)
  refine C123_no_shoreline_fails _ _ _ _ _ _ w rfl (by norm_num [floodGround]) (by norm_num [floodGround]) (Or.inl (by decide +kernel)) hw
    (Or.inl ?_)
  obtain ⟨v, hv, hj⟩ := (C60_still_water _ _ _ _ _ hw 0).2.2 _ rfl rfl
  have := C08_listed_times _ flood_inc 0 (by simp)
  simp only [List.getElem_cons_zero] at this
  rw [this] at hv
  obtain rfl := Option.some.inj hv
  have hd : w.DSWL 0 = w.SWL 0 := by
    obtain ⟨SWL, Hs, Tp, Hm, h1, h2, h3, rfl⟩ := interpolate_ok hw
    obtain ⟨rfl, rfl⟩ : (fun j : ℕ => ((j : ℝ) + 2) * 0) = Hs ∧ (fun j : ℕ => ((j : ℝ) + 2) * 0) = Tp := by
      simpa [waves, floodConfig] using h2
    simp [runup, floodConfig, floodRow, stockdon]
  rw [hd, hj]; norm_num [floodRow]

/-- Two steps of the rising tide: wetting in the second step means rising in the first, away from the shoreline. -/
example (s : HydroState) : ∃ s' s'', hydroStep floodConfig floodRow floodGround 3240 3600 s = .ok s' ∧
    hydroStep floodConfig floodRow floodGround 6840 3600 s' = .ok s'' ∧ (s''.wetting 5 = true ↔ s.gw 5 < s'.gw 5) ∧
    (s''.wetting 3 = true ↔ 1 < s'.gw 3) := by
  obtain ⟨s', h⟩ := flood_succeeds 3240 s
  obtain ⟨s'', h'⟩ := flood_succeeds 6840 s'
  obtain ⟨w, hw⟩ := C60_never_fails floodConfig floodRow 3240 s.water (by
    rintro ts h
    obtain rfl : [((0 : ℝ), (0 : ℝ)), (3240, 1), (7200, 1)] = ts := Option.some.inj h
    exact ⟨by simp, flood_inc⟩) (by rintro ts h; cases h)
  have hd : ∀ j, w.DSWL j = 1 := by
    intro j
    rw [(flood_levels _ _ _ hw).1]
    obtain ⟨v, hv, hj⟩ := (C60_still_water _ _ _ _ _ hw j).2.2 _ rfl rfl
    have := C08_listed_times _ flood_inc 1 (by simp)
    simp only [List.getElem_cons_succ, List.getElem_cons_zero] at this
    rw [this] at hv
    obtain rfl := Option.some.inj hv
    rw [hj]; simp [floodRow]
  have hwet : ∀ i ≤ 3, floodRow.zb i ≤ w.DSWL i := by
    intro i hi
    have : (i : ℝ) ≤ 3 := by exact_mod_cast hi
    rw [hd]; simp only [floodRow]; linarith
  have hdry : w.DSWL (3 + 1) < floodRow.zb (3 + 1) := by rw [hd]; norm_num [floodRow]
  refine ⟨s', s'', h, h', ?_, ?_⟩
  · exact C124_rises _ _ _ _ _ _ _ _ _ _ _ w rfl (by norm_num [floodGround]) (by norm_num [floodGround]) (by norm_num [floodGround])
      (by norm_num [floodGround]) h h' hw 3 (by norm_num [floodGround]) hwet hdry 5 (by norm_num [floodGround]) (by norm_num) (Or.inl rfl)
  · rw [C124_shoreline _ _ _ _ _ _ _ _ _ _ _ w rfl (by norm_num [floodGround]) (by norm_num [floodGround])
      (by norm_num [floodGround]) h h' hw 3 (by norm_num [floodGround]) hwet hdry rfl, hd]

example : ∃ s', hydroStep floodConfig floodRow floodGround 0 3600 floodState = .ok s' ∧ ∀ j, s'.wetting j = false := by
  obtain ⟨s', h⟩ := flood_succeeds 0 floodState
  exact ⟨s', h, C124_start _ _ floodGround _ _ _ rfl h⟩

/-- A set-up level of 0.5 m with a runup of 1.2 m on the beach, or of 9 m over all of it. -/
def floodWater (twl : ℝ) : Water := { calmWater with DSWL := fun _ => 0.5, TWL := fun _ => twl }

/-- C90: a runup to the cell at 1 m. -/
example (j : ℕ) : (groundForcing { floodConfig with processWave := true } floodRow floodGround (floodWater 2.2)).fx j ≤ 1 :=
  (C90_infiltration { floodConfig with processWave := true } floodRow floodGround (floodWater 2.2) rfl 0 1 one_pos
    (by simp [floodGround]) 2 4 (by norm_num) (by norm_num [floodGround])
    (fun i hi => by have : (i : ℝ) ≤ 2 := by exact_mod_cast hi
                    simp only [floodRow, floodWater]; linarith)
    (by norm_num [floodRow, floodWater])
    (fun i hi => by have : (i : ℝ) ≤ 4 := by exact_mod_cast hi
                    simp only [floodRow, floodWater]; linarith)
    (by norm_num [floodRow, floodWater]) j).2.1

/-- C90: a runup over the whole transect: 2.57 times the infiltration of the peak in the first dry cell. -/
example : (groundForcing { floodConfig with processWave := true } floodRow floodGround (floodWater 9)).fx 3 = 18 / 7 := by
  rw [C90_overwash { floodConfig with processWave := true } floodRow floodGround (floodWater 9) rfl 0 1 one_pos
    (by simp [floodGround]) 2 (by norm_num) (by norm_num [floodGround])
    (fun i hi => by have : (i : ℝ) ≤ 2 := by exact_mod_cast hi
                    simp only [floodRow, floodWater]; linarith)
    (by norm_num [floodRow, floodWater])
    (fun i hi => by have : (i : ℝ) < 10 := by exact_mod_cast hi
                    simp only [floodRow, floodWater]; linarith) 3 (by norm_num) (by norm_num [floodGround])]
  norm_num [floodGround]

/-- Without groundwater. -/
example (s : HydroState) (s' : HydroState) (h : hydroStep floodConfig floodRow { floodGround with on := false } 0 3600 s = .ok s') :
    s'.gw = s.gw :=
  (C123_levels_off _ _ _ _ _ _ _ rfl h).2

/-- The levels at the end are those of the last of ten parts, 3240 s after the start, and limit the groundwater. -/
example (s : HydroState) : ∃ s', hydroStep floodConfig floodRow floodGround 0 3600 s = .ok s' ∧
    interpolate floodConfig floodRow (0 + (9 : ℕ) * (360 : ℤ)) s.water = .ok s'.water ∧
    (floodRow.zb 2 < s'.water.DSWL 2 → s'.gw 2 = s'.water.DSWL 2) := by
  obtain ⟨s', h⟩ := flood_succeeds 0 s
  have hs : Ground.substeps 3600 floodGround.tfac = .ok (360, 9 + 1) := by
    have h1 : ⌊(3600 : ℝ) / floodGround.tfac⌋ = 360 := by rw [Int.floor_eq_iff]; norm_num [floodGround]
    have h2 : ⌊(3600 : ℝ) / ((360 : ℤ) : ℝ)⌋ = 10 := by rw [Int.floor_eq_iff]; norm_num
    unfold Ground.substeps Ground.pyInt
    rw [if_neg (by norm_num [floodGround]), if_pos (by norm_num [floodGround] : (0 : ℝ) ≤ 3600 / floodGround.tfac), h1]
    dsimp only
    rw [if_neg (by norm_num), if_pos (by norm_num), h2]
    rfl
  exact ⟨s', h, C123_levels_on _ _ _ _ _ _ _ rfl 360 9 hs h,
    (C123_limits _ _ _ _ _ _ _ rfl (by norm_num [floodGround]) (by norm_num [floodGround]) h 2).1⟩

example (s : HydroState) : ∃ s' τ, hydroStep floodConfig floodRow floodGround 0 3600 s = .ok s' ∧
    (0 ≤ τ ∧ τ ≤ 3600) ∧ interpolate floodConfig floodRow τ s.water = .ok s'.water := by
  obtain ⟨s', h⟩ := flood_succeeds 0 s
  obtain ⟨τ, h1, h2⟩ := C123_some_time _ _ _ _ _ _ _ h
  refine ⟨s', τ, h, ?_, h2⟩
  rcases h1 with rfl | ⟨-, h1⟩
  · norm_num
  · have := h1 (by norm_num [floodGround]) (by norm_num)
    simpa using this

example (j : ℕ) : (groundForcing { floodConfig with processWave := false } floodRow floodGround (floodWater 9)).fx j = 0 :=
  C90_no_waves _ _ _ _ rfl j

end Aeolis.Props
