import Verif.Proofs.PlanarGround
import Verif.Props.HydroStep

/-! Property theorems: groundwater on grids of several rows (C148). -/

set_option linter.unusedSectionVars false

namespace Aeolis.Props

open Aeolis.Hydro Aeolis.Whole

variable {ny : ℕ}

/-- **C148** After a time step with groundwater in steps of at least a second, the water levels in every row are those at the time `t + m d` of
the last groundwater step, and with these the groundwater is at the set-up level where the bed is below it and at most at the bed elsewhere. -/
theorem C148_limits (c : WaterConfig) (r : Fin (ny + 1) → Row) (G : GroundIn) (g : Fin (ny + 1) → GroundRow) (t dt : ℝ)
    (s s' : Fin (ny + 1) → HydroState) (hon : G.on = true) (ht : 1 ≤ G.tfac) (hle : G.tfac ≤ dt) (h : gridStep c r G g t dt s = .ok s') :
    ∃ (d : ℤ) (m : ℕ), Ground.substeps dt G.tfac = .ok (d, m + 1) ∧ ∀ i,
      interpolate c (r i) (t + m * d) (s i).water = .ok (s' i).water ∧
      ∀ j, ((r i).zb j < (s' i).water.DSWL j → (s' i).gw j = (s' i).water.DSWL j) ∧
        ((s' i).water.DSWL j ≤ (r i).zb j → (s' i).gw j ≤ (r i).zb j) := by
  obtain ⟨d, n, hs, -, -, -, -, hn⟩ := C86_coverage dt G.tfac (by linarith) hle
  obtain ⟨m, rfl⟩ : ∃ k, n = k + 1 := ⟨n - 1, by have := hn ht; omega⟩
  obtain ⟨w, x, hw, hx, e⟩ := gridStep_on hon hs h
  obtain ⟨w', gw, b, hw', hb, hd, rfl⟩ := gridSubs_last hx
  refine ⟨d, m, hs, fun i => ⟨?_, fun j => ?_⟩⟩
  · have := hw' i
    rw [Nat.zero_add, interpolate_twice (hw i)] at this
    rw [e i]
    exact this
  · rw [e i]
    unfold Ground.gwStep Ground.limit gridForcing
    dsimp only
    exact ⟨fun hlt => by rw [if_pos hlt], fun hle => by rw [if_neg (not_lt.mpr hle)]; exact min_le_right _ _⟩

/-- **C148** In every case the water levels are those of the start of the time step or, with groundwater, of some time in it, the same in all
rows. -/
theorem C148_some_time (c : WaterConfig) (r : Fin (ny + 1) → Row) (G : GroundIn) (g : Fin (ny + 1) → GroundRow) (t dt : ℝ)
    (s s' : Fin (ny + 1) → HydroState) (h : gridStep c r G g t dt s = .ok s') :
    ∃ τ, (τ = t ∨ G.on = true ∧ (0 < G.tfac → 0 ≤ dt → t ≤ τ ∧ τ ≤ t + dt)) ∧
      ∀ i, interpolate c (r i) τ (s i).water = .ok (s' i).water := by
  match hon : G.on with
  | false =>
    unfold gridStep at h
    match h1 : collect fun i => interpolate c (r i) t (s i).water with
    | .error e => simp [h1] at h
    | .ok w =>
      simp only [h1, gridGround, hon] at h
      obtain rfl := Except.ok.inj h
      exact ⟨t, Or.inl rfl, collect_ok.mp h1⟩
  | true =>
    match hs : Ground.substeps dt G.tfac with
    | .error e =>
      unfold gridStep at h
      match h1 : collect fun i => interpolate c (r i) t (s i).water with
      | .error e => simp [h1] at h
      | .ok w => simp [h1, gridGround, hon, hs] at h
    | .ok (d, m + 1) =>
      obtain ⟨w, x, hw, hx, e⟩ := gridStep_on hon hs h
      obtain ⟨w', gw, b, hw', -, -, rfl⟩ := gridSubs_last hx
      refine ⟨t + m * d, Or.inr ⟨rfl, fun ht hdt => ?_⟩, fun i => ?_⟩
      · have hle : G.tfac ≤ dt := by
          by_contra hc
          rw [C86_short_steps_fail dt G.tfac hdt (not_le.mp hc)] at hs
          cases hs
        obtain ⟨d', n', hs', hd1, -, hd3, -⟩ := C86_coverage dt G.tfac ht hle
        obtain ⟨rfl, rfl⟩ : d' = d ∧ n' = m + 1 := by rw [hs] at hs'; simpa [eq_comm] using hs'
        have hd : (1 : ℝ) ≤ d' := by exact_mod_cast hd1
        push_cast at hd3
        have : (0 : ℝ) ≤ m * d' := by positivity
        constructor <;> linarith
      · have := hw' i
        rw [Nat.zero_add, interpolate_twice (hw i)] at this
        rw [e i]
        exact this
    | .ok (d, 0) =>
      obtain ⟨w, x, hw, hx, e⟩ := gridStep_on hon hs h
      simp only [gridSubs] at hx
      obtain rfl := Except.ok.inj hx
      exact ⟨t, Or.inl rfl, fun i => by rw [e i]; exact hw i⟩

/-- The shoreline is in the same column in all rows, whatever the time. -/
def EqualShorelines (c : WaterConfig) (r : Fin (ny + 1) → Row) (G : GroundIn) (s : Fin (ny + 1) → HydroState) : Prop :=
  ∀ (u : ℝ) (w : Fin (ny + 1) → Water), (∀ i, interpolate c (r i) u (s i).water = .ok (w i)) → ∀ i k, firstDry G (r i) (w i) = firstDry G (r k) (w k)

theorem gridForcing_alone {c : WaterConfig} {r : Fin (ny + 1) → Row} {G : GroundIn} {g : Fin (ny + 1) → GroundRow} {w : Fin (ny + 1) → Water}
    (h : ∀ i k, firstDry G (r i) (w i) = firstDry G (r k) (w k)) (i : Fin (ny + 1)) :
    gridForcing c r G g w i = groundForcing c (r i) (G.inRow (g i)) (w i) := by
  unfold gridForcing groundForcing
  rw [h (rowBefore i) i]
  rfl

theorem gridSub_alone {c : WaterConfig} {r : Fin (ny + 1) → Row} {G : GroundIn} {g : Fin (ny + 1) → GroundRow} {d t : ℝ}
    {s s' : Fin (ny + 1) → Water × (ℕ → ℝ)}
    (hsh : ∀ w : Fin (ny + 1) → Water, (∀ i, interpolate c (r i) t (s i).1 = .ok (w i)) → ∀ i k, firstDry G (r i) (w i) = firstDry G (r k) (w k)) :
    gridSub c r G g d t s = .ok s' ↔ ∀ i, groundSub c (r i) (G.inRow (g i)) d t (s i) = .ok (s' i) := by
  constructor
  · intro h i
    obtain ⟨w, b, hw, hb, hd, rfl⟩ := gridSub_ok h
    unfold groundSub
    rw [show (G.inRow (g i)).boundary = G.boundary from rfl]
    simp only [hw i, hb]
    rw [if_neg (show ¬ firstDry (G.inRow (g i)) (r i) (w i) ≤ 1 from not_le.mpr (hd i)), gridForcing_alone (hsh w hw)]
    rfl
  · intro h
    choose w b hw hb hd e using fun i => groundSub_ok (h i)
    have hb0 : ∀ i, b i = b 0 := fun i => Except.ok.inj ((hb i).symm.trans (hb 0))
    unfold gridSub
    rw [collect_ok.mpr hw, show Ground.boundary G.boundary = .ok (b 0) from hb 0]
    simp only
    rw [if_neg (by push Not; exact hd)]
    congr 1
    funext i
    rw [e i, gridForcing_alone (hsh w hw), hb0 i]
    rfl

theorem gridSubs_alone {c : WaterConfig} {r : Fin (ny + 1) → Row} {G : GroundIn} {g : Fin (ny + 1) → GroundRow} {d t : ℝ}
    {s₀ : Fin (ny + 1) → HydroState} (hsh : EqualShorelines c r G s₀) :
    ∀ {m k : ℕ} {s s' : Fin (ny + 1) → Water × (ℕ → ℝ)}, (∀ i u, interpolate c (r i) u (s i).1 = interpolate c (r i) u (s₀ i).water) →
      (gridSubs c r G g d t k m s = .ok s' ↔ ∀ i, groundSubs c (r i) (G.inRow (g i)) d t k m (s i) = .ok (s' i))
  | 0, k, s, s', _ => by
    simp only [gridSubs, groundSubs]
    constructor
    · intro h i
      rw [Except.ok.inj h]
    · intro h
      congr 1
      funext i
      exact Except.ok.inj (h i)
  | m + 1, k, s, s', hi => by
    have hsh' : ∀ w : Fin (ny + 1) → Water, (∀ i, interpolate c (r i) (t + k * d) (s i).1 = .ok (w i)) → ∀ i k, firstDry G (r i) (w i) = firstDry G (r k) (w k) :=
      fun w hw => hsh _ w fun i => (hi i _).symm.trans (hw i)
    have next : ∀ s₁, gridSub c r G g d (t + k * d) s = .ok s₁ →
        ∀ i u, interpolate c (r i) u (s₁ i).1 = interpolate c (r i) u (s₀ i).water := by
      intro s₁ h1 i u
      obtain ⟨w, b, hw, -, -, rfl⟩ := gridSub_ok h1
      exact (interpolate_twice (hw i)).trans (hi i u)
    constructor
    · intro h i
      unfold gridSubs at h
      match h1 : gridSub c r G g d (t + k * d) s with
      | .error e => simp [h1] at h
      | .ok s₁ =>
        simp only [h1] at h
        unfold groundSubs
        rw [(gridSub_alone hsh').mp h1 i]
        exact (gridSubs_alone hsh (next s₁ h1)).mp h i
    · intro h
      have h1 : ∀ i, ∃ s₁, groundSub c (r i) (G.inRow (g i)) d (t + k * d) (s i) = .ok s₁ := by
        intro i
        have := h i
        unfold groundSubs at this
        match h1 : groundSub c (r i) (G.inRow (g i)) d (t + k * d) (s i) with
        | .error e => simp [h1] at this
        | .ok s₁ => exact ⟨s₁, rfl⟩
      choose s₁ h1 using h1
      have h2 := (gridSub_alone hsh').mpr h1
      unfold gridSubs
      rw [h2]
      refine (gridSubs_alone hsh (next s₁ h2)).mpr fun i => ?_
      have := h i
      unfold groundSubs at this
      rw [h1 i] at this
      exact this

theorem gridPrevious_alone {c : WaterConfig} {r : Fin (ny + 1) → Row} {G : GroundIn} {g : Fin (ny + 1) → GroundRow} {t : ℝ} {m : ℕ}
    {w : Fin (ny + 1) → Water} {gw : Fin (ny + 1) → ℕ → ℝ}
    (hi : ∃ w' : Fin (ny + 1) → Water, ∀ i, interpolate c (r i) t (w i) = .ok (w' i))
    (hsh : ∀ w' : Fin (ny + 1) → Water, (∀ i, interpolate c (r i) t (w i) = .ok (w' i)) → ∀ i k, firstDry G (r i) (w' i) = firstDry G (r k) (w' k)) (i : Fin (ny + 1)) :
    gridPrevious c r G t m w gw i = previousLevel c (r i) (G.inRow (g i)) t m (w i) (gw i) := by
  obtain ⟨w', hw'⟩ := hi
  unfold gridPrevious previousLevel
  rw [collect_ok.mpr hw', hw' i, show (G.inRow (g i)).boundary = G.boundary from rfl]
  split_ifs
  · rfl
  · match hb : Ground.boundary G.boundary with
    | .error e => rfl
    | .ok b =>
      dsimp only
      rw [hsh w' hw' (rowBefore i) i]
      rfl

theorem hydroStep_intro {c : WaterConfig} {r : Row} {G : GroundIn} {t dt : ℝ} {s : HydroState} (hon : G.on = true) {d : ℤ} {m : ℕ}
    (hs : Ground.substeps dt G.tfac = .ok (d, m)) {w : Water} (hw : interpolate c r t s.water = .ok w) {x : Water × (ℕ → ℝ)}
    (hx : groundSubs c r G d t 0 m (w, if t = G.tstart then fun _ => G.inGw else s.gw) = .ok x) :
    hydroStep c r G t dt s = .ok ⟨x.1, x.2, previousLevel c r G t m w (if t = G.tstart then fun _ => G.inGw else s.gw),
      fun j => decide ((if t = G.tstart then (if t = G.tstart then fun _ => G.inGw else s.gw) else s.gwPrev) j <
        (if t = G.tstart then fun _ => G.inGw else s.gw) j)⟩ := by
  unfold hydroStep
  simp only [hw, groundPart, hon, if_true, hs, hx]

theorem gridStep_intro {c : WaterConfig} {r : Fin (ny + 1) → Row} {G : GroundIn} {g : Fin (ny + 1) → GroundRow} {t dt : ℝ}
    {s : Fin (ny + 1) → HydroState} (hon : G.on = true) {d : ℤ} {m : ℕ} (hs : Ground.substeps dt G.tfac = .ok (d, m))
    {w : Fin (ny + 1) → Water} (hw : ∀ i, interpolate c (r i) t (s i).water = .ok (w i)) {x : Fin (ny + 1) → Water × (ℕ → ℝ)}
    (hx : gridSubs c r G g d t 0 m (fun i => (w i, if t = G.tstart then fun _ => G.inGw else (s i).gw)) = .ok x) :
    gridStep c r G g t dt s = .ok fun i => ⟨(x i).1, (x i).2,
      gridPrevious c r G t m w (fun i => if t = G.tstart then fun _ => G.inGw else (s i).gw) i,
      fun j => decide ((if t = G.tstart then (if t = G.tstart then fun _ => G.inGw else (s i).gw) else (s i).gwPrev) j <
        (if t = G.tstart then fun _ => G.inGw else (s i).gw) j)⟩ := by
  unfold gridStep
  simp only [collect_ok.mpr hw, gridGround, hon, if_true, hs, hx]

theorem hydroState_ext {s : HydroState} {w : Water} {a b : ℕ → ℝ} {v : ℕ → Bool} (h1 : w = s.water) (h2 : a = s.gw) (h3 : b = s.gwPrev)
    (h4 : v = s.wetting) : (⟨w, a, b, v⟩ : HydroState) = s := by
  subst h1 h2 h3 h4
  rfl

/-- **C148** On a grid whose shoreline is in the same column in all rows, every row develops as a transect of its own. -/
theorem C148_rows (c : WaterConfig) (r : Fin (ny + 1) → Row) (G : GroundIn) (g : Fin (ny + 1) → GroundRow) (t dt : ℝ)
    (s s' : Fin (ny + 1) → HydroState) (hsh : EqualShorelines c r G s) :
    gridStep c r G g t dt s = .ok s' ↔ ∀ i, hydroStep c (r i) (G.inRow (g i)) t dt (s i) = .ok (s' i) := by
  have hon : ∀ i, (G.inRow (g i)).on = G.on := fun _ => rfl
  match ho : G.on with
  | false =>
    unfold gridStep
    constructor
    · intro h i
      match h1 : collect fun i => interpolate c (r i) t (s i).water with
      | .error e => simp [h1] at h
      | .ok w =>
        simp only [h1, gridGround, ho] at h
        obtain rfl := Except.ok.inj h
        unfold hydroStep
        rw [collect_ok.mp h1 i]
        simp only [groundPart, hon, ho]
        rfl
    · intro h
      have h1 : ∀ i, ∃ w, interpolate c (r i) t (s i).water = .ok w ∧ s' i = { s i with water := w } := by
        intro i
        have := h i
        unfold hydroStep at this
        match h1 : interpolate c (r i) t (s i).water with
        | .error e => simp [h1] at this
        | .ok w =>
          simp only [h1, groundPart, hon, ho] at this
          exact ⟨w, rfl, (Except.ok.inj this).symm⟩
      choose w hw e using h1
      rw [collect_ok.mpr hw]
      simp only [gridGround, ho, Bool.false_eq_true, if_false]
      congr 1
      funext i
      exact (e i).symm
  | true =>
    have hi2 : ∀ w : Fin (ny + 1) → Water, (∀ i, interpolate c (r i) t (s i).water = .ok (w i)) → ∀ i u, interpolate c (r i) u (w i) = interpolate c (r i) u (s i).water :=
      fun w hw i u => interpolate_twice (hw i)
    match hs : Ground.substeps dt G.tfac with
    | .error e =>
      constructor
      · intro h
        unfold gridStep at h
        match h1 : collect fun i => interpolate c (r i) t (s i).water with
        | .error e => simp [h1] at h
        | .ok w => simp [h1, gridGround, ho, hs] at h
      · intro h
        have := h 0
        unfold hydroStep at this
        match h1 : interpolate c (r 0) t (s 0).water with
        | .error e => simp [h1] at this
        | .ok w => simp [h1, groundPart, hon, ho, hs, show (G.inRow (g 0)).tfac = G.tfac from rfl] at this
    | .ok (d, m) =>
      constructor
      · intro h i
        obtain ⟨w, x, hw, hx, e⟩ := gridStep_on ho hs h
        rw [e i, gridPrevious_alone (g := g) ⟨w, fun i => (hi2 w hw i t).trans (hw i)⟩
          (fun w' hw' => hsh t w' fun i => (hi2 w hw i t).symm.trans (hw' i)) i]
        have hx' := (gridSubs_alone (g := g) (d := d) (t := t) (k := 0) (m := m) hsh (hi2 w hw)
          (s := fun i => (w i, if t = G.tstart then fun _ => G.inGw else (s i).gw)) (s' := x)).mp hx i
        exact hydroStep_intro (G := G.inRow (g i)) ho hs (hw i) hx'
      · intro h
        choose w hw h2 h3 h4 using fun i => hydroStep_on (G := G.inRow (g i)) ho hs (h i)
        have hx := (gridSubs_alone (g := g) (d := d) (t := t) (k := 0) (m := m) hsh (hi2 w hw)
          (s := fun i => (w i, if t = G.tstart then fun _ => G.inGw else (s i).gw)) (s' := fun i => ((s' i).water, (s' i).gw))).mpr h2
        rw [gridStep_intro ho hs hw hx]
        congr 1
        funext i
        rw [gridPrevious_alone (g := g) ⟨w, fun i => (hi2 w hw i t).trans (hw i)⟩
          (fun w' hw' => hsh t w' fun i => (hi2 w hw i t).symm.trans (hw' i)) i]
        exact hydroState_ext rfl rfl (h3 i).symm (h4 i).symm

theorem gridSubs_succeeds {c : WaterConfig} {r : Fin (ny + 1) → Row} {G : GroundIn} {g : Fin (ny + 1) → GroundRow} {d t : ℝ}
    {w₀ : Fin (ny + 1) → Water} :
    ∀ {m k : ℕ} {s : Fin (ny + 1) → Water × (ℕ → ℝ)}, (∀ i u, interpolate c (r i) u (s i).1 = interpolate c (r i) u (w₀ i)) →
      ((∃ s', gridSubs c r G g d t k m s = .ok s') ↔
        (m = 0 ∨ ∃ b, Ground.boundary G.boundary = .ok b) ∧
        ∀ l, k ≤ l → l < k + m → ∀ i, ∃ w', interpolate c (r i) (t + (l : ℝ) * d) (w₀ i) = .ok w' ∧ 1 < firstDry G (r i) w')
  | 0, k, s, _ => by
    simp only [gridSubs, true_or, true_and]
    exact ⟨fun _ l h1 h2 => absurd h1 (by omega), fun _ => ⟨_, rfl⟩⟩
  | m + 1, k, s, hi => by
    constructor
    · rintro ⟨s', h⟩
      unfold gridSubs at h
      match h1 : gridSub c r G g d (t + k * d) s with
      | .error e => simp [h1] at h
      | .ok s₁ =>
        simp only [h1] at h
        obtain ⟨w', b, hw', hb, hd, e⟩ := gridSub_ok h1
        have hi₁ : ∀ i u, interpolate c (r i) u (s₁ i).1 = interpolate c (r i) u (w₀ i) := by
          intro i u
          rw [e]
          exact (interpolate_twice (hw' i)).trans (hi i u)
        obtain ⟨-, h2⟩ := (gridSubs_succeeds (m := m) (w₀ := w₀) (s := s₁) hi₁).mp ⟨s', h⟩
        refine ⟨Or.inr ⟨b, hb⟩, fun l hl1 hl2 i => ?_⟩
        by_cases hl : l = k
        · subst hl
          exact ⟨w' i, (hi i _).symm.trans (hw' i), hd i⟩
        · exact h2 l (by omega) (by omega) i
    · rintro ⟨hb, hk⟩
      obtain ⟨b, hb⟩ := hb.resolve_left (by omega)
      choose w' hw' hd using hk k le_rfl (by omega)
      have hw : ∀ i, interpolate c (r i) (t + k * d) (s i).1 = .ok (w' i) := fun i => (hi i _).trans (hw' i)
      obtain ⟨s₁, h1, e⟩ : ∃ s₁, gridSub c r G g d (t + k * d) s = .ok s₁ ∧ ∀ i, (s₁ i).1 = w' i := by
        unfold gridSub
        rw [collect_ok.mpr hw, hb]
        exact ⟨_, if_neg (by push Not; exact hd), fun i => rfl⟩
      have hi₁ : ∀ i u, interpolate c (r i) u (s₁ i).1 = interpolate c (r i) u (w₀ i) := by
        intro i u
        rw [e]
        exact (interpolate_twice (hw i)).trans (hi i u)
      unfold gridSubs
      rw [h1]
      exact (gridSubs_succeeds (m := m) (w₀ := w₀) (s := s₁) hi₁).mpr
        ⟨Or.inr ⟨b, hb⟩, fun l h1 h2 => hk l (by omega) (by omega)⟩

/-- **C148** The time step succeeds exactly if the groundwater step is at least a second, the landward boundary is known, and at every
groundwater step the water levels can be interpolated and in every row the first two cells are not above the set-up level and some other
cell is: a single row that is dry at its seaward end, or flooded, makes the step fail. -/
theorem C148_succeeds (c : WaterConfig) (r : Fin (ny + 1) → Row) (G : GroundIn) (g : Fin (ny + 1) → GroundRow) (t dt : ℝ)
    (s : Fin (ny + 1) → HydroState) (hon : G.on = true) (ht : 1 ≤ G.tfac) (hdt : 0 ≤ dt) :
    (∃ s', gridStep c r G g t dt s = .ok s') ↔
      ∃ (d : ℤ) (m : ℕ), Ground.substeps dt G.tfac = .ok (d, m) ∧ G.tfac ≤ dt ∧
        (lower G.boundary = "no_flow" ∨ lower G.boundary = "static") ∧
        ∀ k < m, ∀ i, ∃ w, interpolate c (r i) (t + k * d) (s i).water = .ok w ∧
          (r i).zb 0 ≤ w.DSWL 0 ∧ (r i).zb 1 ≤ w.DSWL 1 ∧ ∃ j, 2 ≤ j ∧ j < G.n ∧ w.DSWL j < (r i).zb j := by
  have hbnd : (∃ b, Ground.boundary G.boundary = .ok b) ↔ lower G.boundary = "no_flow" ∨ lower G.boundary = "static" := by
    unfold Ground.boundary
    split_ifs with h1 h2
    · simp [h1]
    · simp [h2]
    · simp [h1, h2]
  constructor
  · rintro ⟨s', h⟩
    have hle : G.tfac ≤ dt := by
      by_contra hc
      have hf := C86_short_steps_fail dt G.tfac hdt (not_le.mp hc)
      unfold gridStep at h
      match h1 : collect fun i => interpolate c (r i) t (s i).water with
      | .error e => simp [h1] at h
      | .ok w => simp [h1, gridGround, hon, hf] at h
    obtain ⟨d, n, hs, hd1, hd2, hd3, hd4, hn⟩ := C86_coverage dt G.tfac (by linarith) hle
    obtain ⟨w, x, h1, h2, -⟩ := gridStep_on hon hs h
    obtain ⟨hb, hk⟩ := (gridSubs_succeeds (w₀ := fun i => (s i).water) fun i u => interpolate_twice (h1 i)).mp ⟨_, h2⟩
    refine ⟨d, n, hs, hle, hbnd.mp (hb.resolve_left (by have := hn ht; omega)), fun k hkn i => ?_⟩
    obtain ⟨w', hw', hf⟩ := hk k (by omega) (by omega) i
    exact ⟨w', hw', one_lt_firstDry.mp hf⟩
  · rintro ⟨d, n, hs, hle, hb, hk⟩
    obtain ⟨d', n', hs', -, -, -, -, hn⟩ := C86_coverage dt G.tfac (by linarith) hle
    obtain ⟨rfl, rfl⟩ : d' = d ∧ n' = n := by rw [hs] at hs'; simpa [eq_comm] using hs'
    choose w hw _ using hk 0 (by have := hn ht; omega)
    simp only [Nat.cast_zero, zero_mul, add_zero] at hw
    obtain ⟨x, h2⟩ := (gridSubs_succeeds (G := G) (g := g) (d := d') (t := t) (k := 0) (m := n') (w₀ := fun i => (s i).water)
        (s := fun i => (w i, if t = G.tstart then fun _ => G.inGw else (s i).gw)) fun i u => interpolate_twice (hw i)).mpr
      ⟨Or.inr (hbnd.mpr hb), fun k _ h3 i => by
        obtain ⟨w', hw', hf⟩ := hk k (by omega) i
        exact ⟨w', hw', one_lt_firstDry.mpr hf⟩⟩
    exact ⟨_, gridStep_intro hon hs hw h2⟩

/-- Row `k` is the row before row `i`; the first row comes after the last. -/
def RowBefore (k i : Fin (ny + 1)) : Prop := (k : ℕ) + 1 = i ∨ (i : ℕ) = 0 ∧ (k : ℕ) = ny

theorem rowBefore_of {k i : Fin (ny + 1)} (h : RowBefore k i) : rowBefore i = k := by
  unfold rowBefore
  rw [sub_eq_iff_eq_add]
  rcases h with h | ⟨h1, h2⟩
  · have hi := i.2
    exact Fin.ext (by rw [Fin.val_add_one_of_lt (Fin.lt_def.mpr (by simp only [Fin.val_last]; omega)), h])
  · rw [show k = Fin.last ny from Fin.ext h2, Fin.last_add_one]
    exact Fin.ext h1

/-- **C148** The rows do not develop on their own in general: even in soil that lets no water pass, without waves and seepage, the groundwater of
a row is at the level of the sea in the column where the shoreline of the row before is, on dry land as well. -/
theorem C148_neighbour (c : WaterConfig) (r : Fin (ny + 1) → Row) (G : GroundIn) (g : Fin (ny + 1) → GroundRow) (t dt : ℝ)
    (s s' : Fin (ny + 1) → HydroState) (hon : G.on = true) (ht : 1 ≤ G.tfac) (hle : G.tfac ≤ dt) (hK : G.cfg.K_gw = 0)
    (hseep : G.cfg.seepage = false) (hwave : c.processWave = false) (hmask : ∀ i j, (g i).mask j = (1, 0))
    (h : gridStep c r G g t dt s = .ok s') (k i : Fin (ny + 1)) (hk : RowBefore k i) (j : ℕ)
    (hj : j + 1 = firstDry G (r k) (s' k).water) (hn : j + 4 ≤ G.n) : (s' i).gw j = (s' i).water.DSWL j := by
  obtain ⟨d, n, hs, -, -, -, -, hn'⟩ := C86_coverage dt G.tfac (by linarith) hle
  obtain ⟨m, rfl⟩ : ∃ k, n = k + 1 := ⟨n - 1, by have := hn' ht; omega⟩
  obtain ⟨w, x, hw, hx, e⟩ := gridStep_on hon hs h
  obtain ⟨w', gw, b, hw', hb, hd, rfl⟩ := gridSubs_last hx
  simp only [e] at hj ⊢
  have hr : ∀ GW : ℕ → ℝ, ∀ k, Ground.rate G.cfg G.n (firstDry G (r i) (w' i) - 1) (g i).ds GW k = 0 := by
    intro GW k
    unfold Ground.rate
    rw [hK]
    split_ifs <;> ring
  unfold Ground.gwStep Ground.limit gridForcing Ground.rungeKutta Ground.boussinesq Ground.conditioned Ground.seepageFace
  simp only [hr, hseep, hwave, hmask, Bool.false_eq_true, if_false]
  rw [rowBefore_of hk, show firstDry G (r k) (w' k) - 1 = j by omega]
  have hbnd : Ground.bounds G.cfg b G.n (firstDry G (r i) (w' i) - 1) j (w' i).DSWL (gw i) j = (w' i).DSWL j := by
    unfold Ground.bounds
    rw [if_neg (by omega), Function.update_self]
  rw [hbnd]
  split_ifs with hlt
  · rfl
  · rw [min_eq_left]
    · ring
    · linarith [not_lt.mp hlt]

/-! ### Examples -/

theorem flood_same {t : ℝ} {w w' v v' : Water} (h : interpolate floodConfig floodRow t w = .ok w') (h' : interpolate floodConfig floodRow t v = .ok v') :
    w'.DSWL = v'.DSWL := by
  funext j
  rw [(flood_levels _ _ _ h).1, (flood_levels _ _ _ h').1]
  obtain ⟨a, ha, hj⟩ := (C60_still_water _ _ _ _ _ h j).2.2 _ rfl rfl
  obtain ⟨b, hb, hj'⟩ := (C60_still_water _ _ _ _ _ h' j).2.2 _ rfl rfl
  obtain rfl := Option.some.inj (ha.symm.trans hb)
  rw [hj, hj']

/-- A beach with the same bed in all rows has the shoreline in the same column in all rows, at any tide. -/
theorem flood_shorelines (s : Fin (ny + 1) → HydroState) : EqualShorelines floodConfig (fun _ => floodRow) floodGround s := by
  intro u w hw i k
  unfold firstDry
  rw [flood_same (hw i) (hw k)]

/-- So its groundwater develops in every row as on a transect, whatever the cell sizes and masks of the rows; it can, and is limited by the bed
and the water. -/
example (g : Fin (ny + 1) → GroundRow) (t : ℝ) (s : Fin (ny + 1) → HydroState) :
    ∃ s', gridStep floodConfig (fun _ => floodRow) floodGround g t 3600 s = .ok s' ∧
      (∀ i, hydroStep floodConfig floodRow (floodGround.inRow (g i)) t 3600 (s i) = .ok (s' i)) ∧
      ∀ i j, (s' i).gw j ≤ max (floodRow.zb j) ((s' i).water.DSWL j) := by
  obtain ⟨s', h⟩ := (C148_succeeds floodConfig (fun _ => floodRow) floodGround g t 3600 s rfl (by norm_num [floodGround]) (by norm_num)).mpr
    ⟨_, _, flood_steps, by norm_num [floodGround], Or.inl (by decide +kernel), fun k hk i => by
      obtain ⟨s', hs'⟩ := flood_succeeds t (s i)
      obtain ⟨d, m, h1, -, -, h2⟩ := (C123_succeeds floodConfig floodRow floodGround t 3600 (s i) rfl (by norm_num [floodGround]) (by norm_num)).mp ⟨s', hs'⟩
      rw [flood_steps] at h1
      obtain ⟨rfl, rfl⟩ : (360 : ℤ) = d ∧ 9 + 1 = m := by simpa using h1
      exact h2 k hk⟩
  refine ⟨s', h, (C148_rows _ _ _ _ _ _ _ _ (flood_shorelines s)).mp h, fun i j => ?_⟩
  obtain ⟨d, m, -, hlim⟩ := C148_limits _ _ _ _ _ _ _ _ rfl (by norm_num [floodGround]) (by norm_num [floodGround]) h
  obtain ⟨h1, h2⟩ := (hlim i).2 j
  rcases lt_or_ge (floodRow.zb j) ((s' i).water.DSWL j) with hlt | hge
  · exact (h1 hlt).le.trans (le_max_right _ _)
  · exact (h2 hge).trans (le_max_left _ _)

/-- A beach with a cape: bed level `j - 2` in the first row, `j - 1` in the second. -/
def capeRow (i : Fin (1 + 1)) : Row := { floodRow with zb := fun j => j - (2 - (i : ℕ)) }

theorem cape_levels (i : Fin (1 + 1)) (t : ℝ) (w w' : Water) (h : interpolate floodConfig (capeRow i) t w = .ok w') :
    (∀ j, w'.DSWL j = w'.SWL j) ∧ ∃ v, 0 ≤ v ∧ v ≤ 1 ∧ interpCircular [((0 : ℝ), (0 : ℝ)), (3240, 1), (7200, 1)] t = some v ∧ ∀ j, w'.SWL j = v := by
  constructor
  · intro j
    obtain ⟨SWL, Hs, Tp, Hm, h1, h2, h3, rfl⟩ := interpolate_ok h
    obtain ⟨rfl, rfl⟩ : (fun j : ℕ => (capeRow i).zb j * 0) = Hs ∧ (fun j : ℕ => (capeRow i).zb j * 0) = Tp := by
      simpa [Hydro.waves, floodConfig] using h2
    simp [runup, floodConfig, capeRow, floodRow, stockdon]
  · obtain ⟨v, hv, h1, h2⟩ := C10_within_data_range [((0 : ℝ), (0 : ℝ)), (3240, 1), (7200, 1)] (by simp) flood_inc t 0 1 (by simp)
    refine ⟨v, h1, h2, hv, fun j => ?_⟩
    obtain ⟨v', hv', hj⟩ := (C60_still_water _ _ _ _ _ h j).2.2 _ rfl rfl
    obtain rfl := Option.some.inj (hv.symm.trans hv')
    rw [hj]
    simp [capeRow, floodRow]

/-- In soil that lets no water pass the groundwater of the cape rises from 0 m to the level of the sea, 1 m, in a cell three metres from the edge
with its bed at 2 m, because the shoreline of the other row is there. -/
example (s : Fin (1 + 1) → HydroState) : ∃ s', gridStep floodConfig capeRow { floodGround with cfg := ⟨0, 0, 0.3, 10, 0.7, false⟩ }
      (fun _ => ⟨fun _ => 1, fun _ => (1, 0), fun j => j⟩) 0 3600 s = .ok s' ∧ (capeRow 1).zb 3 = 2 ∧ (s' 1).gw 3 = 1 := by
  have hz : (capeRow 1).zb 3 = 2 := by norm_num [capeRow]
  obtain ⟨s', h⟩ := (C148_succeeds floodConfig capeRow { floodGround with cfg := ⟨0, 0, 0.3, 10, 0.7, false⟩ }
      (fun _ => ⟨fun _ => 1, fun _ => (1, 0), fun j => j⟩) 0 3600 s rfl (by norm_num [floodGround]) (by norm_num)).mpr
    ⟨_, _, flood_steps, by norm_num [floodGround], Or.inl (by decide +kernel), fun k hk i => by
      obtain ⟨w, hw⟩ := C60_never_fails floodConfig (capeRow i) (0 + k * (360 : ℤ)) (s i).water (by
        rintro ts h
        obtain rfl : [((0 : ℝ), (0 : ℝ)), (3240, 1), (7200, 1)] = ts := Option.some.inj h
        exact ⟨by simp, flood_inc⟩) (by rintro ts h; cases h)
      obtain ⟨h1, v, h2, h3, -, h4⟩ := cape_levels i _ _ _ hw
      have hi : (((i : ℕ) : ℕ) : ℝ) ≤ 1 := by exact_mod_cast Nat.lt_succ_iff.mp i.2
      have hi0 : (0 : ℝ) ≤ ((i : ℕ) : ℝ) := Nat.cast_nonneg _
      refine ⟨w, hw, ?_, ?_, 5, by norm_num, by norm_num [floodGround], ?_⟩
      all_goals rw [h1, h4]
      · norm_num [capeRow]; linarith
      · norm_num [capeRow]; linarith
      · norm_num [capeRow]; linarith⟩
  refine ⟨s', h, hz, ?_⟩
  obtain ⟨d, m, hs, hlim⟩ := C148_limits _ _ _ _ _ _ _ _ rfl (by norm_num [floodGround]) (by norm_num [floodGround]) h
  have hs : Ground.substeps (3600 : ℝ) floodGround.tfac = .ok (d, m + 1) := hs
  rw [flood_steps] at hs
  obtain ⟨rfl, rfl⟩ : (360 : ℤ) = d ∧ m = 9 := by simpa using hs
  have lev : ∀ i j, (s' i).water.DSWL j = 1 := by
    intro i j
    have := (hlim i).1
    rw [show (0 : ℝ) + (9 : ℕ) * ((360 : ℤ) : ℝ) = 3240 by norm_num] at this
    obtain ⟨h1, v, -, -, hv, h4⟩ := cape_levels i _ _ _ this
    have h5 := C08_listed_times _ flood_inc 1 (by simp)
    simp only [List.getElem_cons_succ, List.getElem_cons_zero] at h5
    rw [h1, h4, Option.some.inj (hv.symm.trans h5)]
  have hn := C148_neighbour _ _ _ _ _ _ _ _ rfl (by norm_num [floodGround]) (by norm_num [floodGround]) rfl rfl rfl (fun _ _ => rfl) h 0 1 (Or.inl rfl) 3
    (by
      rw [firstDry_eq (shl := 3) (by norm_num [floodGround])
        (fun j hj => by
          rw [lev]
          have : (j : ℝ) ≤ 3 := by exact_mod_cast hj
          norm_num [capeRow]
          linarith)
        (by rw [lev]; norm_num [capeRow])])
    (by norm_num [floodGround])
  rw [hn, lev]

end Aeolis.Props
