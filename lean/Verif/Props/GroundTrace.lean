import Verif.Props.PlanarGround
import Verif.Props.GroundwaterMore

/-! Property theorems: what a time step with groundwater computes from what (C149). -/

set_option linter.unusedSectionVars false

namespace Aeolis.Props

open Aeolis.Hydro Aeolis.Whole

variable {ny : ℕ}

/-! ### Specification -/

/-- `H` are the levels `gw` in a row of `n` cells with the values at the ends: the set-up level in the columns `shl` and `shl'`, in the last
three cells the level next to them or a given one. -/
structure EndLevels (boundary : String) (stat : ℝ) (n shl shl' : ℕ) (dswl gw H : ℕ → ℝ) : Prop where
  sea : shl + 3 < n → H shl = dswl shl
  sea' : shl' + 3 < n → H shl' = dswl shl'
  inner : ∀ j, j + 3 < n → j ≠ shl → j ≠ shl' → H j = gw j
  noFlow : lower boundary = "no_flow" → ∀ j, n ≤ j + 3 → j < n → H j = H (n - 4)
  static : lower boundary = "static" → ∀ j, n ≤ j + 3 → j < n → H j = stat

/-- `G` are the levels `H` with the bed level on the seepage face: from the shoreline up to two cells before the first one where the bed is more
than 5 cm above the groundwater. -/
def SeepageLevels (on : Bool) (n shl : ℕ) (zb H G : ℕ → ℝ) : Prop :=
  (on = false → ∀ j < n, G j = H j) ∧
  (on = true →
    ((∀ i < n, zb i ≤ H i + 0.05) ∧ ∀ j < n, G j = H j) ∨
    ∃ e < n, H e + 0.05 < zb e ∧ (∀ i < e, zb i ≤ H i + 0.05) ∧
      ∀ j < n, (shl ≤ j ∧ j + 1 < e → G j = zb j) ∧ (j < shl ∨ e ≤ j + 1 → G j = H j))

/-- `f` is the rate of change of the levels `G` in the cells between the shoreline and the last three, zero elsewhere. -/
def RateOf (c : Ground.Config ℝ) (n shl : ℕ) (ds G f : ℕ → ℝ) : Prop :=
  ∀ j < n, (shl < j ∧ j + 3 < n → f j = c.K_gw / c.ne * (c.D * ((G (j + 1) - 2 * G j + G (j - 1)) / ds j ^ 2) +
      (G (j + 1) * (G (j + 2) + G j) / ds (j + 1) - G (j - 1) * (G j + G (j - 2)) / ds (j - 1)) / ds j)) ∧
    (j ≤ shl ∨ n ≤ j + 3 → f j = 0)

/-- `gw` with the values at the ends and on the seepage face is `G`, and `f` its rate of change. -/
def StageOf (c : Ground.Config ℝ) (boundary : String) (n shl shl' : ℕ) (dswl ds zb gw G f : ℕ → ℝ) : Prop :=
  (∃ H, EndLevels boundary c.gwStat n shl shl' dswl gw H ∧ SeepageLevels c.seepage n shl zb H G) ∧ RateOf c n shl ds G f

/-- The share of the runup that infiltrates in every cell: none without waves; otherwise it grows linearly from the shoreline to the peak
two thirds up the runup and falls linearly from there to the runup limit.  If the runup covers the row (or not even its first cell), the last
cell serves as the limit, and the peak is seaward of the shoreline. -/
def InfiltratesAs (waves : Bool) (x zb twl : ℕ → ℝ) (n shl : ℕ) (fx : ℕ → ℝ) : Prop :=
  (waves = false → ∀ j, fx j = 0) ∧
  (waves = true → ∃ pk ru : ℕ,
    (ru + 1 < n ∧ (∀ i ≤ ru, zb i ≤ twl i) ∧ twl (ru + 1) < zb (ru + 1) ∧ pk = (shl + 2 * ru) / 3 ∨
      ((∀ i < n, zb i ≤ twl i) ∨ twl 0 < zb 0) ∧ ru = n - 1 ∧ pk = (shl - 2) / 3) ∧
    fx pk = 1 ∧ ∀ j, j ≠ pk →
      (shl ≤ j ∧ j < pk → fx j = (x j - x shl) / (2 / 3 * (x ru - x shl))) ∧
      (pk < j ∧ j < ru → fx j = 3 - (x j - x shl) / (1 / 3 * (x ru - x shl))) ∧
      (j < shl ∧ j < pk ∨ pk < j ∧ ru ≤ j → fx j = 0))

/-- A groundwater step of `d` seconds from the levels `gw` to the levels `gw'`: the classical Runge-Kutta method, the infiltration, the mask and the
limits. -/
def GroundStepOf (c : Ground.Config ℝ) (boundary : String) (n shl shl' : ℕ) (d : ℝ) (dswl ds zb : ℕ → ℝ) (mask : ℕ → ℝ × ℝ)
    (fx gw gw' : ℕ → ℝ) : Prop :=
  ∃ G1 G2 G3 G4 f1 f2 f3 f4 : ℕ → ℝ,
    StageOf c boundary n shl shl' dswl ds zb gw G1 f1 ∧
    StageOf c boundary n shl shl' dswl ds zb (fun j => G1 j + d / 2 * f1 j) G2 f2 ∧
    StageOf c boundary n shl shl' dswl ds zb (fun j => G1 j + d / 2 * f2 j) G3 f3 ∧
    StageOf c boundary n shl shl' dswl ds zb (fun j => G1 j + d * f3 j) G4 f4 ∧
    ∀ j, (zb j < dswl j → gw' j = dswl j) ∧
      (dswl j ≤ zb j → gw' j = min (zb j) ((G1 j + d * (f1 j + 2 * f2 j + 2 * f3 j + f4 j) / 6 + c.Cl * fx j) * (mask j).1 + (mask j).2))

/-! ### The step -/

theorem endLevels_of (c : Ground.Config ℝ) {boundary : String} {b n : ℕ} (hb : Ground.boundary boundary = .ok b) (hn : 4 ≤ n) (shl shl' : ℕ)
    (dswl gw : ℕ → ℝ) : EndLevels boundary c.gwStat n shl shl' dswl gw (Ground.bounds c b n shl shl' dswl gw) := by
  have hin : ∀ j, j + 3 < n → Ground.bounds c b n shl shl' dswl gw j =
      Function.update (Function.update gw shl (dswl shl)) shl' (dswl shl') j := fun j hj => by
    unfold Ground.bounds
    rw [if_neg (by omega)]
  refine ⟨fun h => ?_, fun h => ?_, fun j h h1 h2 => ?_, fun h j h1 h2 => ?_, fun h j h1 h2 => ?_⟩
  · rw [hin _ h]
    by_cases e : shl = shl'
    · rw [e, Function.update_self]
    · rw [Function.update_of_ne e, Function.update_self]
  · rw [hin _ h, Function.update_self]
  · rw [hin _ h, Function.update_of_ne h2, Function.update_of_ne h1]
  · have : b = 0 := by
      unfold Ground.boundary at hb
      rw [if_pos h] at hb
      exact (Except.ok.inj hb).symm
    subst this
    rw [hin (n - 4) (by omega)]
    unfold Ground.bounds
    rw [if_pos (by omega), if_pos rfl]
  · have : b = 1 := by
      unfold Ground.boundary at hb
      rw [if_neg (by rw [h]; decide), if_pos h] at hb
      exact (Except.ok.inj hb).symm
    subst this
    unfold Ground.bounds
    rw [if_pos (by omega), if_neg one_ne_zero, if_pos rfl]

theorem seepageLevels_of (c : Ground.Config ℝ) (n shl : ℕ) (zb H : ℕ → ℝ) :
    SeepageLevels c.seepage n shl zb H (Ground.seepageFace c n shl zb H) := by
  constructor
  · intro h j _
    unfold Ground.seepageFace
    rw [if_neg (by simp [h])]
  · intro h
    by_cases hw : ∀ i < n, zb i ≤ H i + 0.05
    · left
      exact ⟨hw, fun j _ => by rw [C65_seepage_all_wet c n shl zb H hw]⟩
    · right
      classical
      push Not at hw
      have hspec := Nat.find_spec hw
      refine ⟨Nat.find hw, hspec.1, hspec.2, fun i hi => ?_, fun j hj => ?_⟩
      · by_contra hc
        exact Nat.find_min hw hi ⟨by omega, not_le.mp hc⟩
      · have hx : Ground.exitPoint n zb H = Nat.find hw := by
          unfold Ground.exitPoint
          have : (List.range n).find? (fun j => decide (¬ zb j ≤ H j + 0.05)) = some (Nat.find hw) := by
            rw [List.find?_range_eq_some]
            refine ⟨by simpa using hspec.2, List.mem_range.mpr hspec.1, fun i hi => ?_⟩
            have : zb i ≤ H i + 0.05 := by
              by_contra hc
              exact Nat.find_min hw hi ⟨by omega, not_le.mp hc⟩
            simpa using this
          rw [this]
        unfold Ground.seepageFace
        rw [if_pos h, hx]
        exact ⟨fun h => by rw [if_pos (by omega)], fun h => by rw [if_neg (by omega)]⟩

theorem stageOf_boussinesq (c : Ground.Config ℝ) {boundary : String} {b n : ℕ} (hb : Ground.boundary boundary = .ok b) (hn : 4 ≤ n)
    (shl shl' : ℕ) (dswl ds zb gw : ℕ → ℝ) :
    StageOf c boundary n shl shl' dswl ds zb gw (Ground.boussinesq c b n shl shl' dswl ds zb gw).2
      (Ground.boussinesq c b n shl shl' dswl ds zb gw).1 := by
  refine ⟨⟨_, endLevels_of c hb hn shl shl' dswl gw, seepageLevels_of c n shl zb _⟩, fun j _ => ⟨fun h => ?_, fun h => ?_⟩⟩
  · show Ground.rate _ _ _ _ _ j = _
    unfold Ground.rate Ground.flux
    rw [if_pos (by omega), show j + 1 + 1 = j + 2 by omega, show j + 1 - 1 = j by omega, show j - 1 + 1 = j by omega,
      show j - 1 - 1 = j - 2 by omega]
    rfl
  · show Ground.rate _ _ _ _ _ j = _
    unfold Ground.rate
    rw [if_neg (by omega)]

theorem groundStepOf_gwStep (c : Ground.Config ℝ) {boundary : String} {b n : ℕ} (hb : Ground.boundary boundary = .ok b) (hn : 4 ≤ n)
    (d : ℝ) (ds zb : ℕ → ℝ) (mask : ℕ → ℝ × ℝ) (f : Ground.Forcing ℝ) (gw : ℕ → ℝ) :
    GroundStepOf c boundary n f.shl f.shl' d f.dswl ds zb mask f.fx gw (Ground.gwStep c b n d ds zb mask f gw) := by
  refine ⟨_, _, _, _, _, _, _, _, stageOf_boussinesq c hb hn _ _ _ _ _ _, stageOf_boussinesq c hb hn _ _ _ _ _ _,
    stageOf_boussinesq c hb hn _ _ _ _ _ _, stageOf_boussinesq c hb hn _ _ _ _ _ _, fun j => ⟨fun h => ?_, fun h => ?_⟩⟩
  · unfold Ground.gwStep Ground.limit
    rw [if_pos h]
  · unfold Ground.gwStep Ground.limit Ground.rungeKutta
    rw [if_neg (not_lt.mpr h), min_comm]
    congr 3
    ring

theorem firstCell_pos {n : ℕ} {p : ℕ → Prop} (h : firstCell n p ≠ 0) :
    firstCell n p < n ∧ p (firstCell n p) ∧ ∀ i < firstCell n p, ¬ p i := by
  classical
  unfold firstCell at h ⊢
  split_ifs at h ⊢ with hex
  · have hs := Nat.find_spec hex
    exact ⟨hs.1, hs.2, fun i hi hp => Nat.find_min hex hi ⟨by omega, hp⟩⟩
  · exact absurd rfl h

theorem firstCell_zero {n : ℕ} {p : ℕ → Prop} (h : firstCell n p = 0) : (∀ i < n, ¬ p i) ∨ p 0 := by
  classical
  unfold firstCell at h
  split_ifs at h with hex
  · right
    have := (Nat.find_spec hex).2
    rwa [h] at this
  · left
    exact fun i hi hp => hex ⟨i, hi, hp⟩

theorem infiltratesAs_of (waves : Bool) (x zb twl : ℕ → ℝ) (n shl : ℕ) :
    InfiltratesAs waves x zb twl n shl
      (if waves then Ground.infiltrated x n shl (firstCell n fun j => twl j < zb j) else fun _ => 0) := by
  classical
  refine ⟨fun h j => by simp [h], fun h => ?_⟩
  rw [if_pos h]
  have key : ∀ pk ru : ℕ, Ground.overheight x shl pk ru pk = 1 ∧ ∀ j, j ≠ pk →
      (shl ≤ j ∧ j < pk → Ground.overheight x shl pk ru j = (x j - x shl) / (2 / 3 * (x ru - x shl))) ∧
      (pk < j ∧ j < ru → Ground.overheight x shl pk ru j = 3 - (x j - x shl) / (1 / 3 * (x ru - x shl))) ∧
      (j < shl ∧ j < pk ∨ pk < j ∧ ru ≤ j → Ground.overheight x shl pk ru j = 0) := by
    intro pk ru
    refine ⟨by simp [Ground.overheight], fun j hj => ⟨fun h => ?_, fun h => ?_, fun h => ?_⟩⟩
    · unfold Ground.overheight
      rw [if_neg hj, if_neg (by omega), if_pos (by omega)]
    · unfold Ground.overheight
      rw [if_neg hj, if_pos (by omega)]
    · unfold Ground.overheight
      rw [if_neg hj, if_neg (by omega), if_neg (by omega)]
  have e : ∀ j, Ground.infiltrated x n shl (firstCell n fun j => twl j < zb j) j =
      if (firstCell n fun j => twl j < zb j) = 0 then Ground.overheight x shl ((shl - 2) / 3) (n - 1) j
      else Ground.overheight x shl ((shl + 2 * ((firstCell n fun j => twl j < zb j) - 1)) / 3) ((firstCell n fun j => twl j < zb j) - 1) j :=
    fun _ => rfl
  by_cases h0 : (firstCell n fun j => twl j < zb j) = 0
  · simp only [e, if_pos h0]
    refine ⟨(shl - 2) / 3, n - 1, Or.inr ⟨?_, rfl, rfl⟩, key _ _⟩
    rcases firstCell_zero h0 with h | h
    · exact Or.inl fun i hi => not_lt.mp (h i hi)
    · exact Or.inr h
  · simp only [e, if_neg h0]
    obtain ⟨h1, h2, h3⟩ := firstCell_pos h0
    have h4 : (firstCell n fun j => twl j < zb j) - 1 + 1 = firstCell n fun j => twl j < zb j := by omega
    refine ⟨_, (firstCell n fun j => twl j < zb j) - 1, Or.inl ⟨by omega, fun i hi => not_lt.mp (h3 i (by omega)), ?_, rfl⟩, key _ _⟩
    rw [h4]
    exact h2

/-- `shl` is the last cell of the seaward part of the row at or below the set-up level; it is neither the first nor the last cell of the row. -/
def ShorelineAt (n : ℕ) (zb dswl : ℕ → ℝ) (shl : ℕ) : Prop :=
  1 ≤ shl ∧ shl + 1 < n ∧ (∀ i ≤ shl, zb i ≤ dswl i) ∧ dswl (shl + 1) < zb (shl + 1)

theorem shorelineAt_of {G : GroundIn} {r : Row} {w : Water} (h : 1 < firstDry G r w) : ShorelineAt G.n r.zb w.DSWL (firstDry G r w - 1) := by
  obtain ⟨h1, h2, h3⟩ := firstCell_pos (n := G.n) (p := fun j => w.DSWL j < r.zb j) (show firstDry G r w ≠ 0 by omega)
  have h4 : firstDry G r w - 1 + 1 = firstDry G r w := by omega
  have h1' : firstDry G r w < G.n := h1
  refine ⟨by omega, by omega, fun i hi => not_lt.mp (h3 i (show i < firstDry G r w by omega)), ?_⟩
  rw [h4]
  exact h2

theorem gridSubs_trace {c : WaterConfig} {r : Fin (ny + 1) → Row} {G : GroundIn} {g : Fin (ny + 1) → GroundRow} {d t : ℝ} (hn : 4 ≤ G.n) :
    ∀ {m k : ℕ} {s s' : Fin (ny + 1) → Water × (ℕ → ℝ)}, gridSubs c r G g d t k m s = .ok s' →
      ∃ (w : ℕ → Fin (ny + 1) → Water) (shl : ℕ → Fin (ny + 1) → ℕ) (L : ℕ → Fin (ny + 1) → ℕ → ℝ), (∀ i, L k i = (s i).2) ∧
        (∀ i, L (k + m) i = (s' i).2) ∧
        ∀ q, k ≤ q → q < k + m → ∀ i,
          interpolate c (r i) (t + q * d) (s i).1 = .ok (w q i) ∧ ShorelineAt G.n (r i).zb (w q i).DSWL (shl q i) ∧
          ∃ fx, InfiltratesAs c.processWave (g i).x (r i).zb (w q i).TWL G.n (shl q i) fx ∧
          GroundStepOf G.cfg G.boundary G.n (shl q i) (shl q (i - 1)) d (w q i).DSWL (g i).ds (r i).zb (g i).mask fx (L q i) (L (q + 1) i)
  | 0, k, s, s', h => by
    simp only [gridSubs] at h
    obtain rfl := Except.ok.inj h
    exact ⟨fun _ i => (s i).1, fun _ _ => 0, fun _ i => (s i).2, fun _ => rfl, fun _ => rfl, fun q h1 h2 => absurd h1 (by omega)⟩
  | m + 1, k, s, s', h => by
    unfold gridSubs at h
    match h1 : gridSub c r G g d (t + k * d) s with
    | .error e => simp [h1] at h
    | .ok s₁ =>
      simp only [h1] at h
      obtain ⟨w₁, b, hw, hb, hd, rfl⟩ := gridSub_ok h1
      obtain ⟨w, shl, L, hL, hL', hq⟩ := gridSubs_trace (m := m) hn h
      refine ⟨fun q => if q = k then w₁ else w q, fun q => if q = k then fun i => firstDry G (r i) (w₁ i) - 1 else shl q,
        fun q => if q = k then fun i => (s i).2 else L q, fun i => by simp, fun i => ?_, fun q h1 h2 i => ?_⟩
      · dsimp only
        rw [if_neg (by omega), show k + (m + 1) = k + 1 + m by omega]
        exact hL' i
      · by_cases e : q = k
        · subst e
          dsimp only
          rw [if_pos rfl, if_pos rfl, if_pos rfl, if_neg (by omega), hL i]
          exact ⟨hw i, shorelineAt_of (hd i), (gridForcing c r G g w₁ i).fx, infiltratesAs_of _ _ _ _ _ _,
            groundStepOf_gwStep G.cfg hb hn d _ _ _ (gridForcing c r G g w₁ i) _⟩
        · have := hq q (by omega) (by omega) i
          dsimp only
          rw [if_neg e, if_neg e, if_neg e, if_neg (by omega)]
          rw [interpolate_twice (hw i)] at this
          exact this

/-- The water levels, shorelines, infiltration and levels of the groundwater steps of a time step: the levels `L` go through `m` steps of `d`
seconds.  Each takes the water levels and waves interpolated to its own time, the shorelines from these, and computes the new levels with the
Runge-Kutta method from the equation with the set-up level at the shoreline (and in the column of the shoreline of the row before), the landward
condition and the seepage face, adds the infiltrated runup, applies the mask and the limits. -/
def GroundTrace (c : WaterConfig) (r : Fin (ny + 1) → Row) (G : GroundIn) (g : Fin (ny + 1) → GroundRow) (t d : ℝ) (s : Fin (ny + 1) → HydroState)
    (m : ℕ) (w : ℕ → Fin (ny + 1) → Water) (shl : ℕ → Fin (ny + 1) → ℕ) (L : ℕ → Fin (ny + 1) → ℕ → ℝ) : Prop :=
  ∀ k < m, ∀ i, interpolate c (r i) (t + k * d) (s i).water = .ok (w k i) ∧ ShorelineAt G.n (r i).zb (w k i).DSWL (shl k i) ∧
    ∃ fx, InfiltratesAs c.processWave (g i).x (r i).zb (w k i).TWL G.n (shl k i) fx ∧
      GroundStepOf G.cfg G.boundary G.n (shl k i) (shl k (i - 1)) d (w k i).DSWL (g i).ds (r i).zb (g i).mask fx (L k i) (L (k + 1) i)

/-- **C149 A time step with groundwater on a grid**: the groundwater goes through `m` steps of `d` whole seconds (see `GroundTrace`), from the
configured level at the start of the run and from the stored levels later.  The levels stored for comparison in the next time step are those
at the start with the values at the ends and on the seepage face, and a cell is marked as wetting if the level at the start is above the one
stored for comparison. -/
theorem C149_grid (c : WaterConfig) (r : Fin (ny + 1) → Row) (G : GroundIn) (g : Fin (ny + 1) → GroundRow) (t dt : ℝ)
    (s s' : Fin (ny + 1) → HydroState) (hon : G.on = true) (hn : 4 ≤ G.n) (ht : 1 ≤ G.tfac) (hle : G.tfac ≤ dt)
    (h : gridStep c r G g t dt s = .ok s') :
    ∃ (d m : ℕ) (w : ℕ → Fin (ny + 1) → Water) (shl : ℕ → Fin (ny + 1) → ℕ) (L : ℕ → Fin (ny + 1) → ℕ → ℝ),
      (1 ≤ d ∧ d ≤ dt / G.tfac ∧ dt / G.tfac < d + 1) ∧ (1 ≤ m ∧ m * d ≤ dt ∧ dt < (m + 1) * d) ∧
      (∀ i j, (t = G.tstart → L 0 i j = G.inGw) ∧ (t ≠ G.tstart → L 0 i j = (s i).gw j)) ∧
      GroundTrace c r G g t d s m w shl L ∧ ∀ i, (s' i).gw = L m i ∧ (s' i).water = w (m - 1) i ∧
        (∃ H, EndLevels G.boundary G.cfg.gwStat G.n (shl 0 i) (shl 0 (i - 1)) (w 0 i).DSWL (L 0 i) H ∧
          SeepageLevels G.cfg.seepage G.n (shl 0 i) (r i).zb H (s' i).gwPrev) ∧
        ∀ j, (s' i).wetting j = true ↔ t ≠ G.tstart ∧ (s i).gwPrev j < (s i).gw j := by
  obtain ⟨d, n, hs, hd1, hd2, hm1, hm2, hm⟩ := C86_coverage dt G.tfac (by linarith) hle
  obtain ⟨m, rfl⟩ : ∃ k, n = k + 1 := ⟨n - 1, by have := hm ht; omega⟩
  have hd3 : dt / G.tfac < d + 1 := by
    have e : d = ⌊dt / G.tfac⌋ := by
      have h0 : 0 ≤ dt / G.tfac := div_nonneg (by linarith) (by linarith)
      unfold Ground.substeps Ground.pyInt at hs
      rw [if_neg (by linarith), if_pos h0] at hs
      dsimp only at hs
      split_ifs at hs <;> exact (congrArg Prod.fst (Except.ok.inj hs)).symm
    rw [e]
    exact Int.lt_floor_add_one _
  obtain ⟨w₀, x, hw₀, hx, e⟩ := gridStep_on hon hs h
  obtain ⟨D, rfl⟩ : ∃ D : ℕ, d = D := ⟨d.toNat, by omega⟩
  rw [Int.cast_natCast] at *
  obtain ⟨w, shl, L, hL, hL', hq⟩ := gridSubs_trace hn hx
  rw [Nat.zero_add] at hL'
  have hx' := hx
  obtain ⟨w₁, gw, b, hw₁, hb, hdry, hxe⟩ := gridSubs_last hx'
  have hq' : ∀ k < m + 1, ∀ i, interpolate c (r i) (t + k * D) (s i).water = .ok (w k i) ∧ _ := fun k hk i => by
    have := hq k (Nat.zero_le _) (by omega) i
    rw [interpolate_twice (hw₀ i)] at this
    exact this
  refine ⟨D, m + 1, w, shl, L, ⟨by exact_mod_cast hd1, hd2, hd3⟩, ⟨by omega, hm1, hm2⟩, fun i j => ?_, fun k hk i => ?_, fun i => ⟨?_, ?_, ?_, ?_⟩⟩
  · rw [hL i]
    exact ⟨fun h => by rw [if_pos h], fun h => by rw [if_neg h]⟩
  · exact hq' k hk i
  · rw [e i]
    exact (hL' i).symm
  · have h1 := hw₁ i
    rw [Nat.zero_add, interpolate_twice (hw₀ i), (hq' m (by omega) i).1] at h1
    rw [e i, hxe]
    exact (Except.ok.inj h1).symm
  · rw [e i]
    dsimp only
    have h0 : ∀ i, interpolate c (r i) t (w₀ i) = .ok (w₀ i) := fun i => by rw [interpolate_twice (hw₀ i), hw₀ i]
    have hw0 : ∀ i, w 0 i = w₀ i := fun i => by
      have := (hq' 0 (by omega) i).1
      rw [Nat.cast_zero, zero_mul, add_zero, hw₀ i] at this
      exact (Except.ok.inj this).symm
    have hfd : ∀ i, firstDry G (r i) (w₀ i) - 1 = shl 0 i := fun i => by
      obtain ⟨-, h2, h3, h4⟩ := (hq' 0 (by omega) i).2.1
      rw [hw0 i] at h3 h4
      rw [firstDry_eq h2 h3 h4, Nat.add_sub_cancel]
    unfold gridPrevious
    rw [if_neg (by omega), collect_ok.mpr h0, hb]
    dsimp only
    rw [hfd, hfd, hL i, hw0]
    exact ⟨_, endLevels_of G.cfg hb hn _ _ _ _, seepageLevels_of _ _ _ _ _⟩
  · intro j
    rw [e i]
    dsimp only
    by_cases h0 : t = G.tstart <;> simp [h0]

/-- **C149 on a transect**: the same, the shoreline of the row before being that of the transect itself. -/
theorem C149_transect (c : WaterConfig) (r : Row) (G : GroundIn) (t dt : ℝ) (s s' : HydroState) (hon : G.on = true) (hn : 4 ≤ G.n)
    (ht : 1 ≤ G.tfac) (hle : G.tfac ≤ dt) (h : hydroStep c r G t dt s = .ok s') :
    ∃ (d m : ℕ) (w : ℕ → Water) (shl : ℕ → ℕ) (L : ℕ → ℕ → ℝ),
      (1 ≤ d ∧ d ≤ dt / G.tfac ∧ dt / G.tfac < d + 1) ∧ (1 ≤ m ∧ m * d ≤ dt ∧ dt < (m + 1) * d) ∧
      (∀ j, (t = G.tstart → L 0 j = G.inGw) ∧ (t ≠ G.tstart → L 0 j = s.gw j)) ∧
      (∀ k < m, interpolate c r (t + k * d) s.water = .ok (w k) ∧ ShorelineAt G.n r.zb (w k).DSWL (shl k) ∧
        ∃ fx, InfiltratesAs c.processWave G.x r.zb (w k).TWL G.n (shl k) fx ∧
          GroundStepOf G.cfg G.boundary G.n (shl k) (shl k) d (w k).DSWL G.ds r.zb G.mask fx (L k) (L (k + 1))) ∧
      s'.gw = L m ∧ s'.water = w (m - 1) ∧
      (∃ H, EndLevels G.boundary G.cfg.gwStat G.n (shl 0) (shl 0) (w 0).DSWL (L 0) H ∧
        SeepageLevels G.cfg.seepage G.n (shl 0) r.zb H s'.gwPrev) ∧
      ∀ j, s'.wetting j = true ↔ t ≠ G.tstart ∧ s.gwPrev j < s.gw j := by
  have hg := (C148_rows (ny := 0) c (fun _ => r) G (fun _ => ⟨G.ds, G.mask, G.x⟩) t dt (fun _ => s) (fun _ => s')
    (fun u w hw i k => by rw [show i = k from Fin.ext (by omega)])).mpr (fun _ => h)
  obtain ⟨d, m, w, shl, L, h1, h2, h3, h4, h5⟩ := C149_grid c _ G _ t dt _ _ hon hn ht hle hg
  exact ⟨d, m, fun k => w k 0, fun k => shl k 0, fun k => L k 0, h1, h2, h3 0, fun k hk => h4 k hk 0, h5 0⟩

/-! ### Examples -/

/-- The groundwater under a beach at rising tide: ten steps of 360 s. -/
example (s : HydroState) : ∃ s', hydroStep floodConfig floodRow floodGround 0 3600 s = .ok s' ∧
    ∃ (w : ℕ → Water) (shl : ℕ → ℕ) (L : ℕ → ℕ → ℝ), (∀ j, L 0 j = floodGround.inGw) ∧ s'.gw = L 10 ∧
      ∀ k : ℕ, k < 10 → interpolate floodConfig floodRow (0 + k * 360) s.water = .ok (w k) ∧
        ∃ fx, GroundStepOf floodGround.cfg floodGround.boundary floodGround.n (shl k) (shl k) 360 (w k).DSWL floodGround.ds floodRow.zb
          floodGround.mask fx (L k) (L (k + 1)) := by
  obtain ⟨s', h⟩ := flood_succeeds 0 s
  obtain ⟨d, m, w, shl, L, ⟨-, h1, h2⟩, ⟨-, h3, h4⟩, h5, h6, h7, -⟩ := C149_transect floodConfig floodRow floodGround 0 3600 s s' rfl
    (by norm_num [floodGround]) (by norm_num [floodGround]) (by norm_num [floodGround]) h
  have hd : d = 360 := by
    norm_num [floodGround] at h1 h2
    have a1 : d ≤ 360 := by exact_mod_cast h1
    have a2 : 360 < d + 1 := by exact_mod_cast h2
    omega
  subst hd
  have hm : m = 10 := by
    have a1 : m * 360 ≤ 3600 := by exact_mod_cast h3
    have a2 : 3600 < (m + 1) * 360 := by exact_mod_cast h4
    omega
  subst hm
  refine ⟨s', h, w, shl, L, fun j => (h5 j).1 (by norm_num [floodGround]), h7, fun k hk => ?_⟩
  obtain ⟨b1, -, fx, -, b2⟩ := h6 k hk
  exact ⟨by exact_mod_cast b1, fx, by exact_mod_cast b2⟩

end Aeolis.Props
