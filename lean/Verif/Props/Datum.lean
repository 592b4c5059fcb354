import Verif.Props.DatumWhole
import Verif.Props.AvalancheFrame
import Verif.Props.Erosion
import Verif.Props.FullRun

/-!
C160: complete time steps on a transect do not depend on the datum of the levels.
-/

namespace Aeolis.Props

open Finset Aeolis.Spec Aeolis.Sand Aeolis.Solver Aeolis.Whole Aeolis.Full

variable {nx nf : ℕ}

/-- Both calls return related results, or raise the same exception. -/
def SameEnd {α : Type*} (R : α → α → Prop) : Except PyErr α → Except PyErr α → Prop
  | .ok a, .ok b => R a b
  | .error e, .error e' => e = e'
  | _, _ => False

/-- The levels of the second transect, cells `0..n`, are those of the first, raised. -/
def HigherRow (n : ℕ) (h : ℝ) (z z' : ℕ → ℝ) : Prop := ∀ j, j ≤ n → z' j = z j + h

/-- A series of levels, raised. -/
def higherSeries (h : ℝ) (ts : List (ℝ × ℝ)) : List (ℝ × ℝ) := ts.map fun x => (x.1, x.2 + h)

theorem interpFrom_higher (h x : ℝ) (k : ℝ × ℝ) (l : List (ℝ × ℝ)) :
    interpFrom x (k.1, k.2 + h) (higherSeries h l) = interpFrom x k l + h := by
  induction l generalizing k with
  | nil => rfl
  | cons a l ih =>
    change (if x < a.1 then (a.2 + h - (k.2 + h)) / (a.1 - k.1) * (x - k.1) + (k.2 + h) else
      interpFrom x (a.1, a.2 + h) (higherSeries h l)) = (if x < a.1 then _ else _) + h
    split_ifs
    · rw [add_sub_add_right_eq_sub]; ring
    · exact ih a

/-- **C160** A level interpolated from a raised series is raised. -/
theorem C160_series (h : ℝ) (ts : List (ℝ × ℝ)) (t : ℝ) : Hydro.series (higherSeries h ts) t = (Hydro.series ts t).map (· + h) := by
  unfold Hydro.series interpCircular
  rw [show (higherSeries h ts).map Prod.fst = ts.map Prod.fst by simp [higherSeries]]
  cases ts with
  | nil => rfl
  | cons k l =>
    let x := listMin k.1 (l.map Prod.fst) + npMod (t - listMax k.1 (l.map Prod.fst) - 1) (listMax k.1 (l.map Prod.fst) - listMin k.1 (l.map Prod.fst) + 1)
    change (Except.ok (if x < k.1 then k.2 + h else interpFrom x (k.1, k.2 + h) (higherSeries h l)) : Except PyErr ℝ) =
      .ok ((if x < k.1 then k.2 else interpFrom x k l) + h)
    rw [interpFrom_higher]
    split_ifs <;> rfl

/-! ### Dune erosion -/

theorem argmin_congr' (f g : ℕ → ℝ) (n : ℕ) (h : ∀ k, k ≤ n → f k = g k) : Erosion.argmin f n = Erosion.argmin g n := by
  induction n with
  | zero => rfl
  | succ n ih =>
    have hi := ih fun k hk => h k (by omega)
    unfold Erosion.argmin
    rw [hi, h (n + 1) le_rfl, h _ ((argmin_le g n).trans (Nat.le_succ n))]

theorem trajectory_higher (h : ℝ) (p : Erosion.Params ℝ) (x z z' : ℕ → ℝ) (st0 i : ℕ) (hz : z' i = z i + h) :
    Erosion.trajectory { p with toe := p.toe + h } x z' st0 i = Erosion.trajectory p x z st0 i + h := by
  unfold Erosion.trajectory
  dsimp only
  rw [hz, ← add_assoc]
  by_cases k : z i < p.slope * 0.54 * (x i - x st0) + p.toe
  · rw [if_pos k, if_pos (add_lt_add_left k h)]
  · rw [if_neg k, if_neg fun k' => k (lt_of_add_lt_add_right k')]

/-- **C160** Dune erosion: with bed, dune toe and water level raised the eroded row is raised. -/
theorem C160_erosion (h : ℝ) (p : Erosion.Params ℝ) (f : Erosion.Forcing ℝ) (x z z' : ℕ → ℝ) (hz : HigherRow nx h z z') :
    SameEnd (HigherRow nx h) (Erosion.row nx p f x z) (Erosion.row nx { p with toe := p.toe + h } { f with level := f.level + h } x z') := by
  have h1 : Erosion.twl { f with level := f.level + h } = Erosion.twl f + h := by unfold Erosion.twl; dsimp only; ring
  have hb : Erosion.base nx { p with toe := p.toe + h } z' = Erosion.base nx p z := by
    unfold Erosion.base
    refine argmin_congr' _ _ _ fun k hk => ?_
    dsimp only
    rw [hz k hk, add_sub_add_right_eq_sub]
  have hle : Erosion.base nx p z ≤ nx := argmin_le _ _
  have hd : Erosion.demand { p with toe := p.toe + h } { f with level := f.level + h } = Erosion.demand p f := by
    unfold Erosion.demand
    rw [h1]
    dsimp only
    rw [add_sub_add_right_eq_sub]
  have ht : ∀ i, i ≤ nx → z' i - Erosion.trajectory { p with toe := p.toe + h } x z' (Erosion.base nx p z) i =
      z i - Erosion.trajectory p x z (Erosion.base nx p z) i := by
    intro i hi
    rw [trajectory_higher h p x z z' _ i (hz i hi), hz i hi, add_sub_add_right_eq_sub]
  have he : Erosion.eroded nx { p with toe := p.toe + h } { f with level := f.level + h } x z' = Erosion.eroded nx p f x z := by
    unfold Erosion.eroded
    dsimp only
    rw [hb, hd]
    split_ifs
    · rfl
    · refine argmin_congr' _ _ _ fun k hk => ?_
      congr 1
      unfold Erosion.volume
      congr 2
      · exact Finset.sum_congr rfl fun i hi => by rw [ht _ (by have := Finset.mem_range.mp hi; omega)]
      · exact Finset.sum_congr rfl fun i hi => by rw [ht _ (by have := Finset.mem_range.mp hi; omega)]
  unfold Erosion.row
  rw [h1, he, hb]
  dsimp only
  by_cases k : p.toe < Erosion.twl f
  · rw [if_pos k, if_pos (add_lt_add_left k h)]
    split_ifs
    · rfl
    · intro i hi
      dsimp only
      split_ifs
      · exact trajectory_higher h p x z z' _ i (hz i hi)
      · exact hz i hi
  · rw [if_neg k, if_neg fun k' => k (lt_of_add_lt_add_right k')]
    exact hz

/-! ### Shear -/

theorem shear1d_higher (h : ℝ) (x z z' : ℕ → ℝ) (hz : HigherRow nx h z z') (c : ℕ → Wind.Shear) : Wind.shear1d nx x z' c = Wind.shear1d nx x z c := by
  have hs : ∀ (dx : ℝ) (u u' : ℕ → ℝ), HigherRow nx h u u' → Wind.stressRatio nx dx u' = Wind.stressRatio nx dx u := by
    intro dx u u' hu
    have : Wind.slope nx dx u' = Wind.slope nx dx u := by
      funext i
      unfold Wind.slope
      split_ifs with hi
      · rw [hu (i + 1) hi.2, hu (i - 1) (by omega), add_sub_add_right_eq_sub]
      · rfl
    unfold Wind.stressRatio
    rw [this]
  funext i
  unfold Wind.shear1d
  dsimp only
  rw [hs _ (if ∑ i ∈ Finset.range (nx + 1), (c i).taus < 0 then Wind.mirror nx z else z) (if ∑ i ∈ Finset.range (nx + 1), (c i).taus < 0 then Wind.mirror nx z' else z')]
  split_ifs
  · intro j hj
    exact hz (nx - j) (by omega)
  · exact hz

/-! ### Avalanches -/

theorem avalanche_grid (p : Ava.Params) (z z' : Ava.Grid) (hz : ∀ i j, j ≤ p.mx → z' i j = z i j) (i j : ℕ) (hj : j ≤ p.mx) :
    Ava.avalanche p z' i j = Ava.avalanche p z i j := by
  have h1 := C158_turned_columns p z (fun i j => z i (p.mx - j)) (fun i j => p.ds i (p.mx - j)) (fun i j => p.dn i (p.mx - j))
    (fun i j => p.zne i (p.mx - j)) (fun _ _ _ => rfl) (fun _ _ _ => rfl) (fun _ _ _ => rfl) (fun _ _ _ => rfl) i (p.mx - j) (by omega)
  have h2 := C158_turned_columns p z' (fun i j => z i (p.mx - j)) (fun i j => p.ds i (p.mx - j)) (fun i j => p.dn i (p.mx - j))
    (fun i j => p.zne i (p.mx - j)) (fun _ _ _ => rfl) (fun _ _ _ => rfl) (fun _ _ _ => rfl) (fun i j _ => (hz i _ (by omega)).symm) i (p.mx - j) (by omega)
  rw [show p.mx - (p.mx - j) = j by omega] at h1 h2
  rw [← h2, h1]

/-! ### Water -/

/-- The second transect has the same waves at raised levels. -/
structure HigherWater (n : ℕ) (h : ℝ) (w w' : Hydro.Water) : Prop where
  SWL : HigherRow n h w.SWL w'.SWL
  TWL : HigherRow n h w.TWL w'.TWL
  DSWL : HigherRow n h w.DSWL w'.DSWL
  zs : HigherRow n h w.zs w'.zs
  Hs : ∀ j, j ≤ n → w'.Hs j = w.Hs j
  Tp : ∀ j, j ≤ n → w'.Tp j = w.Tp j
  R : ∀ j, j ≤ n → w'.R j = w.R j
  eta : ∀ j, j ≤ n → w'.eta j = w.eta j
  sigma : ∀ j, j ≤ n → w'.sigma j = w.sigma j
  Hsmix : ∀ j, j ≤ n → w'.Hsmix j = w.Hsmix j

theorem waves_higher_row (h : ℝ) (c : Hydro.WaterConfig) (f : Option (List (ℝ × ℝ))) (r : Hydro.Row) (z' : ℕ → ℝ) (hz : HigherRow nx h r.zb z') (t : ℝ) (S S' : ℕ → ℝ)
    (hS : HigherRow nx h S S') : SameEnd (fun a b => ∀ j, j ≤ nx → b.1 j = a.1 j ∧ b.2 j = a.2 j) (Hydro.waves c r t S)
      (Hydro.waves { c with tideFile := f } { r with zb := z' } t S') := by
  unfold Hydro.waves
  dsimp only
  rcases c.processWave with _ | _
  · intro j _
    simp
  · rcases c.waveFile with _ | ts
    · intro j _
      simp
    · dsimp only
      generalize Hydro.series (ts.map fun x => (x.1, x.2.1)) t = a
      generalize Hydro.series (ts.map fun x => (x.1, x.2.2)) t = b
      rcases a with e | H <;> rcases b with e' | T
      · rfl
      · rfl
      · rfl
      · intro j hj
        dsimp only
        rw [hS j hj, hz j hj, add_sub_add_right_eq_sub]
        exact ⟨rfl, rfl⟩

theorem runup_higher (h : ℝ) (c : Hydro.WaterConfig) (f : Option (List (ℝ × ℝ))) (r : Hydro.Row) (z' : ℕ → ℝ) (w w' : Hydro.Water) (hw : HigherWater nx h w w') :
    HigherWater nx h (Hydro.runup c r w) (Hydro.runup { c with tideFile := f } { r with zb := z' } w') := by
  unfold Hydro.runup
  dsimp only
  rw [hw.Hs 0 (Nat.zero_le _), hw.Tp 0 (Nat.zero_le _)]
  split_ifs
  · exact ⟨hw.SWL, fun j hj => by dsimp only; rw [hw.SWL j hj, add_right_comm], fun j hj => by dsimp only; rw [hw.SWL j hj, add_right_comm], hw.zs, hw.Hs,
      hw.Tp, fun _ _ => rfl, fun _ _ => rfl, fun _ _ => rfl, hw.Hsmix⟩
  · exact hw

theorem mixing_higher (h : ℝ) (c : Hydro.WaterConfig) (f : Option (List (ℝ × ℝ))) (r : Hydro.Row) (z' : ℕ → ℝ) (hz : HigherRow nx h r.zb z') (t : ℝ) (w w' : Hydro.Water)
    (hw : HigherWater nx h w w') : SameEnd (fun a b => ∀ j, j ≤ nx → b j = a j) (Hydro.mixing c r t w)
      (Hydro.mixing { c with tideFile := f } { r with zb := z' } t w') := by
  unfold Hydro.mixing
  dsimp only
  rcases c.processWave with _ | _
  · exact hw.Hsmix
  · rcases c.waveFile with _ | ts
    · exact hw.Hsmix
    · dsimp only
      generalize Hydro.series (ts.map fun x => (x.1, x.2.1)) t = a
      rcases a with e | H
      · rfl
      · intro j hj
        dsimp only
        rw [hw.TWL j hj, hz j hj, add_sub_add_right_eq_sub]

/-- **C160** Water levels and waves of a step: with the bed and the series of the tide raised the levels are raised, and the waves are the same.
The mask of the tide may add to the level but not scale it. -/
theorem C160_water (h : ℝ) (c : Hydro.WaterConfig) (ts : List (ℝ × ℝ)) (hp : c.processTide = true) (hts : c.tideFile = some ts) (r : Hydro.Row)
    (z' : ℕ → ℝ) (hm : ∀ j, j ≤ nx → (r.tideMask j).1 = 1) (hz : HigherRow nx h r.zb z') (t : ℝ) (w w' : Hydro.Water) (hw : HigherWater nx h w w') :
    SameEnd (HigherWater nx h) (Hydro.interpolate c r t w)
      (Hydro.interpolate { c with tideFile := some (higherSeries h ts) } { r with zb := z' } t w') := by
  unfold Hydro.interpolate
  have hS : SameEnd (HigherRow nx h) (Hydro.stillWater c r t)
      (Hydro.stillWater { c with tideFile := some (higherSeries h ts) } { r with zb := z' } t) := by
    unfold Hydro.stillWater
    dsimp only
    rw [hp, if_pos rfl, if_pos rfl, hts]
    dsimp only
    rw [C160_series]
    rcases Hydro.series ts t with e | v
    · rfl
    · intro j hj
      change applyMask (r.tideMask j) (v + h) = applyMask (r.tideMask j) v + h
      unfold applyMask
      rw [hm j hj]
      ring
  revert hS
  rcases Hydro.stillWater c r t with e | S <;>
    rcases Hydro.stillWater { c with tideFile := some (higherSeries h ts) } { r with zb := z' } t with e' | S' <;> intro hS
  · exact hS
  · exact hS.elim
  · exact hS.elim
  dsimp only
  have hW := waves_higher_row h c (some (higherSeries h ts)) r z' hz t S S' hS
  revert hW
  rcases Hydro.waves c r t S with e | ⟨Hs, Tp⟩ <;>
    rcases Hydro.waves { c with tideFile := some (higherSeries h ts) } { r with zb := z' } t S' with e' | ⟨Hs', Tp'⟩ <;> intro hW
  · exact hW
  · exact hW.elim
  · exact hW.elim
  dsimp only
  have hR := runup_higher h c (some (higherSeries h ts)) r z' { w with SWL := S, Hs := Hs, Tp := Tp } { w' with SWL := S', Hs := Hs', Tp := Tp' }
    ⟨hS, hw.TWL, hw.DSWL, hw.zs, fun j hj => (hW j hj).1, fun j hj => (hW j hj).2, hw.R, hw.eta, hw.sigma, hw.Hsmix⟩
  revert hR
  generalize Hydro.runup c r { w with SWL := S, Hs := Hs, Tp := Tp } = v
  generalize Hydro.runup { c with tideFile := some (higherSeries h ts) } { r with zb := z' } { w' with SWL := S', Hs := Hs', Tp := Tp' } = v'
  intro hR
  have hM := mixing_higher h c (some (higherSeries h ts)) r z' hz t v v' hR
  revert hM
  rcases Hydro.mixing c r t v with e | M <;>
    rcases Hydro.mixing { c with tideFile := some (higherSeries h ts) } { r with zb := z' } t v' with e' | M' <;> intro hM
  · exact hM
  · exact hM.elim
  · exact hM.elim
  refine ⟨hR.SWL, hR.TWL, hR.DSWL, fun j hj => ?_, hR.Hs, hR.Tp, hR.R, hR.eta, hR.sigma, hM⟩
  have e1 := hR.SWL j hj
  have e2 := hz j hj
  by_cases k : v.SWL j < r.zb j
  · have k' : v'.SWL j < z' j := by rw [e1, e2]; exact add_lt_add_left k h
    exact (if_pos k').trans (e2.trans (congrArg (· + h) (if_pos k).symm))
  · have k' : ¬ v'.SWL j < z' j := by rw [e1, e2]; exact fun k' => k (lt_of_add_lt_add_right k')
    exact (if_neg k').trans (e1.trans (congrArg (· + h) (if_neg k).symm))

end Aeolis.Props
