import Verif.Model.PlanarGround
import Verif.Proofs.HydroStep
import Verif.Proofs.Whole

/-! Lemmas on the water levels and the groundwater in a time step on a grid of several rows. -/

namespace Aeolis.Hydro

open Aeolis.Whole

variable {ny : ℕ}

theorem gridSub_ok {c : WaterConfig} {r : Fin (ny + 1) → Row} {G : GroundIn} {g : Fin (ny + 1) → GroundRow} {d t : ℝ}
    {s s' : Fin (ny + 1) → Water × (ℕ → ℝ)} (h : gridSub c r G g d t s = .ok s') :
    ∃ w b, (∀ i, interpolate c (r i) t (s i).1 = .ok (w i)) ∧ Ground.boundary G.boundary = .ok b ∧ (∀ i, 1 < firstDry G (r i) (w i)) ∧
      s' = fun i => (w i, Ground.gwStep G.cfg b G.n d (g i).ds (r i).zb (g i).mask (gridForcing c r G g w i) (s i).2) := by
  unfold gridSub at h
  match h1 : collect fun i => interpolate c (r i) t (s i).1 with
  | .error e => simp [h1] at h
  | .ok w =>
    match h2 : Ground.boundary G.boundary with
    | .error e => simp [h1, h2] at h
    | .ok b =>
      simp only [h1, h2] at h
      split_ifs at h with h3
      push Not at h3
      exact ⟨w, b, collect_ok.mp h1, rfl, h3, (Except.ok.inj h).symm⟩

/-- The first and the last of the groundwater steps; the water after them is that of the last. -/
theorem gridSubs_last {c : WaterConfig} {r : Fin (ny + 1) → Row} {G : GroundIn} {g : Fin (ny + 1) → GroundRow} {d t : ℝ} :
    ∀ {m k : ℕ} {s s' : Fin (ny + 1) → Water × (ℕ → ℝ)}, gridSubs c r G g d t k (m + 1) s = .ok s' →
      ∃ w, ∃ gw : Fin (ny + 1) → ℕ → ℝ, ∃ b, (∀ i, interpolate c (r i) (t + ((k + m : ℕ) : ℝ) * d) (s i).1 = .ok (w i)) ∧ Ground.boundary G.boundary = .ok b ∧
        (∀ i, 1 < firstDry G (r i) (w i)) ∧
        s' = fun i => (w i, Ground.gwStep G.cfg b G.n d (g i).ds (r i).zb (g i).mask (gridForcing c r G g w i) (gw i))
  | 0, k, s, s', h => by
    unfold gridSubs at h
    match h1 : gridSub c r G g d (t + k * d) s with
    | .error e => simp [h1] at h
    | .ok s₁ =>
      simp only [h1, gridSubs] at h
      obtain rfl := Except.ok.inj h
      obtain ⟨w, b, hw, hb, hd, rfl⟩ := gridSub_ok h1
      exact ⟨w, _, b, hw, hb, hd, rfl⟩
  | m + 1, k, s, s', h => by
    unfold gridSubs at h
    match h1 : gridSub c r G g d (t + k * d) s with
    | .error e => simp [h1] at h
    | .ok s₁ =>
      simp only [h1] at h
      obtain ⟨w, b, hw, _, _, rfl⟩ := gridSub_ok h1
      obtain ⟨w', gw, b', hw', hb, hd, e⟩ := gridSubs_last (m := m) h
      refine ⟨w', gw, b', fun i => ?_, hb, hd, e⟩
      have := hw' i
      rw [interpolate_twice (hw i)] at this
      rw [show k + (m + 1) = k + 1 + m by omega]
      exact this

theorem gridStep_on {c : WaterConfig} {r : Fin (ny + 1) → Row} {G : GroundIn} {g : Fin (ny + 1) → GroundRow} {t dt : ℝ}
    {s s' : Fin (ny + 1) → HydroState} (hon : G.on = true) {d : ℤ} {m : ℕ} (hs : Ground.substeps dt G.tfac = .ok (d, m))
    (h : gridStep c r G g t dt s = .ok s') :
    ∃ w x, (∀ i, interpolate c (r i) t (s i).water = .ok (w i)) ∧
      gridSubs c r G g d t 0 m (fun i => (w i, if t = G.tstart then fun _ => G.inGw else (s i).gw)) = .ok x ∧
      ∀ i, s' i = ⟨(x i).1, (x i).2, gridPrevious c r G t m w (fun i => if t = G.tstart then fun _ => G.inGw else (s i).gw) i,
        fun j => decide ((if t = G.tstart then (if t = G.tstart then fun _ => G.inGw else (s i).gw) else (s i).gwPrev) j <
          (if t = G.tstart then fun _ => G.inGw else (s i).gw) j)⟩ := by
  unfold gridStep at h
  match h1 : collect fun i => interpolate c (r i) t (s i).water with
  | .error e => simp [h1] at h
  | .ok w =>
    simp only [h1, gridGround, hon, if_true, hs] at h
    match h2 : gridSubs c r G g d t 0 m fun i => (w i, if t = G.tstart then fun _ => G.inGw else (s i).gw) with
    | .error e => simp [h2] at h
    | .ok x =>
      simp only [h2] at h
      obtain rfl := Except.ok.inj h
      exact ⟨w, x, collect_ok.mp h1, h2, fun i => rfl⟩

end Aeolis.Hydro
