import Verif.Model.HydroStep
import Verif.Proofs.Hydro

/-! Lemmas on the water levels and the groundwater in a time step. -/

namespace Aeolis.Hydro

/-- What `interpolate` computes does not depend on the conditions at an earlier time. -/
theorem interpolate_twice {c : WaterConfig} {r : Row} {t t' : ℝ} {w w₁ : Water} (h : interpolate c r t w = .ok w₁) :
    interpolate c r t' w₁ = interpolate c r t' w := by
  obtain ⟨SWL, Hs, Tp, Hm, h1, h2, h3, rfl⟩ := interpolate_ok h
  unfold interpolate
  match stillWater c r t' with
  | .error e => rfl
  | .ok S =>
    dsimp only
    match waves c r t' S with
    | .error e => rfl
    | .ok (H, T) =>
      dsimp only
      match hw : c.processWave, hf : c.waveFile with
      | true, some ts =>
        unfold mixing runup
        simp only [hw, hf]
        match series (ts.map fun x => (x.1, x.2.1)) t' with
        | .error e => split_ifs <;> rfl
        | .ok v => split_ifs <;> rfl
      | false, _ =>
        simp only [mixing, hw] at h3 ⊢
        have h3 := Except.ok.inj h3
        have : Hm = w.Hsmix := by rw [← h3]; unfold runup; split_ifs <;> rfl
        subst this
        unfold runup
        split_ifs <;> rfl
      | true, none =>
        simp only [mixing, hw, hf] at h3 ⊢
        have h3 := Except.ok.inj h3
        have : Hm = w.Hsmix := by rw [← h3]; unfold runup; split_ifs <;> rfl
        subst this
        unfold runup
        split_ifs <;> rfl

theorem groundSub_ok {c : WaterConfig} {r : Row} {G : GroundIn} {d t : ℝ} {s s' : Water × (ℕ → ℝ)}
    (h : groundSub c r G d t s = .ok s') :
    ∃ w b, interpolate c r t s.1 = .ok w ∧ Ground.boundary G.boundary = .ok b ∧ 1 < firstDry G r w ∧
      s' = (w, Ground.gwStep G.cfg b G.n d G.ds r.zb G.mask (groundForcing c r G w) s.2) := by
  unfold groundSub at h
  match h1 : interpolate c r t s.1 with
  | .error e => simp [h1] at h
  | .ok w =>
    match h2 : Ground.boundary G.boundary with
    | .error e => simp [h1, h2] at h
    | .ok b =>
      simp only [h1, h2] at h
      split_ifs at h with h3
      exact ⟨w, b, rfl, rfl, by omega, (Except.ok.inj h).symm⟩

/-- The water after the groundwater steps is that of the last of them. -/
theorem groundSubs_water {c : WaterConfig} {r : Row} {G : GroundIn} {d t : ℝ} :
    ∀ {m i : ℕ} {s s' : Water × (ℕ → ℝ)}, groundSubs c r G d t i (m + 1) s = .ok s' →
      interpolate c r (t + ((i + m : ℕ) : ℝ) * d) s.1 = .ok s'.1
  | 0, i, s, s', h => by
    unfold groundSubs at h
    match h1 : groundSub c r G d (t + i * d) s with
    | .error e => simp [h1] at h
    | .ok s₁ =>
      simp only [h1, groundSubs] at h
      obtain rfl := Except.ok.inj h
      obtain ⟨w, b, hw, _, _, rfl⟩ := groundSub_ok h1
      exact hw
  | m + 1, i, s, s', h => by
    unfold groundSubs at h
    match h1 : groundSub c r G d (t + i * d) s with
    | .error e => simp [h1] at h
    | .ok s₁ =>
      simp only [h1] at h
      obtain ⟨w, b, hw, _, _, rfl⟩ := groundSub_ok h1
      have := groundSubs_water (m := m) h
      rw [interpolate_twice hw] at this
      rw [show i + (m + 1) = i + 1 + m by omega]
      exact this

/-- The groundwater after the groundwater steps is that of the last of them. -/
theorem groundSubs_last {c : WaterConfig} {r : Row} {G : GroundIn} {d t : ℝ} :
    ∀ {m i : ℕ} {s : Water × (ℕ → ℝ)} {w : Water} {gw : ℕ → ℝ}, groundSubs c r G d t i (m + 1) s = .ok (w, gw) →
      ∃ b gw', gw = Ground.gwStep G.cfg b G.n d G.ds r.zb G.mask (groundForcing c r G w) gw'
  | m, i, s, w, gw, h => by
    unfold groundSubs at h
    match h1 : groundSub c r G d (t + i * d) s with
    | .error e => simp [h1] at h
    | .ok s₁ =>
      simp only [h1] at h
      match m with
      | 0 =>
        simp only [groundSubs] at h
        obtain rfl := Except.ok.inj h
        obtain ⟨w', b, -, -, -, e⟩ := groundSub_ok h1
        obtain ⟨rfl, rfl⟩ := Prod.mk.inj e
        exact ⟨b, _, rfl⟩
      | m + 1 => exact groundSubs_last h

/-- The groundwater steps succeed exactly when the water levels can be interpolated, the boundary is known and the shoreline is inside. -/
theorem groundSubs_succeeds {c : WaterConfig} {r : Row} {G : GroundIn} {d t : ℝ} {w₀ : Water} :
    ∀ {m i : ℕ} {w : Water} {g : ℕ → ℝ}, (w = w₀ ∨ ∃ τ, interpolate c r τ w₀ = .ok w) →
      ((∃ s', groundSubs c r G d t i m (w, g) = .ok s') ↔
        (m = 0 ∨ ∃ b, Ground.boundary G.boundary = .ok b) ∧
        ∀ k, i ≤ k → k < i + m → ∃ w', interpolate c r (t + (k : ℝ) * d) w₀ = .ok w' ∧ 1 < firstDry G r w')
  | 0, i, w, g, _ => by
    simp only [groundSubs, true_or, true_and]
    exact ⟨fun _ k h1 h2 => absurd h1 (by omega), fun _ => ⟨_, rfl⟩⟩
  | m + 1, i, w, g, hw => by
    have hint : ∀ τ, interpolate c r τ w = interpolate c r τ w₀ := by
      intro τ
      rcases hw with rfl | ⟨τ', h⟩
      · rfl
      · exact interpolate_twice h
    constructor
    · rintro ⟨s', h⟩
      unfold groundSubs at h
      match h1 : groundSub c r G d (t + i * d) (w, g) with
      | .error e => simp [h1] at h
      | .ok s₁ =>
        simp only [h1] at h
        obtain ⟨w', b, hw', hb, hd, rfl⟩ := groundSub_ok h1
        rw [hint] at hw'
        obtain ⟨-, h2⟩ := (groundSubs_succeeds (m := m) (Or.inr ⟨_, hw'⟩)).mp ⟨s', h⟩
        refine ⟨Or.inr ⟨b, hb⟩, fun k hk1 hk2 => ?_⟩
        by_cases hk : k = i
        · subst hk; exact ⟨w', hw', hd⟩
        · exact h2 k (by omega) (by omega)
    · rintro ⟨hb, hk⟩
      obtain ⟨b, hb⟩ := hb.resolve_left (by omega)
      obtain ⟨w', hw', hd⟩ := hk i le_rfl (by omega)
      unfold groundSubs groundSub
      simp only [hint, hw', hb, if_neg (not_le.mpr hd)]
      exact (groundSubs_succeeds (m := m) (Or.inr ⟨_, hw'⟩)).mpr
        ⟨Or.inr ⟨b, hb⟩, fun k h1 h2 => hk k (by omega) (by omega)⟩

theorem one_lt_firstDry {G : GroundIn} {r : Row} {w : Water} :
    1 < firstDry G r w ↔ r.zb 0 ≤ w.DSWL 0 ∧ r.zb 1 ≤ w.DSWL 1 ∧ ∃ j, 2 ≤ j ∧ j < G.n ∧ w.DSWL j < r.zb j := by
  classical
  unfold firstDry firstCell
  constructor
  · intro h
    split_ifs at h with hex
    · have hspec := Nat.find_spec hex
      have hmin := fun m (hm : m < Nat.find hex) => Nat.find_min hex hm
      refine ⟨?_, ?_, Nat.find hex, by omega, hspec.1, hspec.2⟩
      · by_contra hc
        exact hmin 0 (by omega) ⟨by omega, not_le.mp hc⟩
      · by_contra hc
        exact hmin 1 h ⟨by omega, not_le.mp hc⟩
    · omega
  · rintro ⟨h0, h1, j, hj, hn, hd⟩
    have hex : ∃ j, j < G.n ∧ w.DSWL j < r.zb j := ⟨j, hn, hd⟩
    rw [dif_pos hex]
    by_contra hc
    have hspec := Nat.find_spec hex
    have : Nat.find hex = 0 ∨ Nat.find hex = 1 := by omega
    rcases this with h | h <;> rw [h] at hspec
    · exact absurd hspec.2 (not_lt.mpr h0)
    · exact absurd hspec.2 (not_lt.mpr h1)

end Aeolis.Hydro
