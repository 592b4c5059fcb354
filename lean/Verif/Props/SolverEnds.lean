import Verif.Props.SolverSystem
import Verif.Props.Transport

/-!
Values of a solution at the ends of the grid (C50) and the reference capacity used there (C101).
-/

set_option linter.unusedSectionVars false

namespace Aeolis.Props

open Aeolis.Solver Finset

variable {K : Type*} [Field K] [LinearOrder K] [IsStrictOrderedRing K]

/-- The equation of a cell, read from a solution of the system. -/
theorem solves_row (a : Adv K) (b : Bounds) (bc : BcRows K) (v : Rhs K) (x : ℕ → ℕ → K)
    (hs : Solves a b bc v x) (i j : ℕ) (hi : i ≤ a.ny) (hj : j ≤ a.nx) :
    ∃ A, a.matrix bc = .ok A ∧
      A.mulVec (fun c => vec a.nx x c) ⟨i * (a.nx + 1) + j, index_lt a hi hj⟩ = a.rhs b v i j := by
  obtain ⟨A, hA, h⟩ := hs
  refine ⟨A, hA, ?_⟩
  have := congrFun h ⟨i * (a.nx + 1) + j, index_lt a hi hj⟩
  have hv := vec_at a.nx (a.rhs b v) i j hj
  unfold vec at hv ⊢
  rw [this]
  exact hv

/-- C50: the concentration in the first cell of a row (not at a lateral boundary of kind `constant`) of
any solution: the prescribed flux times the reference capacity, nothing, the prescribed flux over the
speed, the concentration of the next cell, or the linear extrapolation. -/
theorem C50_offshore_value (a : Adv K) (b : Bounds) (qoff qon : ℕ → K) (bc : BcRows K)
    (hb : boundaries b qoff qon = .ok bc) (v : Rhs K) (x : ℕ → ℕ → K) (hs : Solves a b bc v x)
    (hn : 2 ≤ a.nx) (i : ℕ) (hi : i ≤ a.ny) (hl : ¬ (b.lat = "constant" ∧ (i = 0 ∨ i = a.ny))) :
    (b.off = "flux" → x i 0 = v.offFlux i) ∧
    (b.off = "noflux" → x i 0 = 0) ∧
    (b.off = "constant" → x i 0 = v.offConst i) ∧
    (b.off = "uniform" → x i 0 = x i 1) ∧
    (b.off = "gradient" → x i 0 = x i 1 + qoff i * (x i 1 - x i 2)) := by
  obtain ⟨A, hA, h⟩ := solves_row a b bc v x hs i 0 hi (Nat.zero_le _)
  rw [C50_offshore_row a b qoff qon bc hb A hA hn x i hi hl] at h
  have h0 : (0 : ℕ) ≠ a.nx := by omega
  unfold Adv.rhs at h
  simp only [h0, and_false, if_false, and_true] at h
  refine ⟨fun e => ?_, fun e => ?_, fun e => ?_, fun e => ?_, fun e => ?_⟩ <;>
    simp [e] at h
  · exact h
  · exact h
  · exact h
  · exact sub_eq_zero.1 h
  · have := sub_eq_zero.1 h
    rw [← this]; ring

/-- C50: the concentration in the last cell of a row.  The onshore condition holds unless the offshore one
is `noflux`; then the last cell is empty for every onshore setting except `flux` and `constant`, whose
values are still prescribed. -/
theorem C50_onshore_value (a : Adv K) (b : Bounds) (qoff qon : ℕ → K) (bc : BcRows K)
    (hb : boundaries b qoff qon = .ok bc) (v : Rhs K) (x : ℕ → ℕ → K) (hs : Solves a b bc v x)
    (hn : 2 ≤ a.nx) (i : ℕ) (hi : i ≤ a.ny) (hl : ¬ (b.lat = "constant" ∧ (i = 0 ∨ i = a.ny))) :
    (b.on = "flux" → x i a.nx = v.onFlux i) ∧
    (b.on = "constant" → x i a.nx = v.onConst i) ∧
    (b.off = "noflux" → b.on ≠ "flux" → b.on ≠ "constant" → x i a.nx = 0) ∧
    (b.off ≠ "noflux" → b.on = "uniform" → x i a.nx = x i (a.nx - 1)) ∧
    (b.off ≠ "noflux" → b.on = "gradient" →
      x i a.nx = x i (a.nx - 1) + qon i * (x i (a.nx - 1) - x i (a.nx - 2))) := by
  obtain ⟨A, hA, h⟩ := solves_row a b bc v x hs i a.nx hi le_rfl
  rw [C50_onshore_row a b qoff qon bc hb A hA hn x i hi hl] at h
  have h0 : a.nx ≠ 0 := by omega
  unfold Adv.rhs at h
  simp only [h0, and_false, if_false, and_true, lt_irrefl] at h
  refine ⟨fun e => ?_, fun e => ?_, fun e e1 e2 => ?_, fun e e1 => ?_, fun e e1 => ?_⟩
  · simp [e] at h; exact h
  · simp [e] at h; exact h
  · simp [e, e1, e2] at h; exact h
  · simp [e, e1] at h; exact sub_eq_zero.1 h
  · simp [e, e1] at h
    have := sub_eq_zero.1 h
    rw [← this]; ring

/-- C50: the same in terms of the settings: with `flux` the concentration is the prescribed fraction of the
reference capacity there, with `constant` the flux (concentration times grain speed) is the prescribed
one, with `gradient` the slope is the same on both sides of the neighbouring cell, measured with the cell
sizes of the grid (`ds` of the second and third cell). -/
theorem C50_end_settings (a : Adv K) (b : Bounds) (bc : BcRows K)
    (hb : boundaries b a.offRatio a.onRatio = .ok bc) (v : Rhs K) (e : EndIn K) (x : ℕ → ℕ → K)
    (hs : Solves a b bc (a.ends e v) x) (hn : 2 ≤ a.nx) (i : ℕ) (hi : i ≤ a.ny)
    (hl : ¬ (b.lat = "constant" ∧ (i = 0 ∨ i = a.ny)))
    (hu : e.u i 0 ≠ 0) (hu' : e.u i a.nx ≠ 0) (hd : a.ds i 1 ≠ 0) (hd' : a.ds i (a.nx - 1) ≠ 0) :
    (b.off = "flux" → x i 0 = e.offshoreFlux * e.Cu0 i 0) ∧
    (b.on = "flux" → x i a.nx = e.onshoreFlux * e.Cu0 i a.nx) ∧
    (b.off = "constant" → x i 0 * e.u i 0 = e.constOff) ∧
    (b.on = "constant" → x i a.nx * e.u i a.nx = e.constOn) ∧
    (b.off = "gradient" → (x i 0 - x i 1) / a.ds i 1 = (x i 1 - x i 2) / a.ds i 2) ∧
    (b.off ≠ "noflux" → b.on = "gradient" →
      (x i a.nx - x i (a.nx - 1)) / a.ds i (a.nx - 1) =
        (x i (a.nx - 1) - x i (a.nx - 2)) / a.ds i (a.nx - 2)) := by
  obtain ⟨f1, -, f3, -, f5⟩ := C50_offshore_value a b _ _ bc hb _ x hs hn i hi hl
  obtain ⟨g1, g2, -, -, g5⟩ := C50_onshore_value a b _ _ bc hb _ x hs hn i hi hl
  refine ⟨f1, g1, fun h => ?_, fun h => ?_, fun h => ?_, fun h h' => ?_⟩
  · rw [f3 h]; exact div_mul_cancel₀ _ hu
  · rw [g2 h]; exact div_mul_cancel₀ _ hu'
  · rw [f5 h]; unfold Adv.offRatio
    rw [add_sub_cancel_left, mul_comm, mul_div_assoc, div_div, mul_comm (a.ds i 2), ← div_div,
      div_self hd, mul_one_div]
  · rw [g5 h h']; unfold Adv.onRatio
    rw [add_sub_cancel_left, mul_comm, mul_div_assoc, div_div, mul_comm (a.ds i (a.nx - 2)), ← div_div,
      div_self hd', mul_one_div]

/-- A solution exists in the planar example with a prescribed flux offshore and a gradient onshore. -/
example (e : EndIn ℚ) (v : Rhs ℚ) : ∃ x,
    Solves exPlanar ⟨"flux", "gradient", "circular"⟩ ⟨fun _ => 0, fun _ => 0, fun _ => -2, fun _ => 1, false⟩
      (exPlanar.ends e v) x ∧
    boundaries ⟨"flux", "gradient", "circular"⟩ exPlanar.offRatio exPlanar.onRatio =
      .ok ⟨fun _ => 0, fun _ => 0, fun _ => -2, fun _ => 1, false⟩ := by
  have hb : boundaries ⟨"flux", "gradient", "circular"⟩ exPlanar.offRatio exPlanar.onRatio =
      .ok ⟨fun _ => 0, fun _ => 0, fun _ => (-2 : ℚ), fun _ => 1, false⟩ := by
    have hq : exPlanar.onRatio = fun _ => 1 := by
      funext i; norm_num [Adv.onRatio, exPlanar]
    rw [hq]
    simp [boundaries, offshore, onshore, lateral]
    funext i; norm_num
  obtain ⟨A, hA, h⟩ := C48_unique_solution exPlanar ⟨"flux", "gradient", "circular"⟩ _ _ _
    exPlanar_onshore hb (by simp)
  obtain ⟨X, hX, -⟩ := h (fun c => exPlanar.rhs ⟨"flux", "gradient", "circular"⟩ (exPlanar.ends e v)
    ((c : ℕ) / (exPlanar.nx + 1)) ((c : ℕ) % (exPlanar.nx + 1)))
  refine ⟨fun i j => if h : i * (exPlanar.nx + 1) + j < (exPlanar.ny + 1) * (exPlanar.nx + 1) then
    X ⟨_, h⟩ else 0, ⟨A, hA, ?_⟩, hb⟩
  rw [← hX]
  congr 1
  funext c
  have hc : (c : ℕ) / (exPlanar.nx + 1) * (exPlanar.nx + 1) + (c : ℕ) % (exPlanar.nx + 1) = c := by
    rw [mul_comm]; exact Nat.div_add_mod _ _
  have : (c : ℕ) / (exPlanar.nx + 1) * (exPlanar.nx + 1) + (c : ℕ) % (exPlanar.nx + 1)
      < (exPlanar.ny + 1) * (exPlanar.nx + 1) := by rw [hc]; exact c.2
  beta_reduce
  rw [dif_pos this]
  congr 1
  exact Fin.ext hc

end Aeolis.Props

namespace Aeolis.Props

open Aeolis.Transport Aeolis.Spec XR

/-- C101: the reference capacity (the one a `flux` boundary multiplies with the prescribed fraction) is
what the capacity of the same formulation would be if the shear velocity were the undisturbed one and the
threshold the one of the grain size alone, provided there is wind and the formulation computes it. -/
theorem C101_reference (p : Params) (hon : p.processTransport = true) (d : ℝ) (w : Wind)
    (duran : Speed) (th : Thresholds) (old old' r r' : Conc)
    (hm : lower p.methodTransport ∈ ["bagnold", "dk", "sauermann", "vanrijn_strypsteen"])
    (hr : equilibrium p d w duran th old = .ok r)
    (hr' : equilibrium p d { w with ustar := w.ustar0 } duran { th with uth := th.uth0 } old' = .ok r')
    (s s' : Speed) (hs : grainspeed p w duran = .ok s)
    (hs' : grainspeed p { w with ustar := w.ustar0 } duran = .ok s') (hu : s'.u = s.u) (hu0 : s.u ≠ 0)
    (hw : w.ustar ≠ 0) (hw0 : w.ustar0 ≠ 0) : r.Cu0 = r'.Cu := by
  unfold equilibrium at hr hr'
  simp only [hon, if_true, hs, hs', hu] at hr hr'
  simp only [List.mem_cons, List.not_mem_nil, or_false] at hm
  unfold formulation at hr hr'
  rcases hm with h | h | h | h <;>
    (simp [h, hw, hw0, hu0] at hr hr'; rw [← hr, ← hr'])

/-- C101: the formulation with grain-size factor uses the capacity itself as reference; the formulations of
Kawamura and Lettau keep whatever the reference was before. -/
theorem C101_exceptions (p : Params) (hon : p.processTransport = true) (d : ℝ) (w : Wind)
    (duran : Speed) (th : Thresholds) (old r : Conc) (s : Speed) (hs : grainspeed p w duran = .ok s)
    (hr : equilibrium p d w duran th old = .ok r) (hw : w.ustar ≠ 0) (hu : s.u ≠ 0) :
    (lower p.methodTransport = "bagnold_gs" → r.Cu0 = r.Cu ∧ r.Cuf = r.Cu) ∧
    (lower p.methodTransport ∈ ["kawamura", "lettau"] → r.Cu0 = old.Cu0 * fin p.accfac) := by
  unfold equilibrium formulation at hr
  simp only [hon, if_true, hs] at hr
  constructor
  · intro h
    simp only [h] at hr
    by_cases hp : p.planar = true
    · simp [hp] at hr
    · simp [hp, hw, hu] at hr
      rw [← hr]; exact ⟨rfl, rfl⟩
  · intro h
    simp only [List.mem_cons, List.not_mem_nil, or_false] at h
    rcases h with h | h <;> (simp [h, hw, hu] at hr; rw [← hr])

/-- The hypotheses of `C101_reference` hold for Bagnold with wind as grain speed, and the reference exceeds
the capacity where the shear is lowered and the threshold raised. -/
example : ∃ r r', equilibrium (exTransport "bagnold" "windspeed") 0.0002 ⟨10, 10, 0, 0.3, 0.3, 0, 0.5⟩
      ⟨1, 1, 0⟩ ⟨fin 0.28, fin 0.28, fin 0.25⟩ ⟨fin 0, fin 0, fin 0⟩ = .ok r ∧
    equilibrium (exTransport "bagnold" "windspeed") 0.0002 ⟨10, 10, 0, 0.5, 0.3, 0, 0.5⟩
      ⟨1, 1, 0⟩ ⟨fin 0.25, fin 0.28, fin 0.25⟩ ⟨fin 0, fin 0, fin 0⟩ = .ok r' ∧ r.Cu0 = r'.Cu := by
  have hl : lower (exTransport "bagnold" "windspeed").methodTransport = "bagnold" := by decide
  have hp : (exTransport "bagnold" "windspeed").processTransport = true := rfl
  have hg : (exTransport "bagnold" "windspeed").methodGrainspeed = "windspeed" := rfl
  have ok (w : Wind) (th : Thresholds) : ∃ r, equilibrium (exTransport "bagnold" "windspeed") 0.0002 w
      ⟨1, 1, 0⟩ th ⟨fin 0, fin 0, fin 0⟩ = .ok r := by
    unfold equilibrium formulation grainspeed
    simp only [hl, hp, hg]
    by_cases h : w.ustar ≠ 0 ∧ w.uw ≠ 0 <;> simp [h]
  obtain ⟨r, hr⟩ := ok ⟨10, 10, 0, 0.3, 0.3, 0, 0.5⟩ ⟨fin 0.28, fin 0.28, fin 0.25⟩
  obtain ⟨r', hr'⟩ := ok ⟨10, 10, 0, 0.5, 0.3, 0, 0.5⟩ ⟨fin 0.25, fin 0.28, fin 0.25⟩
  exact ⟨r, r', hr, hr', C101_reference _ hp _ _ _ _ _ _ r r' (by rw [hl]; simp) hr hr' _ _ rfl rfl rfl
    (by norm_num) (by norm_num) (by norm_num)⟩

end Aeolis.Props
