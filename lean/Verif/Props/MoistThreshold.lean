import Verif.Spec.MoistThreshold
import Verif.Props.Threshold

/-!
Values of the moisture formulations: C56.
-/

namespace Aeolis.Props

open Aeolis.Threshold Aeolis.Spec XR Finset

variable {nf : ℕ}

theorem dongK_eq (d : ℝ) : dongK d = dongCoefficient d := by
  unfold dongK dongCoefficient
  split_ifs <;> first | rfl | linarith

/-- C56: between the residual moisture plus 0.5 % and 6.4 %, the threshold is that of the formulation asked for, for all ten of them. -/
theorem C56_values (c : Config nf) (hc : PhysicalBed c) (moist : ℝ) (f : XR → XR) (h : moisture c moist = .ok f)
    (hlo : waterRatio c c.reswMoist + 0.005 < waterRatio c moist) (hhi : waterRatio c moist ≤ 0.064) (v : ℝ) (hv : 0 ≤ v) (r : ℝ)
    (hr : (lower c.methodMoistThreshold, r) ∈ wetThreshold (wetSand c moist) v) : f (fin v) = fin r := by
  have hm : moistCell c moist := hlo
  have hV := moist_pos c hc moist hm
  have hf : moistUpdate c (gravimetric c moist) = .ok fun u => f u := by
    unfold moisture at h
    split at h
    · exact absurd h (by simp)
    · rename_i f' hf'
      rw [hf', ← Except.ok.inj h]
      simp only [if_pos hm, gravimetric_eq, if_neg (not_lt.mpr hhi)]
  have hg := hc.rhoa
  have hg2 := hc.rhog
  have hgr := hc.g
  have hw := hc.rhow
  have hw15 := hc.w15
  have hD : 0 < meanGrain c := hc.grain
  have hpi := Real.pi_pos
  unfold moistUpdate at hf
  simp only [wetThreshold, List.mem_cons, Prod.mk.injEq, List.not_mem_nil, or_false] at hr
  rcases hr with ⟨m, rfl⟩ | ⟨m, rfl⟩ | ⟨m, rfl⟩ | ⟨m, rfl⟩ | ⟨m, rfl⟩ | ⟨m, rfl⟩ | ⟨m, rfl⟩ | ⟨m, rfl⟩ |
    ⟨m, rfl⟩ | ⟨m, rfl⟩ <;> rw [m] at hf <;> have e := Except.ok.inj hf <;> clear hf <;>
    rw [← congrFun e (fin v)] <;> (generalize hVg : gravimetric c moist = V at *) <;>
    (have hV' : (wetSand c moist).V = V := hVg) <;> rw [hV']
  · unfold bellyJohnson log10
    rw [if_pos (by linarith), mul_comm V 100]
    rfl
  · rfl
  · unfold chepil
    rw [show XR.sq (fin v) + fin (0.6 * V ^ 2 / (c.rhoa * c.w15 ^ 2)) = fin (v * v + 0.6 * V ^ 2 / (c.rhoa * c.w15 ^ 2)) from rfl,
      sqrt_fin (by positivity)]
    simp only [wetSand]
    congr 2
    field_simp
  · simp only [wetSand, salehFryear]
    congr 1
    ring
  · simp only [wetSand]
    change fin (v + (0.022 * V / c.w15 + 0.506 * (V / c.w15) ^ 2)) = _
    congr 1
    ring
  · rfl
  · unfold dong2002
    rw [sqrt_fin (by have := dongK_pos (meanGrain c * 1000); positivity), dongK_eq]
    change fin (v * _) = _
    congr 3
    simp only [wetSand, meanGrain]
    rw [mul_comm (1000 : ℝ)]
    ring
  · unfold gregoryDarwish
    have hx : 0 ≤ max (V - 0.5 * c.w15) 0 := le_max_right _ _
    have hrg : 0 < c.rhog := hg.trans hg2
    simp only
    rw [sqrt_fin (by positivity)]
    change fin (v * _) = _
    congr 3
    simp only [wetSand]
    change _ = 1 + V + 6 * 6.12e-05 / (Real.pi * c.rhog * c.g * meanGrain c ^ 2)
      + 738.8 / (c.rhow * c.g * meanGrain c) * Real.exp (-(0.1 * V / c.w15)) * max (V - c.w15 / 2) 0
    rw [show V - 0.5 * c.w15 = V - c.w15 / 2 by ring, show -0.1 * V / c.w15 = -(0.1 * V / c.w15) by ring]
    congr 2
    field_simp
  · unfold cornelis
    have h1 : 0 < c.rhog - c.rhoa := by linarith
    simp only
    rw [sqrt_fin (by positivity)]
    simp only [wetSand]
    change _ = fin (Real.sqrt (0.013 * (1 + V + 1.7e-4 / (c.rhoa * meanGrain c) *
      (1 + 3e14 * 0.075 ^ 2 * meanGrain c / 1e9 * Real.exp (6.5 * V / c.w15)))))
    congr 4
    rw [show -6.5 * V / c.w15 = -(6.5 * V / c.w15) by ring, Real.exp_neg]
    have := Real.exp_pos (6.5 * V / c.w15)
    field_simp
    norm_num
    ring
  · unfold dong2007
    have h1 : 0 < c.rhog - c.rhoa := by linarith
    simp only
    rw [sqrt_fin (by positivity)]
    rfl

/-- The hypotheses of `C56_values` hold for each of the ten formulations at a water content of 2.5 % by volume. -/
example (m : String) (hm : m ∈ incrementalMoist ++ replacingMoist) : ∃ f r, moisture (exThreshold m) 0.025 = .ok f ∧
    waterRatio (exThreshold m) (exThreshold m).reswMoist + 0.005 < waterRatio (exThreshold m) 0.025 ∧
    waterRatio (exThreshold m) 0.025 ≤ 0.064 ∧ (m, r) ∈ wetThreshold (wetSand (exThreshold m) 0.025) 0.2 ∧ f (fin 0.2) = fin r := by
  have hl : lower m = m := by
    revert m; decide
  have h1 : waterRatio (exThreshold m) (exThreshold m).reswMoist + 0.005 < waterRatio (exThreshold m) 0.025 := by norm_num [waterRatio, exThreshold]
  have h2 : waterRatio (exThreshold m) 0.025 ≤ 0.064 := by norm_num [waterRatio, exThreshold]
  have h3 : ∃ r, (m, r) ∈ wetThreshold (wetSand (exThreshold m) 0.025) 0.2 := by
    simp only [incrementalMoist, replacingMoist, List.cons_append, List.nil_append, List.mem_cons, List.not_mem_nil, or_false] at hm
    rcases hm with rfl | rfl | rfl | rfl | rfl | rfl | rfl | rfl | rfl | rfl <;> simp [wetThreshold]
  obtain ⟨r, hr⟩ := h3
  cases h : moisture (exThreshold m) 0.025 with
  | error e => exact absurd hm (hl ▸ ((C56_unknown _ _ _).mp h).1)
  | ok f => exact ⟨f, r, rfl, h1, h2, hr, C56_values _ (exThreshold_physical m) _ _ h h1 h2 _ (by norm_num) r (by
      rw [show (exThreshold m).methodMoistThreshold = m from rfl, hl]; exact hr)⟩

/-- C56: with `cornelis` the weight of the grains multiplies the cohesion only and not the whole sum, so that the square of the threshold is
not proportional to the weight of the grains: it differs by `0.013 (1 + V) (1 - W)` from the balance of moments `0.013 W (1 + V + cohesion / W)`.
For sand in air (`1 < W`) the threshold is lower than that balance. -/
theorem C56_cornelis (s : WetSand) (ha : 0 < s.rhoa) (hg : s.rhoa < s.rhog) (hgr : 0 < s.g) (hD : 0 < s.D) (hV : 0 ≤ s.V) (v r : ℝ)
    (hr : ("cornelis", r) ∈ wetThreshold s v) (hW : 1 < s.weight) :
    let cohesion := 1.7e-4 / ((s.rhog - s.rhoa) * s.g * s.D ^ 2) * (1 + 3e14 * 0.075 ^ 2 * s.D / 1e9 * Real.exp (6.5 * s.V / s.w15))
    r ^ 2 = 0.013 * s.weight * (1 + s.V + cohesion) - 0.013 * (1 + s.V) * (s.weight - 1) ∧
      r < Real.sqrt (0.013 * s.weight * (1 + s.V + cohesion)) := by
  intro cohesion
  have he : r = Real.sqrt (0.013 * (1 + s.V + 1.7e-4 / (s.rhoa * s.D) *
      (1 + 3e14 * 0.075 ^ 2 * s.D / 1e9 * Real.exp (6.5 * s.V / s.w15)))) := by
    simp only [wetThreshold, List.mem_cons, Prod.mk.injEq, List.not_mem_nil, or_false] at hr
    simpa using hr
  have hd : 0 < s.rhog - s.rhoa := by linarith
  have hx := Real.exp_pos (6.5 * s.V / s.w15)
  have hsq : r ^ 2 = 0.013 * s.weight * (1 + s.V + cohesion) - 0.013 * (1 + s.V) * (s.weight - 1) := by
    rw [he, Real.sq_sqrt (by positivity)]
    simp only [cohesion, WetSand.weight]
    field_simp
    ring
  refine ⟨hsq, Real.lt_sqrt_of_sq_lt ?_⟩
  rw [hsq]
  have : 0 < 0.013 * (1 + s.V) * (s.weight - 1) := by
    have : 0 < s.weight - 1 := by linarith
    positivity
  linarith

/-- Sand of 225 µm in air: the weight is 4.8. -/
example : 1 < (wetSand (exThreshold "cornelis") 0.025).weight := by
  norm_num [wetSand, WetSand.weight, exThreshold]

end Aeolis.Props
