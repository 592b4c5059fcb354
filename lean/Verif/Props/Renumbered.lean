import Verif.Model.Bed
import Verif.Model.Weights
import Verif.Model.Threshold
import Mathlib.Tactic.NormNum
import Mathlib.Tactic.Ring

/-!
C157: the order of the sediment fractions and fractions that are not there do not matter.  The fractions of a run are found back in another run
under other numbers (`ι`); the other run may have more fractions, of which there is nothing.
-/

namespace Aeolis.Props

open Finset Aeolis Aeolis.Bed

set_option linter.unusedSectionVars false

variable {K : Type*} [Field K] [LinearOrder K] {nf nf' : ℕ}

/-- The amounts `b` are the amounts `a` under the new numbers; there is nothing of the other fractions. -/
structure Renumbered {K : Type*} [Zero K] {nf nf' : ℕ} (ι : Fin nf → Fin nf') (a : Fin nf → K) (b : Fin nf' → K) : Prop where
  same : ∀ f, b (ι f) = a f
  none : ∀ g, (∀ f, ι f ≠ g) → b g = 0

namespace Renumbered

variable {ι : Fin nf → Fin nf'}

theorem sum (hι : Function.Injective ι) {a : Fin nf → K} {b : Fin nf' → K} (h : Renumbered ι a b) : ∑ g, b g = ∑ f, a f := by
  symm
  refine Finset.sum_of_injOn ι hι.injOn (fun _ _ => mem_coe.mpr (mem_univ _)) (fun g _ hg => h.none g fun f e => hg ⟨f, by simp, e⟩) fun f _ => (h.same f).symm

theorem map {a : Fin nf → K} {b : Fin nf' → K} (h : Renumbered ι a b) (F : K → K) (hF : F 0 = 0) :
    Renumbered ι (fun f => F (a f)) fun g => F (b g) :=
  ⟨fun f => by rw [h.same], fun g hg => by rw [h.none g hg, hF]⟩

theorem map2 {a c : Fin nf → K} {b d : Fin nf' → K} (h : Renumbered ι a b) (h' : Renumbered ι c d) (F : K → K → K) (hF : F 0 0 = 0) :
    Renumbered ι (fun f => F (a f) (c f)) fun g => F (b g) (d g) :=
  ⟨fun f => by rw [h.same, h'.same], fun g hg => by rw [h.none g hg, h'.none g hg, hF]⟩

theorem norm (hι : Function.Injective ι) {a : Fin nf → K} {b : Fin nf' → K} (h : Renumbered ι a b) : Renumbered ι (normalize 0 a) (normalize 0 b) := by
  unfold normalize
  rw [h.sum hι]
  exact h.map (fun x => if (∑ j, a j) ≠ 0 then x / ∑ j, a j else 0) (by simp)

end Renumbered

/-- Masses of all layers under the new numbers. -/
def RenumberedMass (ι : Fin nf → Fin nf') (m : Mass K nf) (m' : Mass K nf') : Prop := ∀ k, Renumbered ι (m k) (m' k)

theorem addLayer_renumbered {ι : Fin nf → Fin nf'} {m : Mass K nf} {m' : Mass K nf'} (h : RenumberedMass ι m m') (k : ℕ) {v : Fin nf → K}
    {v' : Fin nf' → K} (hv : Renumbered ι v v') : RenumberedMass ι (addLayer m k v) (addLayer m' k v') := by
  intro l
  unfold addLayer
  by_cases e : l = k
  · subst e
    rw [Function.update_self, Function.update_self]
    exact (h l).map2 hv (· + ·) (add_zero 0)
  · rw [Function.update_of_ne e, Function.update_of_ne e]
    exact h l

/-- What passes through the exchange, under the new numbers. -/
structure RenumberedExch (ι : Fin nf → Fin nf') (e : Exch K nf) (e' : Exch K nf') : Prop where
  mass : RenumberedMass ι e.m e'.m
  dm : e'.dm = e.dm
  pickup : Renumbered ι e.pickup e'.pickup

theorem case1_renumbered {ι : Fin nf → Fin nf'} (hι : Function.Injective ι) {e : Exch K nf} {e' : Exch K nf'} (h : RenumberedExch ι e e') :
    RenumberedExch ι (case1 e) (case1 e') := by
  have her : Renumbered ι (ero e.pickup) (ero e'.pickup) := h.pickup.map (fun x => max 0 x) (max_self 0)
  have hde : Renumbered ι (dep e.pickup) (dep e'.pickup) := h.pickup.map (fun x => -min 0 x) (by rw [min_self, neg_zero])
  unfold case1
  simp only [her.sum hι, h.dm]
  split_ifs with hc
  · have hd := hde.norm hι
    have hp : Renumbered ι (fun f => -dep e.pickup f + (∑ f, ero e.pickup f) * normalize 0 (dep e.pickup) f)
        (fun g => -dep e'.pickup g + (∑ f, ero e.pickup f) * normalize 0 (dep e'.pickup) g) :=
      hde.map2 hd (fun x y => -x + (∑ f, ero e.pickup f) * y) (by ring)
    exact ⟨addLayer_renumbered h.mass 0 (her.map2 hd (fun x y => -(x - (∑ f, ero e.pickup f) * y)) (by ring)),
      by unfold exchMass; rw [hp.sum hι], hp⟩
  · exact h

theorem case2Step_renumbered {ι : Fin nf → Fin nf'} (nl : ℕ) (mx : K) {d : Fin nf → K} {d' : Fin nf' → K} (hd : Renumbered ι d d') (i : ℕ)
    {e : Exch K nf} {e' : Exch K nf'} (h : RenumberedExch ι e e') :
    RenumberedExch ι (case2Step nl mx d i e) (case2Step nl mx d' i e') := by
  unfold case2Step
  refine ⟨fun l => ?_, h.dm, h.pickup.map2 hd (fun x y => x - mx * y) (by ring)⟩
  dsimp only
  by_cases e : l = i
  · subst e
    rw [Function.update_self, Function.update_self]
    exact hd.map (fun y => mx * y) (mul_zero _)
  · rw [Function.update_of_ne e, Function.update_of_ne e]
    split_ifs
    · exact h.mass _
    · exact h.mass _

theorem case2_renumbered [FloorRing K] {ι : Fin nf → Fin nf'} (hι : Function.Injective ι) (nl : ℕ) {e : Exch K nf} {e' : Exch K nf'}
    (h : RenumberedExch ι e e') : RenumberedExch ι (case2 nl e) (case2 nl e') := by
  have hmx := (h.mass 0).sum hι
  have hd := h.pickup.norm hι
  have key : ∀ (l : List ℕ) (a : Exch K nf) (a' : Exch K nf'), RenumberedExch ι a a' →
      RenumberedExch ι (l.foldl (fun acc i => if nGt e.dm (∑ f, e.m 0 f) i then case2Step nl (∑ f, e.m 0 f) (normalize 0 e.pickup) i acc else acc) a)
        (l.foldl (fun acc i => if nGt e.dm (∑ f, e.m 0 f) i then case2Step nl (∑ f, e.m 0 f) (normalize 0 e'.pickup) i acc else acc) a') := by
    intro l
    induction l with
    | nil => exact fun a a' h => h
    | cons i l ih =>
      intro a a' ha
      rw [List.foldl_cons, List.foldl_cons]
      apply ih
      split_ifs
      · exact case2Step_renumbered nl _ hd i ha
      · exact ha
  unfold case2
  simp only [hmx, h.dm]
  split_ifs
  · have := key (List.range nl) e e' h
    refine ⟨this.mass, ?_, ⟨fun _ => rfl, fun _ _ => rfl⟩⟩
    simp [exchMass]
  · exact key (List.range nl) e e' h
  · exact h

theorem arrangeLayers_renumbered {ι : Fin nf → Fin nf'} (nl : ℕ) (isEro isDep : Bool) (dm : K) {d m : Mass K nf} {d' m' : Mass K nf'}
    (hd : RenumberedMass ι d d') (hm : RenumberedMass ι m m') :
    RenumberedMass ι (arrangeLayers nl isEro isDep dm d m) (arrangeLayers nl isEro isDep dm d' m') := by
  have hn : ∀ k, Renumbered ι (fun f => -(dm * d k f)) fun g => -(dm * d' k g) := fun k => (hd k).map (fun x => -(dm * x)) (by ring)
  have hp : ∀ k, Renumbered ι (fun f => dm * d k f) fun g => dm * d' k g := fun k => (hd k).map (fun x => dm * x) (by ring)
  have hstep : ∀ (a : Mass K nf) (a' : Mass K nf') i, RenumberedMass ι a a' →
      RenumberedMass ι (arrangeStep isEro isDep dm d a i) (arrangeStep isEro isDep dm d' a' i) := by
    intro a a' i ha
    unfold arrangeStep
    cases isEro <;> cases isDep
    · exact ha
    · exact addLayer_renumbered (addLayer_renumbered ha _ (hn _)) _ (hp _)
    · exact addLayer_renumbered (addLayer_renumbered ha _ (hn _)) _ (hp _)
    · exact addLayer_renumbered (addLayer_renumbered (addLayer_renumbered (addLayer_renumbered ha _ (hn _)) _ (hp _)) _ (hn _)) _ (hp _)
  have hfold : ∀ (l : List ℕ) (a : Mass K nf) (a' : Mass K nf'), RenumberedMass ι a a' →
      RenumberedMass ι (l.foldl (arrangeStep isEro isDep dm d) a) (l.foldl (arrangeStep isEro isDep dm d') a') := by
    intro l
    induction l with
    | nil => exact fun a a' h => h
    | cons i l ih => exact fun a a' h => ih _ _ (hstep _ _ _ h)
  unfold arrangeLayers
  cases isDep
  · exact hfold _ _ _ hm
  · exact addLayer_renumbered (hfold _ _ _ hm) _ (hn _)

/-- Parameters of the bed under the new numbers: equal, with the composition of the source renumbered. -/
structure RenumberedParams (ι : Fin nf → Fin nf') (p : Params K nf) (q : Params K nf') : Prop where
  nl : q.nl = p.nl
  rhog : q.rhog = p.rhog
  porosity : q.porosity = p.porosity
  maxError : q.maxError = p.maxError
  bed : q.processBedupdate = p.processBedupdate
  tide : q.processTide = p.processTide
  source : Renumbered ι p.source.raw q.source.raw

/-- A cell under the new numbers: the same levels, masses and pickup renumbered. -/
structure RenumberedCell (ι : Fin nf → Fin nf') (s : Bed.Cell K nf) (r : Bed.Cell K nf') : Prop where
  mass : RenumberedMass ι s.mass r.mass
  pickup : Renumbered ι s.pickup r.pickup
  zb : r.zb = s.zb
  zs : r.zs = s.zs
  dzb : r.dzb = s.dzb

/-- **C157** The update of the bed does not depend on the order of the fractions, nor on further fractions of which there is nothing: levels and
masses are the same, and no mass of the other fractions appears. -/
theorem C157_bed [FloorRing K] (ι : Fin nf → Fin nf') (hι : Function.Injective ι) (p : Params K nf) (q : Params K nf')
    (hp : RenumberedParams ι p q) (s : Bed.Cell K nf) (r : Bed.Cell K nf') (h : RenumberedCell ι s r) :
    RenumberedCell ι (update p s) (update q r) := by
  have hdm : exchMass r.pickup = exchMass s.pickup := by unfold exchMass; rw [h.pickup.sum hι]
  have he := case2_renumbered hι p.nl (case1_renumbered hι
    (e := { m := s.mass, dm := exchMass s.pickup, pickup := s.pickup }) (e' := { m := r.mass, dm := exchMass s.pickup, pickup := r.pickup })
    ⟨h.mass, rfl, h.pickup⟩)
  have hsrc : Renumbered ι p.source.comp q.source.comp := by
    have e1 : ∀ {n : ℕ} (x : Source K n), x.comp = normalize 0 x.raw := fun x => by cases x <;> rfl
    rw [e1, e1]
    exact hp.source.norm hι
  unfold update preventNegativeMass
  simp only [hdm, hp.nl, hp.rhog, hp.porosity, hp.maxError, hp.bed, hp.tide, h.zb, h.zs, h.dzb, he.dm]
  have hm := arrangeLayers_renumbered p.nl (decide (exchMass s.pickup < 0)) (decide (0 < exchMass s.pickup))
    (case2 p.nl (case1 { m := s.mass, dm := exchMass s.pickup, pickup := s.pickup })).dm (fun k => (he.mass k).norm hι)
    (addLayer_renumbered he.mass 0 (he.pickup.map (fun x => -x) neg_zero))
  refine ⟨fun k => ?_, he.pickup, rfl, rfl, rfl⟩
  refine Renumbered.map ?_ (preventTinyNegatives p.maxError 0) (by unfold preventTinyNegatives; simp)
  split_ifs
  · exact addLayer_renumbered hm _ (hsrc.map (fun x => -((case2 p.nl (case1 { m := s.mass, dm := exchMass s.pickup, pickup := s.pickup })).dm * x)) (by ring)) k
  · exact hm k

/-- **C157** The same for any number of updates of the bed, each with a pickup of its own. -/
theorem C157_run [FloorRing K] (ι : Fin nf → Fin nf') (hι : Function.Injective ι) (p : Params K nf) (q : Params K nf')
    (hp : RenumberedParams ι p q) (l : List ((Fin nf → K) × (Fin nf' → K))) (hl : ∀ x ∈ l, Renumbered ι x.1 x.2)
    (s : Bed.Cell K nf) (r : Bed.Cell K nf') (h : RenumberedCell ι s r) :
    RenumberedCell ι (l.foldl (fun c x => update p { c with pickup := x.1 }) s) (l.foldl (fun c x => update q { c with pickup := x.2 }) r) := by
  induction l generalizing s r with
  | nil => exact h
  | cons x l ih =>
    rw [List.foldl_cons, List.foldl_cons]
    exact ih (fun y hy => hl y (List.mem_cons_of_mem _ hy)) _ _
      (C157_bed ι hι p q hp _ _ ⟨h.mass, hl x List.mem_cons_self, h.zb, h.zs, h.dzb⟩)

/-- **C157** Mixing by waves. -/
theorem C157_mixing (ι : Fin nf → Fin nf') (nl : ℕ) (processMix anyIx : Bool) (facDOD hsmix : K) (thlyr : ℕ → K) (m : Mass K nf) (m' : Mass K nf')
    (h : RenumberedMass ι m m') :
    RenumberedMass ι (mixtoplayer nl processMix facDOD hsmix thlyr anyIx m) (mixtoplayer nl processMix facDOD hsmix thlyr anyIx m') := by
  intro k
  unfold mixtoplayer
  cases processMix
  · exact h k
  · cases anyIx
    · exact h k
    · dsimp only
      simp only [if_true]
      split_ifs
      · refine ⟨fun f => ?_, fun g hg => ?_⟩
        · rw [(h k).same, Finset.sum_congr rfl fun j _ => (h j).same f]
        · rw [(h k).none g hg, Finset.sum_eq_zero fun j _ => (h j).none g hg]
          ring
      · exact h k

/-- **C157** The composition at the start: the same shares, none of the other fractions. -/
theorem C157_initial (ι : Fin nf → Fin nf') (hι : Function.Injective ι) (nl : ℕ) (rhog porosity : K) (thlyr : ℕ → K) (g : Fin nf → K) (g' : Fin nf' → K)
    (h : Renumbered ι g g') (m : Mass K nf) (hm : initMass nl rhog porosity thlyr false none (.single g) = some m) :
    ∃ m', initMass nl rhog porosity thlyr false none (.single g') = some m' ∧ RenumberedMass ι m m' := by
  obtain rfl := Option.some.inj hm
  refine ⟨_, rfl, fun k => ?_⟩
  unfold gs
  rw [h.sum hι]
  exact h.map (fun x => rhog * (1 - porosity) * thlyr k * (x / ∑ j, g j)) (by ring)

/-- **C157** The weights of the fractions in the transport: those of the other fractions are zero, whatever their capacity. -/
theorem C157_weights (ι : Fin nf → Fin nf') (hι : Function.Injective ι) (bi : K) (Ct Cu mass : Fin nf → K) (Ct' Cu' mass' : Fin nf' → K)
    (hCt : Renumbered ι Ct Ct') (hCu : ∀ f, Cu' (ι f) = Cu f) (hm : Renumbered ι mass mass') :
    Renumbered ι (computeWeights bi Ct Cu mass) (computeWeights bi Ct' Cu' mass') := by
  have hair : Renumbered ι (weightsAir Ct Cu) (weightsAir Ct' Cu') := by
    unfold weightsAir normalizeRef
    exact ⟨fun f => by rw [hCt.same, hCu], fun g hg => by rw [hCt.none g hg]; simp⟩
  unfold computeWeights weightsBed
  dsimp only
  rw [hair.sum hι]
  exact (hair.map2 (hm.norm hι) (fun x y => (1 - bi) * x + (1 - min 1 ((1 - bi) * ∑ l, weightsAir Ct Cu l)) * y) (by ring)).norm hι

/-- **C157** The mean grain size of the top layer. -/
theorem C157_mean_size (ι : Fin nf → Fin nf') (hι : Function.Injective ι) (d mass : Fin nf → K) (d' mass' : Fin nf' → K)
    (hd : ∀ f, d' (ι f) = d f) (hm : Renumbered ι mass mass') : meanGrainSize d' mass' = meanGrainSize d mass := by
  have h2 : Renumbered ι (fun f => d f * (mass f / ∑ j, mass j)) fun g => d' g * (mass' g / ∑ j, mass j) :=
    ⟨fun f => by rw [hd, hm.same], fun g hg => by rw [hm.none g hg, zero_div, mul_zero]⟩
  unfold meanGrainSize
  rw [hm.sum hι, h2.sum hι]

/-- Thresholds under the new numbers. -/
def RenumberedThresholds (ι : Fin nf → Fin nf') (s : Threshold.Thr nf) (s' : Threshold.Thr nf') : Prop :=
  ∀ f, s'.uth (ι f) = s.uth f ∧ s'.uthf (ι f) = s.uthf f ∧ s'.uth0 (ι f) = s.uth0 f

/-- The configuration with other fractions. -/
def refractioned (c : Threshold.Config nf) (size dist : Fin nf' → ℝ) : Threshold.Config nf' := { c with grainSize := size, grainDist := dist }

/-- The cell with masses of other fractions. -/
def refilled (x : Threshold.Cell nf) (mass : Fin nf' → ℝ) : Threshold.Cell nf' := { x with mass := mass }

theorem moisture_refractioned {ι : Fin nf → Fin nf'} (hι : Function.Injective ι) (c : Threshold.Config nf) (size dist : Fin nf' → ℝ)
    (hs : ∀ f, size (ι f) = c.grainSize f) (hd : Renumbered ι c.grainDist dist) (m : ℝ) :
    Threshold.moisture (refractioned c size dist) m = Threshold.moisture c m := by
  have hg : Threshold.meanGrain (refractioned c size dist) = Threshold.meanGrain c := by
    have h : Renumbered ι (fun k => c.grainSize k * c.grainDist k) fun k => size k * dist k :=
      ⟨fun f => by rw [hs, hd.same], fun g hg => by rw [hd.none g hg, mul_zero]⟩
    exact h.sum hι
  have ht : ∀ mg, Threshold.moistTable (refractioned c size dist) mg = Threshold.moistTable c mg := by
    intro mg
    unfold Threshold.moistTable
    congr 1
    congr 1
    unfold Threshold.dong2002 Threshold.gregoryDarwish Threshold.cornelis Threshold.dong2007
    simp only [hg]
    rfl
  unfold Threshold.moisture Threshold.moistUpdate
  rw [ht]
  rfl

/-- **C157** The shear velocity thresholds of the fractions. -/
theorem C157_thresholds (ι : Fin nf → Fin nf') (hι : Function.Injective ι) (c : Threshold.Config nf) (size dist : Fin nf' → ℝ)
    (hs : ∀ f, size (ι f) = c.grainSize f) (hd : Renumbered ι c.grainDist dist) (x : Threshold.Cell nf) (mass : Fin nf' → ℝ)
    (hm : Renumbered ι x.mass mass) (s : Threshold.Thr nf) (s' : Threshold.Thr nf') (h : RenumberedThresholds ι s s') (r : Threshold.Thr nf)
    (hr : Threshold.compute c x s = .ok r) :
    ∃ r', Threshold.compute (refractioned c size dist) (refilled x mass) s' = .ok r' ∧ RenumberedThresholds ι r r' := by
  classical
  have hgs : ∀ f, Threshold.grainsizeThreshold (refractioned c size dist) (ι f) = Threshold.grainsizeThreshold c f := by
    intro f
    unfold Threshold.grainsizeThreshold
    rw [show (refractioned c size dist).grainSize (ι f) = c.grainSize f from hs f]
    rfl
  have him : ∀ (u : Fin nf → XR) (u' : Fin nf' → XR), (∀ f, u' (ι f) = u f) → Threshold.immobile (refilled x mass) u' = Threshold.immobile x u := by
    intro u u' hu
    unfold Threshold.immobile
    have e : Renumbered ι (fun i => if XR.leOf x.ustar (u i) then x.mass i else 0) fun i => if XR.leOf x.ustar (u' i) then mass i else 0 :=
      ⟨fun f => by rw [hu, hm.same], fun g hg => by rw [hm.none g hg, ite_self]⟩
    show Threshold.divR (∑ i, if XR.leOf x.ustar (u' i) then mass i else 0) (∑ i, mass i) = _
    rw [e.sum hι, hm.sum hι]
  have hsh : ∀ (u v : Fin nf → XR) (u' : Fin nf' → XR), (∀ f, u' (ι f) = u f) → Threshold.sheltering c x u = .ok v →
      ∃ v', Threshold.sheltering (refractioned c size dist) (refilled x mass) u' = .ok v' ∧ ∀ f, v' (ι f) = v f := by
    intro u v u' hu hv
    unfold Threshold.sheltering at hv ⊢
    have e1 : (refractioned c size dist).m = c.m := rfl
    have e2 : (refractioned c size dist).sigma = c.sigma := rfl
    have e3 : (refractioned c size dist).beta = c.beta := rfl
    rw [e1, e2, e3]
    rw [him u u' hu]
    match hc : c.m with
    | none => rw [hc] at hv; cases hv
    | some m =>
      rw [hc] at hv
      dsimp only at hv ⊢
      split_ifs at hv ⊢
      obtain rfl := Except.ok.inj hv
      exact ⟨_, rfl, fun f => by rw [hu]⟩
  have hco : ∀ (u v : Fin nf → XR) (u' : Fin nf' → XR), (∀ f, u' (ι f) = u f) → Threshold.corrections c x u = .ok v →
      ∃ v', Threshold.corrections (refractioned c size dist) (refilled x mass) u' = .ok v' ∧ ∀ f, v' (ι f) = v f := by
    intro u v u' hu hv
    have tail : ∀ (w v : Fin nf → XR) (w' : Fin nf' → XR), (∀ f, w' (ι f) = w f) →
        (if c.thDrylayer = true then Except.error PyErr.nameError
          else if c.thHumidity = true then .error .nameError
          else if c.thSheltering = true then
            Threshold.sheltering c x (if c.thSalt = true then fun i => w i * XR.fin (Threshold.saltFactor c x.salt) else w)
          else .ok (if c.thSalt = true then fun i => w i * XR.fin (Threshold.saltFactor c x.salt) else w)) = .ok v →
        ∃ v', (if c.thDrylayer = true then Except.error PyErr.nameError
          else if c.thHumidity = true then .error .nameError
          else if c.thSheltering = true then
            Threshold.sheltering (refractioned c size dist) (refilled x mass)
              (if c.thSalt = true then fun i => w' i * XR.fin (Threshold.saltFactor c x.salt) else w')
          else .ok (if c.thSalt = true then fun i => w' i * XR.fin (Threshold.saltFactor c x.salt) else w')) = .ok v' ∧ ∀ f, v' (ι f) = v f := by
      intro w v w' e hv
      cases h1 : c.thDrylayer <;> cases h2 : c.thHumidity <;> cases h3 : c.thSalt <;> cases h4 : c.thSheltering <;>
        simp only [h1, h2, h3, h4, if_true, if_false, Bool.false_eq_true, reduceCtorEq] at hv ⊢
      · obtain rfl := Except.ok.inj hv
        exact ⟨_, rfl, e⟩
      · exact hsh _ _ _ e hv
      · obtain rfl := Except.ok.inj hv
        exact ⟨_, rfl, fun f => by rw [e f]⟩
      · exact hsh _ _ _ (fun f => by rw [e f]) hv
    unfold Threshold.corrections at hv ⊢
    dsimp only at hv ⊢
    rw [show (refilled x mass).moist = x.moist from rfl, moisture_refractioned hι c size dist hs hd]
    by_cases h0 : c.thMoisture = true
    · rw [if_pos h0] at hv
      rw [if_pos (show (refractioned c size dist).thMoisture = true from h0)]
      match he : Threshold.moisture c x.moist with
      | .error e => rw [he] at hv; cases hv
      | .ok F =>
        rw [he] at hv
        exact tail _ _ _ (fun f => by rw [hu]) hv
    · rw [if_neg h0] at hv
      rw [if_neg (show ¬ (refractioned c size dist).thMoisture = true from h0)]
      by_cases ht : c.processTide = true ∧ x.zb - x.zs < -c.eps
      · rw [if_pos ht] at hv
        rw [if_pos (show (refractioned c size dist).processTide = true ∧ (refilled x mass).zb - (refilled x mass).zs < -(refractioned c size dist).eps
          from ht)]
        exact tail _ _ _ (fun f => rfl) hv
      · rw [if_neg ht] at hv
        rw [if_neg (show ¬ ((refractioned c size dist).processTide = true ∧
          (refilled x mass).zb - (refilled x mass).zs < -(refractioned c size dist).eps) from ht)]
        exact tail _ _ _ hu hv
  have hfirst : ∀ t : Threshold.Thr nf, (if c.processThreshold = true ∧ ¬ c.thresholdFile = true then
        match Threshold.corrections c x (if c.thGrainsize = true then
          { s with uth := Threshold.grainsizeThreshold c, uth0 := Threshold.grainsizeThreshold c } else s).uth with
        | .error e => .error e
        | .ok u => Except.ok { (if c.thGrainsize = true then
          { s with uth := Threshold.grainsizeThreshold c, uth0 := Threshold.grainsizeThreshold c } else s) with
            uth := fun i => Threshold.masked x (u i), uthf := fun i => Threshold.masked x (u i) }
      else .ok s) = (.ok t : Except PyErr (Threshold.Thr nf)) →
      ∃ t' : Threshold.Thr nf', (if c.processThreshold = true ∧ ¬ c.thresholdFile = true then
        match Threshold.corrections (refractioned c size dist) (refilled x mass) (if c.thGrainsize = true then
          { s' with uth := Threshold.grainsizeThreshold (refractioned c size dist),
                    uth0 := Threshold.grainsizeThreshold (refractioned c size dist) } else s').uth with
        | .error e => .error e
        | .ok u => Except.ok { (if c.thGrainsize = true then
          { s' with uth := Threshold.grainsizeThreshold (refractioned c size dist),
                    uth0 := Threshold.grainsizeThreshold (refractioned c size dist) } else s') with
            uth := fun i => Threshold.masked (refilled x mass) (u i), uthf := fun i => Threshold.masked (refilled x mass) (u i) }
      else .ok s') = (.ok t' : Except PyErr (Threshold.Thr nf')) ∧ RenumberedThresholds ι t t' := by
    intro t ht
    by_cases hp : c.processThreshold = true ∧ ¬ c.thresholdFile = true
    · rw [if_pos hp] at ht ⊢
      have hs0 : RenumberedThresholds ι (if c.thGrainsize = true then
          { s with uth := Threshold.grainsizeThreshold c, uth0 := Threshold.grainsizeThreshold c } else s)
          (if c.thGrainsize = true then
          { s' with uth := Threshold.grainsizeThreshold (refractioned c size dist),
                    uth0 := Threshold.grainsizeThreshold (refractioned c size dist) } else s') := by
        split_ifs
        · exact fun f => ⟨hgs f, (h f).2.1, hgs f⟩
        · exact h
      generalize (if c.thGrainsize = true then
          { s with uth := Threshold.grainsizeThreshold c, uth0 := Threshold.grainsizeThreshold c } else s) = s1 at ht hs0
      generalize (if c.thGrainsize = true then
          { s' with uth := Threshold.grainsizeThreshold (refractioned c size dist),
                    uth0 := Threshold.grainsizeThreshold (refractioned c size dist) } else s') = s1' at hs0 ⊢
      match hu : Threshold.corrections c x s1.uth with
      | .error e => rw [hu] at ht; cases ht
      | .ok u =>
        rw [hu] at ht
        obtain rfl := Except.ok.inj ht
        obtain ⟨u', hu', e⟩ := hco _ _ s1'.uth (fun f => (hs0 f).1) hu
        rw [hu']
        refine ⟨_, rfl, fun f => ⟨?_, ?_, (hs0 f).2.2⟩⟩ <;> (dsimp only; rw [e f]; rfl)
    · rw [if_neg hp] at ht ⊢
      obtain rfl := Except.ok.inj ht
      exact ⟨_, rfl, h⟩
  unfold Threshold.compute at hr ⊢
  dsimp only at hr
  split at hr
  · cases hr
  · rename_i t ht
    obtain ⟨t', ht', e⟩ := hfirst t ht
    obtain rfl := Except.ok.inj hr
    have key : ∀ A : Except PyErr (Threshold.Thr nf'), A = .ok t' →
        ∃ r', (match A with
          | .error e => Except.error e
          | .ok s => Except.ok (if c.thNelayer = true ∧ Threshold.exposed x then { s with uth := fun _ => XR.pinf } else s)) = .ok r' ∧
          RenumberedThresholds ι (if c.thNelayer = true ∧ Threshold.exposed x then { t with uth := fun _ => XR.pinf } else t) r' := by
      rintro A rfl
      refine ⟨_, rfl, ?_⟩
      split_ifs
      · exact fun f => ⟨rfl, (e f).2.1, (e f).2.2⟩
      · exact e
    exact key _ ht'

/-- Fine and coarse sand in the first run; in the second run the coarse sand is first, then gravel of which there is nothing, then the fine sand. -/
def sorted : Fin 2 → Fin 3 := ![2, 0]

theorem sorted_injective : Function.Injective sorted := by decide

theorem sorted_amounts (a b : ℚ) : Renumbered sorted ![a, b] ![b, 0, a] :=
  ⟨fun f => by fin_cases f <;> rfl, fun g hg => by
    fin_cases g
    · exact absurd rfl (hg 1)
    · rfl
    · exact absurd rfl (hg 0)⟩

/-- A layered bed from which mostly fine sand is taken. -/
def sandyCell : Bed.Cell ℚ 2 := ⟨fun _ => ![4, 6], ![3, -1], 1, 2, 0⟩

/-- The same with the other numbers. -/
def sandyCell' : Bed.Cell ℚ 3 := ⟨fun _ => ![6, 0, 4], ![-1, 0, 3], 1, 2, 0⟩

/-- Three layers. -/
def sandyParams : Params ℚ 2 := ⟨3, 2650, 2 / 5, 1 / 1000000, .uniform ![1 / 2, 1 / 2], true, true⟩

/-- The same with the other numbers. -/
def sandyParams' : Params ℚ 3 := ⟨3, 2650, 2 / 5, 1 / 1000000, .uniform ![1 / 2, 0, 1 / 2], true, true⟩

theorem sandy_params : RenumberedParams sorted sandyParams sandyParams' := ⟨rfl, rfl, rfl, rfl, rfl, rfl, sorted_amounts _ _⟩

theorem sandy_cell : RenumberedCell sorted sandyCell sandyCell' := ⟨fun _ => sorted_amounts _ _, sorted_amounts _ _, rfl, rfl, rfl⟩

example : RenumberedCell sorted (update sandyParams sandyCell) (update sandyParams' sandyCell') :=
  C157_bed sorted sorted_injective _ _ sandy_params _ _ sandy_cell

/-- The bed changes. -/
example : (update sandyParams sandyCell).mass 0 1 ≠ 6 ∧ (update sandyParams sandyCell).zb < 1 := by decide +kernel

/-- Two updates, the second with deposition. -/
example : RenumberedCell sorted
    ([(![3, -1], ![-1, 0, 3]), (![-2, -9], ![-9, 0, -2])].foldl (fun c x => update sandyParams { c with pickup := x.1 }) sandyCell)
    ([(![3, -1], ![-1, 0, 3]), (![-2, -9], ![-9, 0, -2])].foldl (fun c x => update sandyParams' { c with pickup := x.2 }) sandyCell') :=
  C157_run sorted sorted_injective _ _ sandy_params [(![3, -1], ![-1, 0, 3]), (![-2, -9], ![-9, 0, -2])] (by
    intro x hx
    simp only [List.mem_cons, List.not_mem_nil, or_false] at hx
    rcases hx with rfl | rfl <;> exact sorted_amounts _ _) _ _ sandy_cell

example : RenumberedMass sorted (mixtoplayer 3 true (1 / 10) 2 (fun _ => 1 / 10) true fun k => ![(k : ℚ), 6])
    (mixtoplayer 3 true (1 / 10) 2 (fun _ => 1 / 10) true fun k => ![6, 0, (k : ℚ)]) :=
  C157_mixing sorted _ _ _ _ _ _ _ _ fun _ => sorted_amounts _ _

example : ∃ m', initMass 3 (2650 : ℚ) (2 / 5) (fun _ => 1 / 10) false none (.single ![3, 0, 1]) = some m' ∧
    RenumberedMass sorted (fun _ f => 2650 * (1 - 2 / 5) * (1 / 10) * gs ![1, 3] f) m' :=
  C157_initial sorted sorted_injective 3 2650 (2 / 5) (fun _ => 1 / 10) ![1, 3] ![3, 0, 1] (sorted_amounts _ _) _ rfl

/-- The capacity for gravel does not matter. -/
example : Renumbered sorted (computeWeights (1 / 20 : ℚ) ![1, 2] ![3, 4] ![4, 6]) (computeWeights (1 / 20) ![2, 0, 1] ![4, 17, 3] ![6, 0, 4]) :=
  C157_weights sorted sorted_injective _ _ _ _ _ _ _ (sorted_amounts _ _) (fun f => by fin_cases f <;> rfl) (sorted_amounts _ _)

/-- Thresholds of moist sand of two sizes, with sheltering. -/
def sandyThresholds : Threshold.Config 2 where
  processThreshold := true
  thresholdFile := false
  thGrainsize := true
  thBedslope := false
  thMoisture := true
  processTide := false
  thDrylayer := false
  thHumidity := false
  thSalt := true
  thSheltering := true
  thNelayer := true
  methodMoistThreshold := "dong_2002"
  hasMethodMoist := false
  Aa := 0.085
  rhog := 2650
  rhoa := 1.225
  rhow := 1025
  g := 9.81
  porosity := 0.4
  reswMoist := 0.01
  w15 := 0.0075
  csalt := 0.035
  m := some 0.5
  beta := 130
  sigma := 4.2
  eps := 0.001
  grainSize := ![0.0002, 0.0005]
  grainDist := ![0.25, 0.75]

theorem sorted_reals (a b : ℝ) : Renumbered sorted ![a, b] ![b, 0, a] :=
  ⟨fun f => by fin_cases f <;> rfl, fun g hg => by
    fin_cases g
    · exact absurd rfl (hg 1)
    · rfl
    · exact absurd rfl (hg 0)⟩

example (s : Threshold.Thr 2) : ∃ r r', Threshold.compute sandyThresholds ⟨1, 0, 0.03, 0, 0.5, ![4, 6], 1, 0, none⟩ s = .ok r ∧
    Threshold.compute (refractioned sandyThresholds ![0.0005, 0.01, 0.0002] ![0.75, 0, 0.25])
      (refilled ⟨1, 0, 0.03, 0, 0.5, ![4, 6], 1, 0, none⟩ ![6, 0, 4]) ⟨![s.uth 1, .nan, s.uth 0], ![s.uthf 1, .nan, s.uthf 0], ![s.uth0 1, .nan, s.uth0 0]⟩
      = .ok r' ∧ RenumberedThresholds sorted r r' := by
  have h : ∃ r, Threshold.compute sandyThresholds ⟨1, 0, 0.03, 0, 0.5, ![4, 6], 1, 0, none⟩ s = .ok r := by
    have hl : (Threshold.moistTable sandyThresholds (Threshold.gravimetric sandyThresholds 0.03)).lookup (lower "dong_2002") =
      some (Threshold.dong2002 sandyThresholds (Threshold.gravimetric sandyThresholds 0.03)) := rfl
    have hm : sandyThresholds.methodMoistThreshold = "dong_2002" := rfl
    have hsg : ¬ sandyThresholds.sigma = 0 := by norm_num [sandyThresholds]
    unfold Threshold.compute Threshold.corrections Threshold.moisture Threshold.moistUpdate Threshold.sheltering
    simp only [hm, hl, if_neg hsg]
    simp [sandyThresholds]
  obtain ⟨r, hr⟩ := h
  obtain ⟨r', hr', e⟩ := C157_thresholds sorted sorted_injective sandyThresholds ![0.0005, 0.01, 0.0002] ![0.75, 0, 0.25]
    (fun f => by fin_cases f <;> rfl) (sorted_reals _ _) ⟨1, 0, 0.03, 0, 0.5, ![4, 6], 1, 0, none⟩ ![6, 0, 4] (sorted_reals _ _) s
    ⟨![s.uth 1, .nan, s.uth 0], ![s.uthf 1, .nan, s.uthf 0], ![s.uth0 1, .nan, s.uth0 0]⟩ (fun f => by fin_cases f <;> exact ⟨rfl, rfl, rfl⟩) r hr
  exact ⟨r, r', hr, hr', e⟩

example : meanGrainSize (K := ℚ) ![3, 9, 1] ![6, 0, 4] = meanGrainSize ![1, 3] ![4, 6] :=
  C157_mean_size sorted sorted_injective _ _ _ _ (fun f => by fin_cases f <;> rfl) (sorted_amounts _ _)

end Aeolis.Props
