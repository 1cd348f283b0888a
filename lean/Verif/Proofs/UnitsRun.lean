import Verif.Proofs.Units
import Verif.Proofs.WholeRun

/-!
# Lemmas: selection and files in other units of flux
-/

namespace Verif.Proofs
open Verif Verif.Np Verif.Model Verif.Model.Spectrum Verif.Spec

variable {K : Type} [Field K] [LinearOrder K] [IsStrictOrderedRing K] [FloorRing K]

omit [LinearOrder K] [IsStrictOrderedRing K] [FloorRing K] in
theorem pop_times (k : K) (d : Dict (List K)) (a : String) : (times k d).pop a = times k (d.pop a) := by
  unfold Dict.pop times Dict.mapVals
  rw [List.filter_map]
  rfl

omit [LinearOrder K] [IsStrictOrderedRing K] [FloorRing K] in
theorem slice_scale (k : K) (l : List K) (i j : Nat) : slice (l.map (k * ·)) i j = (slice l i j).map (k * ·) := by
  unfold slice
  rw [List.map_drop, List.map_take]

omit [FloorRing K] in
theorem numGood_scale {k : K} (hk : 0 < k) (l : List K) : numGood (l.map (k * ·)) = numGood l := by
  unfold numGood
  rw [List.countP_map]
  refine List.countP_congr fun x _ => ?_
  simp [hk]

omit [FloorRing K] in
theorem inv_sq_pos {c : K} (hc : 0 < c) : (0 : K) < 1 / c ^ 2 := by positivity

omit [FloorRing K] in
theorem regionArm_rescale {c : K} (hc : 0 < c) (y l1 l2 : K) (s : Spectrum K) (arm : String) (w : List K) :
    regionArm l1 l2 (rescale c y s) arm w = rescale c y (regionArm l1 l2 s arm w) := by
  unfold Spectrum.regionArm
  dsimp only
  have e1 : (rescale c y s).ivar.arr arm = (s.ivar.arr arm).map (1 / c ^ 2 * ·) := arr_times _ s.ivar arm
  have e2 : (rescale c y s).flux.arr arm = (s.flux.arr arm).map (c * ·) := arr_times _ s.flux arm
  rw [e1, e2, slice_scale, slice_scale, numGood_scale (inv_sq_pos hc)]
  by_cases h : numGood (slice (s.ivar.arr arm) (searchsorted w l1) (searchsorted w l2)) = 0
  · rw [if_pos h, if_pos h]
  · rw [if_neg h, if_neg h]
    have h1 : (rescale c y s).fflux = times c s.fflux := rfl
    have h2 : (rescale c y s).fivar = times (1 / c ^ 2) s.fivar := rfl
    rw [h1, h2, set_times, set_times]
    rfl

omit [FloorRing K] in
theorem related_rescale {sqrt : K → K} (hs : SqrtScales sqrt) {c : K} (hc : 0 < c) (y eps : K) (s : Spectrum K) :
    ∃ y', setForestRelatedParameters sqrt eps (rescale c y s) =
      rescale c y' (setForestRelatedParameters sqrt eps s) := by
  have key : ∀ (d : Dict (List K)) (acc acc' : K × K × Dict K), acc.2.2 = acc'.2.2 →
      ((times (1 / c ^ 2) d).foldl (fun acc x => relatedArm sqrt (rescale c y s) acc x.1 x.2) acc).2.2 =
        (d.foldl (fun acc x => relatedArm sqrt s acc x.1 x.2) acc').2.2 := by
    intro d
    induction d with
    | nil => intro acc acc' h; exact h
    | cons a d ih =>
      intro acc acc' h
      change (List.foldl _ (relatedArm sqrt (rescale c y s) acc a.1 (a.2.map (1 / c ^ 2 * ·))) (times (1 / c ^ 2) d)).2.2
        = (List.foldl _ (relatedArm sqrt s acc' a.1 a.2) d).2.2
      refine ih _ _ ?_
      unfold Spectrum.relatedArm
      dsimp only
      rw [h, numGood_scale (inv_sq_pos hc)]
      congr 1
      by_cases h0 : numGood a.2 = 0
      · rw [if_pos h0, if_pos h0]
      · rw [if_neg h0, if_neg h0]
        congr 1
        have e2 : (rescale c y s).fflux.arr a.1 = (s.fflux.arr a.1).map (c * ·) := arr_times _ s.fflux a.1
        rw [e2]
        unfold dot
        rw [List.map_map, List.zipWith_map_left, List.zipWith_map_right, List.zipWith_map_left]
        congr 1
        congr 1
        funext v f
        simp only [Function.comp_apply]
        rw [hs c v hc]
        field_simp
  have fin : ∀ (A B : K × K × Dict K), A.2.2 = B.2.2 →
      ({ rescale c y s with x0 := A.1 / A.2.1, meanSnr := A.2.2 } : Spectrum K) =
        rescale c (A.1 / A.2.1) { s with x0 := B.1 / B.2.1, meanSnr := B.2.2 } := by
    intro A B h
    rw [h]
    rfl
  exact ⟨_, fin _ _ (key s.fivar (0, eps, []) (0, eps, []) rfl)⟩

omit [FloorRing K] in
theorem setForestRegion_units {sqrt : K → K} (hs : SqrtScales sqrt) {s t : Spectrum K} (h : OtherUnits s t)
    (eps w1 w2 lya1 lya2 : K) :
    OtherUnits (s.setForestRegion sqrt eps w1 w2 lya1 lya2) (t.setForestRegion sqrt eps w1 w2 lya1 lya2) := by
  obtain ⟨c, y, hc, rfl⟩ := h
  have hf : ∀ (l1 l2 : K) (l : Dict (List K)) (s : Spectrum K),
      l.foldl (fun s x => regionArm l1 l2 s x.1 x.2) (rescale c y s) =
        rescale c y (l.foldl (fun s x => regionArm l1 l2 s x.1 x.2) s) := by
    intro l1 l2 l
    induction l with
    | nil => intro s; rfl
    | cons a l ih => intro s; rw [List.foldl_cons, List.foldl_cons, regionArm_rescale hc, ih]
  have hw : ∀ t : Spectrum K, ({ rescale c y t with ivarSm := none, weight := none } : Spectrum K) =
    rescale c y { t with ivarSm := none, weight := none } := fun _ => rfl
  have key : ∀ t t' : Spectrum K, t' = rescale c y t →
      OtherUnits (setForestRelatedParameters sqrt eps { t with ivarSm := none, weight := none })
        (setForestRelatedParameters sqrt eps { t' with ivarSm := none, weight := none }) := by
    rintro t _ rfl
    rw [hw]
    obtain ⟨y', h⟩ := related_rescale hs hc y eps { t with ivarSm := none, weight := none }
    exact ⟨c, y', hc, h⟩
  exact key _ _ (hf _ _ s.wave s)

/-! ### Masks and calibrations -/

omit [FloorRing K] in
theorem dropArm_rescale (c y : K) (s : Spectrum K) (arm : String) :
    (rescale c y s).dropArm arm = rescale c y (s.dropArm arm) := by
  have key : ∀ (f1 f1' i1 i1' m1 m1' : Dict (List K)) (a1 a1' b1 b1' : Option (Dict (List K))), f1 = f1' → i1 = i1' →
      m1 = m1' → a1 = a1' → b1 = b1' →
      ({ rescale c y s with
          fwave := s.fwave.pop arm, fflux := f1, fivar := i1, freso := s.freso.pop arm, ivarSm := a1, weight := b1
          cont := m1 } : Spectrum K) =
      { rescale c y s with
          fwave := s.fwave.pop arm, fflux := f1', fivar := i1', freso := s.freso.pop arm, ivarSm := a1', weight := b1'
          cont := m1' } := by
    rintro _ _ _ _ _ _ _ _ _ _ rfl rfl rfl rfl rfl
    rfl
  have ho : ∀ o : Option (Dict (List K)), (o.map (times (1 / c ^ 2))).map (fun d => d.pop arm) =
      (o.map (fun d => d.pop arm)).map (times (1 / c ^ 2)) := by
    intro o
    cases o with
    | none => rfl
    | some d => exact congrArg some (pop_times _ d arm)
  exact key _ _ _ _ _ _ _ _ _ _ (pop_times c s.fflux arm) (pop_times _ s.fivar arm) (pop_times c s.cont arm)
    (ho s.ivarSm) (ho s.weight)

theorem dropShortArms_rescale {c : K} (hc : 0 < c) (y : K) (s : Spectrum K) (a b k : K) :
    (rescale c y s).dropShortArms a b k = rescale c y (s.dropShortArms a b k) := by
  have h1 : ((times (1 / c ^ 2) s.fivar).filter
      (fun x => decide ((numGood x.2 : Int) < s.minPixels a b k))).map Prod.fst =
      (s.fivar.filter (fun x => decide ((numGood x.2 : Int) < s.minPixels a b k))).map Prod.fst := by
    unfold times Dict.mapVals
    rw [List.filter_map, List.map_map]
    refine congrArg (List.map Prod.fst) (List.filter_congr fun x _ => ?_)
    simp only [Function.comp_apply]
    rw [numGood_scale (inv_sq_pos hc)]
  have h2 : ∀ (l : List String) (s : Spectrum K), l.foldl dropArm (rescale c y s) = rescale c y (l.foldl dropArm s) := by
    intro l
    induction l with
    | nil => intro s; rfl
    | cons x l ih => intro s; rw [List.foldl_cons, List.foldl_cons, dropArm_rescale, ih]
  change (((times (1 / c ^ 2) s.fivar).filter
    (fun x => decide ((numGood x.2 : Int) < s.minPixels a b k))).map Prod.fst).foldl dropArm (rescale c y s) = _
  rw [h1, h2]
  rfl

omit [FloorRing K] [IsStrictOrderedRing K] [LinearOrder K] in
theorem zeroWhere_scale (k : K) (w : List Bool) (l : List K) :
    zeroWhere w (l.map (k * ·)) = (zeroWhere w l).map (k * ·) := by
  unfold zeroWhere
  rw [List.zipWith_map_right, List.map_zipWith]
  congr 1
  funext b x
  cases b <;> simp

/-- Forest flux and ivar replaced. -/
theorem rescale_fluxIvar (c y : K) (s : Spectrum K) {f f' i i' : Dict (List K)} (hf : f' = times c f)
    (hi : i' = times (1 / c ^ 2) i) :
    ({ rescale c y s with fflux := f', fivar := i' } : Spectrum K) = rescale c y { s with fflux := f, fivar := i } := by
  rw [hf, hi]
  rfl

theorem zeroArm_rescale (c y : K) (s : Spectrum K) (arm : String) (w : List Bool) :
    zeroArm (rescale c y s) arm w = rescale c y (zeroArm s arm w) := by
  refine rescale_fluxIvar c y s ?_ ?_
  · change (times c s.fflux).set arm (zeroWhere w ((times c s.fflux).arr arm)) = _
    rw [arr_times, zeroWhere_scale, set_times]
  · change (times (1 / c ^ 2) s.fivar).set arm (zeroWhere w ((times (1 / c ^ 2) s.fivar).arr arm)) = _
    rw [arr_times, zeroWhere_scale, set_times]

theorem dlaArm_rescale (c y limit : K) (s : Spectrum K) (arm : String) (t : List K) :
    dlaArm limit (rescale c y s) arm t = rescale c y (dlaArm limit s arm t) := by
  refine rescale_fluxIvar c y s ?_ ?_
  · change (times c s.fflux).set arm (List.zipWith (fun f x => f / x)
      (zeroWhere (t.map (fun x => decide (x < limit))) ((times c s.fflux).arr arm)) _) = _
    rw [arr_times, zeroWhere_scale, ← set_times, List.zipWith_map_left, List.map_zipWith]
    congr 2
    funext f x
    rw [mul_div_assoc]
  · change (times (1 / c ^ 2) s.fivar).set arm (List.zipWith (fun v x => v * x ^ 2)
      (zeroWhere (t.map (fun x => decide (x < limit))) ((times (1 / c ^ 2) s.fivar).arr arm)) _) = _
    rw [arr_times, zeroWhere_scale, ← set_times, List.zipWith_map_left, List.map_zipWith]
    congr 2
    funext v x
    rw [mul_assoc]

theorem fluxArm_rescale (c y : K) (st : K → K) (s : Spectrum K) (x : String × List K) :
    fluxArm st (rescale c y s) x = rescale c y (fluxArm st s x) := by
  refine rescale_fluxIvar c y s ?_ ?_
  · change (times c s.fflux).set x.1 (List.zipWith (fun w f => f / st w) x.2 ((times c s.fflux).arr x.1)) = _
    rw [arr_times, ← set_times, List.zipWith_map_right, List.map_zipWith]
    congr 2
    funext w f
    rw [mul_div_assoc]
  · change (times (1 / c ^ 2) s.fivar).set x.1
      (List.zipWith (fun w v => v * st w ^ 2) x.2 ((times (1 / c ^ 2) s.fivar).arr x.1)) = _
    rw [arr_times, ← set_times, List.zipWith_map_right, List.map_zipWith]
    congr 2
    funext w v
    rw [mul_assoc]

/-- A loop over the arms. -/
theorem foldl_rescale {α : Type} (c y : K) (f : Spectrum K → α → Spectrum K)
    (h : ∀ s a, f (rescale c y s) a = rescale c y (f s a)) (l : List α) (s : Spectrum K) :
    l.foldl f (rescale c y s) = rescale c y (l.foldl f s) := by
  induction l generalizing s with
  | nil => rfl
  | cons a l ih => rw [List.foldl_cons, List.foldl_cons, h, ih]

theorem masker_rescale (c y : K) (dlaFlux : K → K → K → K) (row : MaskRow K) (m : Masker K) (s : Spectrum K) :
    m.apply dlaFlux row (rescale c y s) = rescale c y (m.apply dlaFlux row s) := by
  cases m with
  | sky lines =>
    exact foldl_rescale c y (fun t x => zeroArm t x.1 (markRanges x.2.length (skyRanges lines s.z x.2)))
      (fun t a => zeroArm_rescale c y t a.1 _) s.fwave s
  | bal =>
    change balApply row (rescale c y s) = rescale c y (balApply row s)
    unfold balApply
    split
    · rfl
    · exact foldl_rescale c y (fun t x => zeroArm t x.1 (markRanges x.2.length ((balRanges row s.z).map (balIdx x.2))))
        (fun t a => zeroArm_rescale c y t a.1 _) s.fwave s
  | dla m =>
    change dlaApply dlaFlux m row (rescale c y s) = rescale c y (dlaApply dlaFlux m row s)
    unfold dlaApply
    cases List.lookup row.targetid m.groups with
    | none => rfl
    | some dlas =>
      exact foldl_rescale c y (fun t x => dlaArm m.limit t x.1 (dlaTransmission dlaFlux s.z x.2 dlas))
        (fun t a => dlaArm_rescale c y m.limit t a.1 _) s.fwave s

theorem applyMasks_rescale {c : K} (hc : 0 < c) (y : K) (dlaFlux : K → K → K → K) (row : MaskRow K)
    (ms : List (Masker K)) (s : Spectrum K) :
    applyMasks dlaFlux row ms (rescale c y s) = rescale c y (applyMasks dlaFlux row ms s) := by
  unfold applyMasks
  cases ms with
  | nil => rfl
  | cons m ms =>
    dsimp only
    rw [foldl_rescale c y (fun t m => m.apply dlaFlux row t) (fun t m => masker_rescale c y dlaFlux row m t),
      dropShortArms_rescale hc]

/-! ### Selection -/

theorem setForest_rel (C : SelectCfg K) (hs : SqrtScales C.sqrt) {x x' : ReadSpec K} (h : ReadUnits x x') :
    ReadUnits (C.setForest x) (C.setForest x') := by
  obtain ⟨h1, h2, h3⟩ := h
  refine ⟨h1, h2, ?_⟩
  obtain ⟨c, y, hc, e⟩ := setForestRegion_units hs h3 C.eps C.wave1 C.wave2 C.forestW1 C.forestW2
  refine ⟨c, y, hc, ?_⟩
  change (x'.spec.setForestRegion C.sqrt C.eps C.wave1 C.wave2 C.forestW1 C.forestW2).removeNonforestPixels = _
  rw [e]
  rfl

theorem keepRead_rel (C : SelectCfg K) {x x' : ReadSpec K} (h : ReadUnits x x') : C.keepRead x = C.keepRead x' := by
  obtain ⟨-, h2, c, y, -, e⟩ := h
  unfold SelectCfg.keepRead
  rw [h2, e]
  rfl

theorem treatOne_rel (C : SelectCfg K) (ids : List Int) {x x' : ReadSpec K} (h : ReadUnits x x') :
    ReadUnits (treatOne C ids x) (treatOne C ids x') := by
  obtain ⟨h1, h2, c, y, hc, e⟩ := h
  refine ⟨h1, h2, c, y, hc, ?_⟩
  have e1 : etaOne C (rescale c y x.spec) = rescale c y (etaOne C x.spec) := by
    unfold etaOne
    cases C.eta with
    | none => rfl
    | some eta => exact foldl_rescale c y (etaArm eta) (fun t a => etaArm_rescale c y eta t a) _ _
  have e2 : ∀ s, fluxOne C (rescale c y s) = rescale c y (fluxOne C s) := by
    intro s
    unfold fluxOne
    cases C.stack with
    | none => rfl
    | some st => exact foldl_rescale c y (fluxArm st) (fun t a => fluxArm_rescale c y st t a) _ _
  change applyMasks C.dlaFlux x'.row (C.maskers ids) (fluxOne C (etaOne C x'.spec)) = _
  rw [e, e1, e2, applyMasks_rescale hc, ← h1]
  rfl

theorem keepTreated_rel (C : SelectCfg K) {x x' : ReadSpec K} (h : ReadUnits x x') :
    keepTreated C x = keepTreated C x' := by
  obtain ⟨-, -, c, y, hc, e⟩ := h
  unfold keepTreated
  have h1 : x'.spec.isLong (C.forestW2 - C.forestW1) C.skip = x.spec.isLong (C.forestW2 - C.forestW1) C.skip := by
    rw [e]
    unfold Spectrum.isLong
    have : (rescale c y x.spec).realSize = x.spec.realSize := by
      unfold Spectrum.realSize
      change ((times (1 / c ^ 2) x.spec.fivar).map (fun a => numGood a.2)).sum = _
      unfold times Dict.mapVals
      rw [List.map_map]
      refine congrArg List.sum (List.map_congr_left fun a _ => ?_)
      exact numGood_scale (inv_sq_pos hc) a.2
    rw [this]
    rfl
  have h2 : x'.spec.effectiveMeansnr C.eps8 = x.spec.effectiveMeansnr C.eps8 := by
    rw [e]
    rfl
  rw [h1, h2]

theorem mapM_except_rel {α β γ : Type} {S : β → γ → Prop} {f : α → Except Err β} {g : α → Except Err γ} {l : List α}
    (h : ∀ a ∈ l, SameResult S (f a) (g a)) : SameResult (List.Forall₂ S) (l.mapM f) (l.mapM g) := by
  induction l with
  | nil => exact .nil
  | cons a l ih =>
    have h1 := h a List.mem_cons_self
    have h2 := ih (fun b hb => h b (List.mem_cons_of_mem _ hb))
    rw [List.mapM_cons, List.mapM_cons]
    cases hf : f a with
    | error e =>
      cases hg : g a with
      | error e' => rw [hf, hg] at h1; exact h1
      | ok y => rw [hf, hg] at h1; exact h1.elim
    | ok x =>
      cases hg : g a with
      | error e' => rw [hf, hg] at h1; exact h1.elim
      | ok y =>
        rw [hf, hg] at h1
        cases hm : l.mapM f with
        | error e =>
          cases hm' : l.mapM g with
          | error e' => rw [hm, hm'] at h2; exact h2
          | ok ys => rw [hm, hm'] at h2; exact h2.elim
        | ok xs =>
          cases hm' : l.mapM g with
          | error e' => rw [hm, hm'] at h2; exact h2.elim
          | ok ys => rw [hm, hm'] at h2; exact List.Forall₂.cons h1 h2

/-- Going on after a step that ended in the same way. -/
theorem sameResult_bind {A B A' B' : Type} {R : A → B → Prop} {S : A' → B' → Prop} {x : Except Err A} {y : Except Err B}
    (h : SameResult R x y) {f : A → Except Err A'} {g : B → Except Err B'}
    (hf : ∀ a b, R a b → SameResult S (f a) (g b)) : SameResult S (x.bind f) (y.bind g) := by
  cases x with
  | error e =>
    cases y with
    | error e' => exact h
    | ok b => exact h.elim
  | ok a =>
    cases y with
    | error e' => exact h.elim
    | ok b => exact hf a b h

theorem flatMap_forall₂ {α β γ δ : Type} {T : α → β → Prop} {S : γ → δ → Prop} {f : α → List γ} {g : β → List δ}
    (h : ∀ a b, T a b → List.Forall₂ S (f a) (g b)) {l : List α} {l' : List β} (hl : List.Forall₂ T l l') :
    List.Forall₂ S (l.flatMap f) (l'.flatMap g) := by
  induction hl with
  | nil => exact .nil
  | cons hab _ ih =>
    rw [List.flatMap_cons, List.flatMap_cons]
    exact List.rel_append (h _ _ hab) ih

/-! ### The inverse variances stay nonnegative -/

/-- No negative number in a dictionary of arrays. -/
def DictNonneg (d : Dict (List K)) : Prop := ∀ a ∈ d, ∀ v ∈ a.2, 0 ≤ v

omit [IsStrictOrderedRing K] [FloorRing K] in
theorem DictNonneg.arr {d : Dict (List K)} (h : DictNonneg d) (arm : String) : ∀ v ∈ d.arr arm, 0 ≤ v := by
  intro v hv
  unfold Dict.arr at hv
  cases hl : List.lookup arm d with
  | none => rw [hl] at hv; simp at hv
  | some l =>
    rw [hl] at hv
    exact h (arm, l) (mem_of_lookup hl) v hv

omit [IsStrictOrderedRing K] [FloorRing K] in
theorem DictNonneg.set {d : Dict (List K)} (h : DictNonneg d) (arm : String) {l : List K} (hl : ∀ v ∈ l, 0 ≤ v) :
    DictNonneg (d.set arm l) := by
  intro a ha v hv
  unfold Dict.set dictSet at ha
  split at ha
  · obtain ⟨x, hx, rfl⟩ := List.mem_map.mp ha
    split at hv
    · exact hl v hv
    · exact h x hx v hv
  · rcases List.mem_append.mp ha with ha | ha
    · exact h a ha v hv
    · rw [List.mem_singleton.mp ha] at hv
      exact hl v hv

/-- The invariant: no negative ivar, no smoothing so far. -/
def NN (s : Spectrum K) : Prop := DictNonneg s.fivar ∧ s.ivarSm = none

theorem nn_foldl {α : Type} {f : Spectrum K → α → Spectrum K} {l : List α} (h : ∀ s, NN s → ∀ a ∈ l, NN (f s a))
    {s : Spectrum K} (hs : NN s) : NN (l.foldl f s) := by
  induction l generalizing s with
  | nil => exact hs
  | cons a l ih =>
    exact ih (fun s hs b hb => h s hs b (List.mem_cons_of_mem _ hb)) (h s hs a List.mem_cons_self)

omit [IsStrictOrderedRing K] [FloorRing K] in
theorem mem_zipWith_nonneg {α : Type} {f : α → K → K} (hf : ∀ a v, 0 ≤ v → 0 ≤ f a v) {w : List α} {l : List K}
    (hl : ∀ v ∈ l, 0 ≤ v) : ∀ v ∈ List.zipWith f w l, 0 ≤ v := by
  induction w generalizing l with
  | nil => intro v hv; simp at hv
  | cons a w ih =>
    cases l with
    | nil => intro v hv; simp at hv
    | cons x l =>
      intro v hv
      rw [List.zipWith_cons_cons] at hv
      rcases List.mem_cons.mp hv with rfl | hv
      · exact hf a x (hl x List.mem_cons_self)
      · exact ih (fun v hv => hl v (List.mem_cons_of_mem _ hv)) v hv

theorem nn_setForest (C : SelectCfg K) {x : ReadSpec K} (h : ReadNonneg x) : NN (C.setForest x).spec := by
  have key : ∀ (l1 l2 : K) (l : Dict (List K)) (s : Spectrum K), DictNonneg s.fivar → DictNonneg s.ivar →
      DictNonneg (l.foldl (fun s x => regionArm l1 l2 s x.1 x.2) s).fivar := by
    intro l1 l2 l
    induction l with
    | nil => intro s h1 _; exact h1
    | cons a l ih =>
      intro s h1 h2
      rw [List.foldl_cons]
      refine ih _ ?_ ?_
      · unfold Spectrum.regionArm
        dsimp only
        split
        · exact h1
        · refine h1.set a.1 fun v hv => h2.arr a.1 v ?_
          unfold slice at hv
          exact List.mem_of_mem_take (List.mem_of_mem_drop hv)
      · unfold Spectrum.regionArm
        dsimp only
        split
        · exact h2
        · exact h2
  refine ⟨?_, rfl⟩
  refine key _ _ x.spec.wave x.spec ?_ h.2
  rw [h.1]
  intro a ha
  cases ha

theorem nn_zeroArm {s : Spectrum K} (h : NN s) (arm : String) (w : List Bool) : NN (zeroArm s arm w) := by
  refine ⟨h.1.set arm ?_, h.2⟩
  unfold zeroWhere
  refine mem_zipWith_nonneg (fun b v hv => ?_) (h.1.arr arm)
  split
  · exact le_rfl
  · exact hv

theorem nn_dropArm {s : Spectrum K} (h : NN s) (arm : String) : NN (s.dropArm arm) := by
  refine ⟨fun a ha => h.1 a ?_, ?_⟩
  · exact (List.mem_filter.mp ha).1
  · change s.ivarSm.map _ = none
    rw [h.2]
    rfl

theorem nn_dlaArm {s : Spectrum K} (h : NN s) (limit : K) (arm : String) (t : List K) : NN (dlaArm limit s arm t) := by
  have hz : ∀ v ∈ zeroWhere (t.map (fun x => decide (x < limit))) (s.fivar.arr arm), 0 ≤ v := by
    unfold zeroWhere
    refine mem_zipWith_nonneg (fun b v hv => ?_) (h.1.arr arm)
    split
    · exact le_rfl
    · exact hv
  refine ⟨h.1.set arm ?_, h.2⟩
  rw [List.zipWith_comm]
  exact mem_zipWith_nonneg (f := fun a v => v * a ^ 2) (fun a v hv => by positivity) hz

theorem nn_masker (dlaFlux : K → K → K → K) (row : MaskRow K) (m : Masker K) {s : Spectrum K} (h : NN s) :
    NN (m.apply dlaFlux row s) := by
  cases m with
  | sky lines => exact nn_foldl (fun s hs a _ => nn_zeroArm hs a.1 _) h
  | bal =>
    change NN (balApply row s)
    unfold balApply
    split
    · exact h
    · exact nn_foldl (fun s hs a _ => nn_zeroArm hs a.1 _) h
  | dla m =>
    change NN (dlaApply dlaFlux m row s)
    unfold dlaApply
    split
    · exact h
    · exact nn_foldl (fun s hs a _ => nn_dlaArm hs m.limit a.1 _) h

theorem nn_treatOne (C : SelectCfg K) (heta : ∀ eta, C.eta = some eta → ∀ w, 0 < eta w) (ids : List Int)
    {x : ReadSpec K} (h : NN x.spec) : NN (treatOne C ids x).spec := by
  have h1 : NN (etaOne C x.spec) := by
    unfold etaOne
    cases he : C.eta with
    | none => exact h
    | some eta =>
      refine nn_foldl (f := etaArm eta) (fun s hs a _ => ⟨hs.1.set a.1 ?_, hs.2⟩) h
      exact mem_zipWith_nonneg (fun w v hv => div_nonneg hv (heta eta he w).le) (hs.1.arr a.1)
  have h2 : NN (fluxOne C (etaOne C x.spec)) := by
    unfold fluxOne
    cases C.stack with
    | none => exact h1
    | some st =>
      refine nn_foldl (f := fluxArm st) (fun s hs a _ => ⟨hs.1.set a.1 ?_, hs.2⟩) h1
      exact mem_zipWith_nonneg (fun w v hv => by positivity) (hs.1.arr a.1)
  change NN (applyMasks C.dlaFlux x.row (C.maskers ids) (fluxOne C (etaOne C x.spec)))
  unfold applyMasks
  split
  · exact h2
  · exact nn_foldl (fun s hs a _ => nn_dropArm hs a) (nn_foldl (fun s hs m _ => nn_masker _ _ m hs) h2)

end Verif.Proofs
