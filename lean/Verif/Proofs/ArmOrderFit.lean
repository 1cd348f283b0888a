import Verif.Proofs.ArmOrder
import Verif.Proofs.ContFit
import Verif.Proofs.Stack
import Verif.Proofs.UnitsWhole

/-!
# Lemmas: the order of the arms in the continuum fit
-/

namespace Verif.Proofs
open Verif Verif.Np Verif.Model Verif.Model.Spectrum Verif.Model.Prog Verif.Spec

variable {K : Type} [Field K] [LinearOrder K]

theorem setSmooth_order (smooth : List K → K → List K) {s s' : Spectrum K} (h : ArmOrder s s') (size : K) :
    ArmOrder (s.setSmoothForestivar smooth size) (s'.setSmoothForestivar smooth size) := by
  unfold Spectrum.setSmoothForestivar
  split
  · exact { h with smoothing := rfl, ivarSm := trivial, weight := trivial }
  · refine { h with smoothing := rfl, ivarSm := ?_, weight := trivial }
    exact h.fivar.mapVals (fun _ v => by rw [h.dwave])

theorem setForestWeight_order {s s' : Spectrum K} (h : ArmOrder s s') (varlss eta : K → K) :
    ArmOrder (s.setForestWeight varlss eta) (s'.setForestWeight varlss eta) := by
  have hc : (s.valid = false ∨ s.cont = []) ↔ (s'.valid = false ∨ s'.cont = []) := by
    rw [h.valid, h.cont.eq_nil]
  unfold Spectrum.setForestWeight
  by_cases h1 : s.valid = false ∨ s.cont = []
  · rw [if_pos h1, if_pos (hc.mp h1)]
    exact { h with weight := trivial }
  · rw [if_neg h1, if_neg (fun e => h1 (hc.mpr e))]
    refine { h with weight := ?_ }
    exact h.fwave.mapVals (fun k v => by rw [h.cont.arr, h.fivarSm.arr])

theorem sum_items {α : Type} {d d' : Dict α} (h : SameItems d d') {f f' : String × α → K} (hf : ∀ a, f a = f' a) :
    (d.map f).sum = (d'.map f').sum := by
  obtain rfl : f = f' := funext hf
  exact (h.2.map f).sum_eq

theorem chi2_order {s s' : Spectrum K} (h : ArmOrder s s') : ArmOrder s.calcContinuumChi2 s'.calcContinuumChi2 := by
  have hc : (s.valid = false ∨ s.cont = []) ↔ (s'.valid = false ∨ s'.cont = []) := by
    rw [h.valid, h.cont.eq_nil]
  unfold Spectrum.calcContinuumChi2
  by_cases h1 : s.valid = false ∨ s.cont = []
  · rw [if_pos h1, if_pos (hc.mp h1)]
    exact { h with chi2 := rfl }
  · rw [if_neg h1, if_neg (fun e => h1 (hc.mpr e))]
    refine { h with chi2 := ?_ }
    exact sum_items h.fwave (fun a => by rw [h.fweight.arr, h.fflux.arr, h.cont.arr])

theorem endFit_order {s s' : Spectrum K} (h : ArmOrder s s') (varlss eta : K → K) :
    ArmOrder (s.endFit varlss eta) (s'.endFit varlss eta) := by
  unfold Spectrum.endFit
  have h1 := chi2_order (setForestWeight_order h varlss eta)
  generalize (s.setForestWeight varlss eta).calcContinuumChi2 = t at h1 ⊢
  generalize (s'.setForestWeight varlss eta).calcContinuumChi2 = t' at h1 ⊢
  dsimp only
  rw [h1.valid]
  split
  · exact h1
  · exact { h1 with cont := .nil, chi2 := rfl }

/-- A continuum that is not valid is forgotten. -/
theorem endFit_invalid {s s' : Spectrum K} (h : ArmOrder s s') (d d' : Dict (List K)) (varlss eta : K → K) :
    ArmOrder ((s.setCont (false, d)).endFit varlss eta) ((s'.setCont (false, d')).endFit varlss eta) := by
  have key : ∀ (t : Spectrum K) (d : Dict (List K)), (t.setCont (false, d)).endFit varlss eta =
      { t with valid := false, cont := [], chi2 := -1, weight := none } := by
    intro t d
    have e1 : (t.setCont (false, d)).setForestWeight varlss eta = { t with valid := false, cont := d, weight := none } := by
      unfold Spectrum.setForestWeight
      exact if_pos (c := (t.setCont (false, d)).valid = false ∨ (t.setCont (false, d)).cont = []) (Or.inl rfl)
    have e2 : ({ t with valid := false, cont := d, weight := none } : Spectrum K).calcContinuumChi2 =
        { t with valid := false, cont := d, weight := none, chi2 := -1 } := by
      unfold Spectrum.calcContinuumChi2
      exact if_pos (Or.inl rfl)
    unfold Spectrum.endFit
    rw [e1, e2]
    rfl
  rw [key, key]
  exact { h with valid := rfl, cont := .nil, chi2 := rfl, weight := trivial }

theorem contLoop_nodup {C : Type} (reject : List C → Bool) (est : List K → List C) (mul : List K → List C → List C)
    (fw : Dict (List K)) {d : Dict (List C)} (hd : (List.map Prod.fst d).Nodup) :
    (List.map Prod.fst (contLoop reject est mul fw d).2).Nodup := by
  induction fw generalizing d with
  | nil => exact hd
  | cons a fw ih =>
    obtain ⟨k, w⟩ := a
    unfold contLoop
    split
    · exact hd
    · exact ih (nodup_dictSet hd _ _)

theorem contLoop_order {C : Type} (reject : List C → Bool) (est : List K → List C) (mul : List K → List C → List C)
    {fw fw' : Dict (List K)} (h : SameItems fw fw') :
    (contLoop reject est mul fw []).1 = (contLoop reject est mul fw' []).1 ∧
      ((contLoop reject est mul fw []).1 = true →
        SameItems (contLoop reject est mul fw []).2 (contLoop reject est mul fw' []).2) := by
  obtain ⟨a1, a2⟩ := contLoop_spec reject est mul fw h.1 []
  obtain ⟨b1, b2⟩ := contLoop_spec reject est mul fw' h.nodup' []
  have e : (contLoop reject est mul fw []).1 = (contLoop reject est mul fw' []).1 := by
    rw [Bool.eq_iff_iff, a1, b1]
    exact ⟨fun hh a ha => hh a (h.2.symm.subset ha), fun hh a ha => hh a (h.2.subset ha)⟩
  refine ⟨e, fun ht => ?_⟩
  refine .of_lookup (contLoop_nodup _ _ _ _ List.nodup_nil) (contLoop_nodup _ _ _ _ List.nodup_nil) fun k => ?_
  rw [a2 ht, b2 (e ▸ ht), h.lookup]

theorem piccaFit_order (log meancont meanflux varlss eta : K → K) (rfwave0 denom : K) (result : Bool × List K)
    {s s' : Spectrum K} (h : ArmOrder s s') :
    ArmOrder (s.piccaFit log meancont meanflux varlss eta rfwave0 denom result)
      (s'.piccaFit log meancont meanflux varlss eta rfwave0 denom result) := by
  unfold Spectrum.piccaFit
  split
  · rw [h.z]
    obtain ⟨h1, h2⟩ := contLoop_order piccaRejects
      (fun w => w.map (fun x => piccaModel log meancont rfwave0 denom result.2 (x / (1 + s'.z)))) (mulFlux meanflux) h.fwave
    generalize contLoop piccaRejects _ (mulFlux meanflux) s.fwave [] = r at h1 h2 ⊢
    generalize contLoop piccaRejects _ (mulFlux meanflux) s'.fwave [] = r' at h1 h2 ⊢
    obtain ⟨v, d⟩ := r
    obtain ⟨v', d'⟩ := r'
    dsimp only at h1 h2
    subst h1
    cases v with
    | true =>
      have h3 : ArmOrder (s.setCont (true, d)) (s'.setCont (true, d')) := { h with valid := rfl, cont := h2 rfl }
      exact endFit_order h3 varlss eta
    | false => exact endFit_invalid h d d' varlss eta
  · exact endFit_invalid h _ _ varlss eta

theorem piccaCost_order (log meancont meanflux varlss eta : K → K) (rfwave0 denom : K) {s s' : Spectrum K}
    (h : ArmOrder s s') : s.piccaCost log meancont meanflux varlss eta rfwave0 denom =
      s'.piccaCost log meancont meanflux varlss eta rfwave0 denom := by
  funext x
  unfold Spectrum.piccaCost
  exact sum_items h.fwave (fun a => by rw [h.z, h.fflux.arr, h.fivarSm.arr])

theorem startA0_order {s s' : Spectrum K} (h : ArmOrder s s') : startA0 s = startA0 s' := by
  unfold startA0
  rw [sum_items h.fivarSm (f' := fun a => (List.zipWith (· * ·) (s'.fflux.arr a.1) a.2).sum)
    (fun a => by rw [h.fflux.arr]), sum_items h.fivarSm (fun _ => rfl)]

variable [FloorRing K]

theorem fitOne_order (C : FullCfg K) (g : FullState K) {s s' : Spectrum K} (h : ArmOrder s s') :
    ArmOrder (C.fitOne g s) (C.fitOne g s') := by
  unfold FullCfg.fitOne
  rw [piccaCost_order _ _ _ _ _ _ _ h, startA0_order h]
  exact piccaFit_order _ _ _ _ _ _ _ _ h

theorem normSpec_order (st : Stacker K) {s s' : Spectrum K} (h : ArmOrder s s') :
    ArmOrder (normSpec st s) (normSpec st s') := by
  unfold normSpec
  refine armLoop (f := fun t a => { t with cont := t.cont.set a.1 (normArm st a.2 (t.cont.arr a.1)) }) ?_ ?_ h.fwave h
  · intro s s' a h
    refine { h with cont := ?_ }
    dsimp only
    rw [h.cont.arr]
    exact h.cont.set _ _
  · intro s s' a b hab h
    refine { h with cont := ?_ }
    dsimp only
    rw [arr_set, if_neg (Ne.symm hab), arr_set, if_neg hab, h.cont.arr, h.cont.arr]
    exact h.cont.set_comm hab _ _

/-! ### The stacks -/

/-- All pixels of the spectrum are inside the bins of the stacks. -/
def InBins (C : FullCfg K) (s : Spectrum K) : Prop :=
  ∀ a ∈ s.fwave, Stacker.fits C.obs a.2 = true ∧ Stacker.fits C.rf (a.2.map (fun w => w / (1 + s.z))) = true

theorem binAdd_append {α : Type} (a : List K) (l m : List α) (f : α → Int) (g : α → K) :
    binAdd (binAdd a (l.map f) (l.map g)) (m.map f) (m.map g) = binAdd a ((l ++ m).map f) ((l ++ m).map g) := by
  refine List.ext_getElem? fun k => ?_
  rw [binAdd_get, binAdd_get, binAdd_get, Option.map_map]
  congr 1
  funext x
  simp only [Function.comp_apply]
  rw [List.filter_append, List.map_append, List.sum_append, add_assoc]

theorem binAdd_perm {α : Type} (a : List K) {l m : List α} (h : l.Perm m) (f : α → Int) (g : α → K) :
    binAdd a (l.map f) (l.map g) = binAdd a (m.map f) (m.map g) := by
  refine List.ext_getElem? fun k => ?_
  rw [binAdd_get, binAdd_get, ((h.filter _).map g).sum_eq]

theorem binAdd_nil (a : List K) : binAdd a [] [] = a := by
  refine List.ext_getElem? fun k => ?_
  have := binAdd_get a ([] : List Unit) (fun _ => 0) (fun _ => 0) k
  rw [List.map_nil, List.map_nil] at this
  rw [this]
  simp

/-- The four sums after the pixels `l`. -/
def stackAll (st : Stacker K) (l : List (SPix K)) : Stacker K := (st.addObs l).addRf l

theorem stackAll_append (st : Stacker K) (l m : List (SPix K)) : stackAll (stackAll st l) m = stackAll st (l ++ m) := by
  unfold stackAll Stacker.addObs Stacker.addRf
  dsimp only
  rw [binAdd_append, binAdd_append, binAdd_append, binAdd_append]

theorem stackAll_perm (st : Stacker K) {l m : List (SPix K)} (h : l.Perm m) : stackAll st l = stackAll st m := by
  unfold stackAll Stacker.addObs Stacker.addRf
  dsimp only
  rw [binAdd_perm _ h, binAdd_perm _ h, binAdd_perm _ h, binAdd_perm _ h]

theorem stackAll_nil (st : Stacker K) : stackAll st [] = st := by
  unfold stackAll Stacker.addObs Stacker.addRf
  simp only [List.map_nil, binAdd_nil]

theorem addList_all (st : Stacker K) {ls : List (List (SPix K))}
    (h : ∀ l ∈ ls, Stacker.fits st.obs (l.map (·.wave)) = true ∧ Stacker.fits st.rf (l.map (·.waveRf)) = true) :
    st.addList ls = (stackAll st ls.flatten, none) := by
  induction ls generalizing st with
  | nil => rw [List.flatten_nil, stackAll_nil]; rfl
  | cons l ls ih =>
    have h1 := h l List.mem_cons_self
    have e : st.add l = (stackAll st l, none) := by
      unfold Stacker.add
      rw [if_pos h1.1, if_pos h1.2]
      rfl
    unfold Stacker.addList
    rw [e]
    dsimp only
    rw [ih (stackAll st l) (fun m hm => h m (List.mem_cons_of_mem _ hm)), stackAll_append, List.flatten_cons]

theorem fits_sub {g : StackGrid K} {l m : List K} (h : Stacker.fits g l = true) (hs : m ⊆ l) : Stacker.fits g m = true := by
  unfold Stacker.fits at h ⊢
  rw [List.all_eq_true] at h ⊢
  exact fun w hw => h w (hs hw)

theorem stackArm_fits (C : FullCfg K) {s : Spectrum K} (h : InBins C s) {a : String × List K} (ha : a ∈ s.fwave) (b : Bool) :
    Stacker.fits C.obs ((stackArm b s a).map (·.wave)) = true ∧
      Stacker.fits C.rf ((stackArm b s a).map (·.waveRf)) = true := by
  obtain ⟨h1, h2⟩ := h a ha
  have key : ∀ p ∈ stackArm b s a, p.wave ∈ a.2 ∧ p.waveRf = p.wave / (1 + s.z) := by
    intro p hp
    unfold Spectrum.stackArm at hp
    obtain ⟨q, hq, rfl⟩ := List.mem_map.mp hp
    refine ⟨?_, rfl⟩
    exact (List.of_mem_zip (List.of_mem_zip hq).1).1
  constructor
  · refine fits_sub h1 fun w hw => ?_
    obtain ⟨p, hp, rfl⟩ := List.mem_map.mp hw
    exact (key p hp).1
  · refine fits_sub h2 fun w hw => ?_
    obtain ⟨p, hp, rfl⟩ := List.mem_map.mp hw
    rw [(key p hp).2]
    exact List.mem_map.mpr ⟨p.wave, (key p hp).1, rfl⟩

theorem flatMap_perm' {α β γ : Type} {T : α → β → Prop} {f : α → List γ} {g : β → List γ}
    (h : ∀ a b, T a b → (f a).Perm (g b)) {l : List α} {l' : List β} (hl : List.Forall₂ T l l') :
    (l.flatMap f).Perm (l'.flatMap g) := by
  induction hl with
  | nil => exact .refl _
  | cons hab _ ih =>
    rw [List.flatMap_cons, List.flatMap_cons]
    exact (h _ _ hab).append ih

/-- What the fit needs of two spectra. -/
def OrderFit (C : FullCfg K) (s s' : Spectrum K) : Prop := ArmOrder s s' ∧ InBins C s

theorem OrderFit.inBins' {C : FullCfg K} {s s' : Spectrum K} (h : OrderFit C s s') : InBins C s' := by
  intro a ha
  have := h.2 a (h.1.fwave.2.symm.subset ha)
  rw [h.1.z] at this
  exact this

theorem stackRank_order (C : FullCfg K) {l l' : List (Spectrum K)} (h : List.Forall₂ (OrderFit C) l l') :
    C.stackRank l = C.stackRank l' := by
  have hf : List.Forall₂ (OrderFit C) (l.filter (·.valid)) (l'.filter (·.valid)) :=
    filter_rel (fun a b hab => hab.1.valid) h
  generalize l.filter (·.valid) = m at hf
  have key : ∀ (m : List (Spectrum K)), (∀ s ∈ m, InBins C s) →
      (Stacker.new C.obs C.rf).reset.addList (m.flatMap (fun s => s.fwave.map (stackArm C.residual s))) =
        (stackAll (Stacker.new C.obs C.rf).reset (m.flatMap (fun s => s.fwave.map (stackArm C.residual s))).flatten, none) := by
    intro m hm
    refine addList_all _ fun p hp => ?_
    obtain ⟨s, hs, hp⟩ := List.mem_flatMap.mp hp
    obtain ⟨a, ha, rfl⟩ := List.mem_map.mp hp
    exact stackArm_fits C (hm s hs) ha _
  unfold FullCfg.stackRank Spectrum.stackSpectra
  rw [key (l.filter (·.valid)) ?_, key (l'.filter (·.valid)) ?_]
  · dsimp only
    rw [stackAll_perm _ (m := (l'.filter (·.valid)).flatMap (fun s => s.fwave.map (stackArm C.residual s)) |>.flatten) ?_]
    refine List.Perm.flatten ?_
    refine flatMap_perm' (T := OrderFit C) ?_ (filter_rel (fun a b hab => hab.1.valid) h)
    intro s s' hs
    have e : stackArm C.residual s = stackArm C.residual s' := by
      funext a
      unfold Spectrum.stackArm
      rw [hs.1.fflux.arr, hs.1.fweight.arr, hs.1.cont.arr, hs.1.z]
    rw [e]
    exact hs.1.fwave.2.map _
  · intro s hs
    obtain ⟨hs, -⟩ := List.mem_filter.mp hs
    obtain ⟨i, hi, rfl⟩ := List.mem_iff_getElem.mp hs
    exact ((List.forall₂_iff_get.mp h).2 i (h.length_eq ▸ hi) hi).inBins'
  · intro s hs
    obtain ⟨hs, -⟩ := List.mem_filter.mp hs
    obtain ⟨i, hi, rfl⟩ := List.mem_iff_getElem.mp hs
    exact ((List.forall₂_iff_get.mp h).2 i hi (h.length_eq ▸ hi)).2

/-! ### Pixels of the forest -/

omit [Field K] [LinearOrder K] [FloorRing K] in
/-- No pixel is new, and the redshift is that of before. -/
def Sub (t s : Spectrum K) : Prop := t.fwave ⊆ s.fwave ∧ t.z = s.z

omit [Field K] [LinearOrder K] [FloorRing K] in
theorem Sub.refl (s : Spectrum K) : Sub s s := ⟨fun _ h => h, rfl⟩

omit [Field K] [LinearOrder K] [FloorRing K] in
theorem Sub.trans {a b c : Spectrum K} (h : Sub a b) (h' : Sub b c) : Sub a c := ⟨fun _ ha => h'.1 (h.1 ha), h.2.trans h'.2⟩

omit [Field K] [LinearOrder K] [FloorRing K] in
theorem foldl_sub {α : Type} {f : Spectrum K → α → Spectrum K} (hf : ∀ t a, Sub (f t a) t) (l : List α) (s : Spectrum K) :
    Sub (l.foldl f s) s := by
  induction l generalizing s with
  | nil => exact .refl s
  | cons a l ih => exact (ih (f s a)).trans (hf s a)

omit [Field K] [LinearOrder K] [FloorRing K] in
theorem dropArm_sub (s : Spectrum K) (a : String) : Sub (s.dropArm a) s := by
  refine ⟨?_, rfl⟩
  change s.fwave.pop a ⊆ s.fwave
  unfold Dict.pop
  exact fun _ hx => (List.mem_filter.mp hx).1

theorem dropShortArms_sub (s : Spectrum K) (a b k : K) : Sub (s.dropShortArms a b k) s :=
  foldl_sub dropArm_sub _ s

theorem masker_sub (dlaFlux : K → K → K → K) (row : MaskRow K) (m : Masker K) (s : Spectrum K) :
    Sub (m.apply dlaFlux row s) s := by
  cases m with
  | sky lines =>
    change Sub (skyApply lines s) s
    unfold skyApply
    refine foldl_sub ?_ _ s
    exact fun t a => ⟨fun _ h => h, rfl⟩
  | bal =>
    change Sub (balApply row s) s
    unfold balApply
    split
    · exact .refl s
    · refine foldl_sub ?_ _ s
      exact fun t a => ⟨fun _ h => h, rfl⟩
  | dla m =>
    change Sub (dlaApply dlaFlux m row s) s
    unfold dlaApply
    split
    · exact .refl s
    · refine foldl_sub ?_ _ s
      exact fun t a => ⟨fun _ h => h, rfl⟩

theorem applyMasks_sub (dlaFlux : K → K → K → K) (row : MaskRow K) (ms : List (Masker K)) (s : Spectrum K) :
    Sub (applyMasks dlaFlux row ms s) s := by
  cases ms with
  | nil => exact .refl s
  | cons m ms => exact (dropShortArms_sub _ _ _ _).trans (foldl_sub (fun t m => masker_sub dlaFlux row m t) (m :: ms) s)

theorem treatOne_sub (C : SelectCfg K) (ids : List Int) (x : ReadSpec K) : Sub (treatOne C ids x).spec x.spec := by
  refine (applyMasks_sub _ _ _ _).trans ?_
  refine Sub.trans (b := etaOne C x.spec) ?_ ?_
  · unfold fluxOne
    cases C.stack with
    | none => exact .refl _
    | some st =>
      dsimp only
      refine foldl_sub ?_ _ _
      exact fun t a => ⟨fun _ h => h, rfl⟩
  · unfold etaOne
    cases C.eta with
    | none => exact .refl _
    | some st =>
      dsimp only
      refine foldl_sub ?_ _ _
      exact fun t a => ⟨fun _ h => h, rfl⟩

theorem InBins.mono {C : FullCfg K} {s t : Spectrum K} (h : InBins C s) (hs : Sub t s) : InBins C t := by
  intro a ha
  rw [hs.2]
  exact h a (hs.1 ha)

theorem normSpec_sub (st : Stacker K) (s : Spectrum K) : Sub (normSpec st s) s := by
  unfold normSpec
  refine foldl_sub ?_ _ s
  exact fun t a => ⟨fun _ h => h, rfl⟩

theorem etaCalibIvar_sub (eta : K → K) (s : Spectrum K) : Sub (etaCalibIvar eta s) s := by
  unfold etaCalibIvar
  refine foldl_sub ?_ _ s
  exact fun t a => ⟨fun _ h => h, rfl⟩

theorem endFit_sub (s : Spectrum K) (varlss eta : K → K) : Sub (s.endFit varlss eta) s := by
  have h1 : Sub (s.setForestWeight varlss eta) s := by
    unfold Spectrum.setForestWeight
    split <;> exact ⟨fun _ h => h, rfl⟩
  have h2 : ∀ t : Spectrum K, Sub t.calcContinuumChi2 t := by
    intro t
    unfold Spectrum.calcContinuumChi2
    split <;> exact ⟨fun _ h => h, rfl⟩
  have h3 := (h2 (s.setForestWeight varlss eta)).trans h1
  unfold Spectrum.endFit
  generalize (s.setForestWeight varlss eta).calcContinuumChi2 = t at h3 ⊢
  dsimp only
  split <;> exact h3

theorem fitOne_sub (C : FullCfg K) (g : FullState K) (s : Spectrum K) : Sub (C.fitOne g s) s := by
  unfold FullCfg.fitOne Spectrum.piccaFit
  split <;> exact (endFit_sub _ _ _).trans ⟨fun _ h => h, rfl⟩

theorem setSmooth_sub (smooth : List K → K → List K) (s : Spectrum K) (size : K) :
    Sub (s.setSmoothForestivar smooth size) s := by
  unfold Spectrum.setSmoothForestivar
  split <;> exact ⟨fun _ h => h, rfl⟩

/-- All pixels of a new spectrum are inside the bins that span the wavelength ranges of the forest. -/
theorem setForest_inBins [IsStrictOrderedRing K] (C : SelectCfg K) (F : FullCfg K) {dw dwRf : K} (hw : C.wave1 < C.wave2)
    (hf : C.forestW1 < C.forestW2) (ho : linGrid C.wave1 C.wave2 dw = .ok F.obs)
    (hr : linGrid C.forestW1 C.forestW2 dwRf = .ok F.rf) {x : ReadSpec K} (hx : ReadOk x) :
    InBins F (C.setForest x).spec := by
  have h1 := (region_blank hx.data hx.fresh C.sqrt C.eps C.wave1 C.wave2 C.forestW1 C.forestW2).2.1
  have hz := (setForestRegion_sameData C.sqrt C.eps x.spec C.wave1 C.wave2 C.forestW1 C.forestW2).z
  intro a ha
  change Stacker.fits F.obs a.2 = true ∧ Stacker.fits F.rf (a.2.map (fun w => w /
    (1 + (x.spec.setForestRegion C.sqrt C.eps C.wave1 C.wave2 C.forestW1 C.forestW2).z))) = true
  replace ha : a ∈ (x.spec.setForestRegion C.sqrt C.eps C.wave1 C.wave2 C.forestW1 C.forestW2).fwave := ha
  rw [h1] at ha
  rw [hz]
  obtain ⟨b, -, rfl⟩ := List.mem_map.mp ha
  have key : ∀ w ∈ pixelsWhere (InForest x.spec.z C.wave1 C.wave2 C.forestW1 C.forestW2) b.2 b.2,
      InForest x.spec.z C.wave1 C.wave2 C.forestW1 C.forestW2 w := by
    intro w hw
    rw [pixelsWhere_self] at hw
    simpa using (List.mem_filter.mp hw).2
  have hp := hx.zpos
  dsimp only
  constructor
  · rw [fits_of_range ho hw (fun w hm => (key w hm).1)]
    exact fun w hm => (key w hm).2.2.1
  · have e : ∀ v ∈ (pixelsWhere (InForest x.spec.z C.wave1 C.wave2 C.forestW1 C.forestW2) b.2 b.2).map
        (fun w => w / (1 + x.spec.z)), C.forestW1 ≤ v ∧ v < C.forestW2 := by
      intro v hv
      obtain ⟨w, hm, rfl⟩ := List.mem_map.mp hv
      obtain ⟨-, k1, -, k2⟩ := key w hm
      exact ⟨by rw [le_div_iff₀ hp]; linarith, by rw [div_lt_iff₀ hp]; linarith⟩
    rw [fits_of_range hr hf (fun w hm => (e w hm).1)]
    exact fun w hm => (e w hm).2

/-! ### The iterations -/

section
variable {C : FullCfg K} {Q D V : Type} {P : FitterFns (FullState K) (Spectrum K) (StackSums K) Q D}

variable (c : FitterCodecs (StackSums K) Q V)

theorem fitOne_fit (g : FullState K) {s s' : Spectrum K} (h : OrderFit C s s') : OrderFit C (C.fitOne g s) (C.fitOne g s') :=
  ⟨fitOne_order C g h.1, h.2.mono (fitOne_sub C g s)⟩

theorem fitContinua_order {W : Type} (g : FullState K) {l l' : List (Spectrum K)} (h : List.Forall₂ (OrderFit C) l l') :
    RelP (V := V) (W := W) (fun x y => List.Forall₂ (OrderFit C) x.1 y.1 ∧ x.2 = y.2)
      ((C.fns P).fitContinua c g l) ((C.fns P).fitContinua c g l') := by
  have h1 : List.Forall₂ (OrderFit C) (l.map (C.fitOne g)) (l'.map (C.fitOne g)) :=
    forall₂_map_rel (fun _ _ hab => fitOne_fit g hab) h
  unfold FitterFns.fitContinua
  change RelP _ (Prog.allreduce _ (c.nat.enc ((l.map (C.fitOne g)).countP (fun s => s.valid))) _)
    (Prog.allreduce _ (c.nat.enc ((l'.map (C.fitOne g)).countP (fun s => s.valid))) _)
  rw [countP_rel (fun _ _ hab => hab.1.valid) h1]
  refine .allreduce _ _ fun nv => ?_
  change RelP _ (Prog.allreduce _ (c.nat.enc ((l.map (C.fitOne g)).countP (fun s => !s.valid))) _)
    (Prog.allreduce _ (c.nat.enc ((l'.map (C.fitOne g)).countP (fun s => !s.valid))) _)
  rw [countP_rel (fun a b hab => by rw [hab.1.valid]) h1]
  refine .allreduce _ _ fun ni => ?_
  split
  · exact .raise _
  · exact .ret ⟨h1, rfl⟩

theorem updateMeanCont_order {W : Type} (g : FullState K) {l l' : List (Spectrum K)} (h : List.Forall₂ (OrderFit C) l l') :
    (C.fns P).updateMeanCont (W := W) c g l = (C.fns P).updateMeanCont c g l' := by
  unfold FitterFns.updateMeanCont
  change Prog.allreduce _ (c.stack.enc (C.stackRank (l.filter (fun s => s.valid)))) _ =
    Prog.allreduce _ (c.stack.enc (C.stackRank (l'.filter (fun s => s.valid)))) _
  rw [stackRank_order C (filter_rel (fun a b hab => hab.1.valid) h)]

theorem updateVarLssEta_order (hP : VarSym P) {W : Type} (rank : Nat) (g : FullState K) {l l' : List (Spectrum K)}
    (h : List.Forall₂ (OrderFit C) l l') :
    (C.fns P).updateVarLssEta (W := W) c rank g l = (C.fns P).updateVarLssEta c rank g l' := by
  unfold FitterFns.updateVarLssEta
  change Prog.allreduce _ (c.var.enc (P.varAcc rank g (l.filter (fun s => s.valid)))) _ =
    Prog.allreduce _ (c.var.enc (P.varAcc rank g (l'.filter (fun s => s.valid)))) _
  rw [hP rank g _ _ ((filter_rel (fun a b hab => hab.1.valid) h).imp fun _ _ hab => hab.1)]

/-- The results of the iterations. -/
def OrderIter (C : FullCfg K) (x y : FullState K × List (Spectrum K) × Nat × Bool) : Prop :=
  x.1 = y.1 ∧ List.Forall₂ (OrderFit C) x.2.1 y.2.1 ∧ x.2.2 = y.2.2

theorem iterLoop_order (hP : VarSym P) (s : Saver) (rank : Nat) (hf : Bool) (k it : Nat) (g : FullState K)
    {l l' : List (Spectrum K)} (h : List.Forall₂ (OrderFit C) l l') :
    RelP (OrderIter C) ((C.fns P).iterLoop c s rank hf k it g l) ((C.fns P).iterLoop c s rank hf k it g l') := by
  induction k generalizing it g l l' with
  | zero => exact .ret ⟨rfl, h, rfl⟩
  | succ k ih =>
    refine RelP.emits ?_ _
    refine (fitContinua_order c g h).bind ?_
    rintro ⟨f, n⟩ ⟨f', n'⟩ ⟨hff, hn⟩
    dsimp only at hff hn ⊢
    rw [updateMeanCont_order c g hff]
    refine (RelP.refl _).bind ?_
    rintro m _ rfl
    have e : (C.fns P).varStep (W := SaverEv (String × D)) c rank hf m.1 f = (C.fns P).varStep c rank hf m.1 f' := by
      unfold FitterFns.varStep
      rw [updateVarLssEta_order c hP rank m.1 hff]
    rw [e]
    refine (RelP.refl _).bind ?_
    rintro g2 _ rfl
    cases m.2 with
    | true => exact .ret ⟨rfl, hff, rfl⟩
    | false => exact ih (it + 1) g2 hff

theorem tweak_order (g : FullState K) {l l' : List (Spectrum K)} (h : List.Forall₂ (OrderFit C) l l') :
    List.Forall₂ (OrderFit C) ((C.fns P).tweak g l) ((C.fns P).tweak g l') := by
  unfold FitterFns.tweak
  refine forall₂_map_rel (T := OrderFit C) ?_ (forall₂_map_rel (T := OrderFit C) ?_ h)
  · intro a b hab
    change OrderFit C (if C.etaCalib = true then etaCalibIvar g.eta a else a)
      (if C.etaCalib = true then etaCalibIvar g.eta b else b)
    split
    · exact ⟨etaLoop g.eta hab.1, hab.2.mono (etaCalibIvar_sub _ _)⟩
    · exact hab
  · intro a b hab
    change OrderFit C (if a.valid = true then (if C.normalize = true then normSpec g.stack a else a) else a)
      (if b.valid = true then (if C.normalize = true then normSpec g.stack b else b) else b)
    rw [hab.1.valid]
    split
    · split
      · exact ⟨normSpec_order g.stack hab.1, hab.2.mono (normSpec_sub _ _)⟩
      · exact hab
    · exact hab

theorem iterate_order (hP : VarSym P) (fname : String) (niter rank : Nat) (hf : Bool) (g : FullState K)
    {l l' : List (Spectrum K)} (h : List.Forall₂ (OrderFit C) l l') :
    RelP (OrderIter C) ((C.fns P).iterate c fname niter hf rank g l) ((C.fns P).iterate c fname niter hf rank g l') := by
  unfold FitterFns.iterate
  dsimp only
  refine RelP.emits ?_ _
  refine (iterLoop_order c hP _ rank hf niter 0 g h).bind ?_
  rintro ⟨g1, l1, k1⟩ ⟨g1', l1', k1'⟩ ⟨hg1, hl1, hk1⟩
  dsimp only at hg1 hl1 hk1
  subst hg1
  subst hk1
  refine RelP.emits ?_ _
  have ht := tweak_order (C := C) (P := P) g1 hl1
  dsimp only
  generalize (C.fns P).tweak g1 l1 = t at ht ⊢
  generalize (C.fns P).tweak g1 l1' = t' at ht ⊢
  have hv : (C.fns P).finalVar c (Saver.init (D := String × D) fname rank).2 rank hf g1 t =
      (C.fns P).finalVar c (Saver.init (D := String × D) fname rank).2 rank hf g1 t' := by
    unfold FitterFns.finalVar FitterFns.fitFinalVarlss
    rw [updateVarLssEta_order c hP rank _ ht]
    simp only [updateMeanCont_order c _ ht]
  rw [hv]
  refine (RelP.refl _).bind ?_
  rintro g2 _ rfl
  exact RelP.emits (.ret ⟨rfl, ht, rfl⟩) _

end

end Verif.Proofs
