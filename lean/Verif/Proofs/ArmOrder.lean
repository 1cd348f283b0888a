import Mathlib.Data.List.Nodup
import Mathlib.Data.List.Perm.Basic
import Verif.Proofs.CoaddDeltas
import Verif.Proofs.Dict
import Verif.Proofs.WholeRun
import Verif.Spec.ArmOrder

/-!
# Lemmas: the order of the arms
-/

namespace Verif.Proofs
open Verif Verif.Np Verif.Model Verif.Model.Spectrum Verif.Spec

section
variable {α β : Type}

theorem _root_.Verif.Spec.SameItems.nodup' {d d' : Dict α} (h : SameItems d d') : (List.map Prod.fst d').Nodup :=
  ((h.2.map Prod.fst).nodup_iff).mp h.1

theorem _root_.Verif.Spec.SameItems.refl {d : Dict α} (h : (List.map Prod.fst d).Nodup) : SameItems d d := ⟨h, .refl _⟩

theorem _root_.Verif.Spec.SameItems.symm {d d' : Dict α} (h : SameItems d d') : SameItems d' d := ⟨h.nodup', h.2.symm⟩

theorem _root_.Verif.Spec.SameItems.trans {d d' d'' : Dict α} (h : SameItems d d') (h' : SameItems d' d'') : SameItems d d'' :=
  ⟨h.1, h.2.trans h'.2⟩

theorem _root_.Verif.Spec.SameItems.nil : SameItems ([] : Dict α) [] := ⟨List.nodup_nil, .refl _⟩

theorem _root_.Verif.Spec.SameItems.lookup {d d' : Dict α} (h : SameItems d d') (k : String) : List.lookup k d = List.lookup k d' := by
  cases hl : List.lookup k d with
  | some v => exact (lookup_of_mem' h.nodup' (h.2.subset (mem_of_lookup_some hl))).symm
  | none =>
    refine ((lookup_none_iff (d := d')).mpr fun hm => (lookup_none_iff (d := d)).mp hl ?_).symm
    exact (h.2.map Prod.fst).symm.subset hm

theorem _root_.Verif.Spec.SameItems.arr {d d' : Dict (List α)} (h : SameItems d d') (k : String) : d.arr k = d'.arr k := by
  unfold Dict.arr
  rw [h.lookup]

/-- Dictionaries with the same entries. -/
theorem _root_.Verif.Spec.SameItems.of_lookup {d d' : Dict α} (hn : (List.map Prod.fst d).Nodup) (hn' : (List.map Prod.fst d').Nodup)
    (h : ∀ k, List.lookup k d = List.lookup k d') : SameItems d d' := by
  refine ⟨hn, (List.perm_ext_iff_of_nodup hn.of_map hn'.of_map).mpr ?_⟩
  rintro ⟨k, v⟩
  constructor
  · intro hm
    have := lookup_of_mem' hn hm
    rw [h] at this
    exact mem_of_lookup_some this
  · intro hm
    have := lookup_of_mem' hn' hm
    rw [← h] at this
    exact mem_of_lookup_some this

theorem _root_.Verif.Spec.SameItems.set {d d' : Dict α} (h : SameItems d d') (k : String) (v : α) : SameItems (d.set k v) (d'.set k v) := by
  refine .of_lookup (nodup_dictSet h.1 k v) (nodup_dictSet h.nodup' k v) fun a => ?_
  rw [lookup_set, lookup_set, h.lookup]

theorem _root_.Verif.Spec.SameItems.set_comm {d d' : Dict α} (h : SameItems d d') {k k' : String} (hk : k ≠ k') (v v' : α) :
    SameItems ((d.set k v).set k' v') ((d'.set k' v').set k v) := by
  refine .of_lookup (nodup_dictSet (nodup_dictSet h.1 k v) k' v') (nodup_dictSet (nodup_dictSet h.nodup' k' v') k v)
    fun a => ?_
  rw [lookup_set, lookup_set, lookup_set, lookup_set, h.lookup]
  by_cases h1 : a = k
  · subst h1
    rw [if_neg hk, if_pos rfl, if_pos rfl]
  · by_cases h2 : a = k'
    · subst h2
      rw [if_pos rfl, if_neg h1, if_pos rfl]
    · rw [if_neg h1, if_neg h2, if_neg h1]

theorem _root_.Verif.Spec.SameItems.pop {d d' : Dict α} (h : SameItems d d') (k : String) : SameItems (d.pop k) (d'.pop k) := by
  refine ⟨?_, h.2.filter _⟩
  exact h.1.sublist (List.filter_sublist.map Prod.fst)

theorem _root_.Verif.Spec.SameItems.pop_comm {d d' : Dict α} (h : SameItems d d') (k k' : String) :
    SameItems ((d.pop k).pop k') ((d'.pop k').pop k) := by
  refine ((h.pop k).pop k').trans ?_
  have : (d'.pop k).pop k' = (d'.pop k').pop k := by
    unfold Dict.pop
    rw [List.filter_filter, List.filter_filter]
    refine List.filter_congr fun x _ => ?_
    rw [Bool.and_comm]
  rw [← this]
  exact .refl ((h.symm.pop k).pop k').1

theorem _root_.Verif.Spec.SameItems.mapVals {d d' : Dict α} (h : SameItems d d') {f f' : String → α → β} (hf : ∀ k v, f k v = f' k v) :
    SameItems (d.mapVals f) (d'.mapVals f') := by
  obtain rfl : f = f' := by
    funext k v
    exact hf k v
  refine ⟨?_, h.2.map _⟩
  unfold Dict.mapVals
  rw [List.map_map]
  exact h.1

theorem _root_.Verif.Spec.SameItems.eq_nil {d d' : Dict α} (h : SameItems d d') : d = [] ↔ d' = [] := by
  constructor
  · rintro rfl
    exact h.2.nil_eq.symm
  · rintro rfl
    exact h.2.eq_nil

theorem _root_.Verif.Spec.SameItems.keys {d d' : Dict α} (h : SameItems d d') : List.Perm d.keys d'.keys := h.2.map Prod.fst

theorem _root_.Verif.Spec.SameItems?.symm {d d' : Option (Dict α)} (h : SameItems? d d') : SameItems? d' d := by
  cases d <;> cases d'
  · trivial
  · exact h.elim
  · exact h.elim
  · exact SameItems.symm h

theorem _root_.Verif.Spec.SameItems?.trans {d d' d'' : Option (Dict α)} (h : SameItems? d d') (h' : SameItems? d' d'') :
    SameItems? d d'' := by
  cases d <;> cases d' <;> cases d''
  · trivial
  all_goals first | exact h.elim | exact h'.elim | exact SameItems.trans h h'

theorem _root_.Verif.Spec.SameItems?.map_pop {d d' : Option (Dict α)} (h : SameItems? d d') (k : String) :
    SameItems? (d.map (fun d => d.pop k)) (d'.map (fun d => d.pop k)) := by
  cases d <;> cases d'
  · trivial
  · exact h.elim
  · exact h.elim
  · exact SameItems.pop h k

theorem _root_.Verif.Spec.SameItems?.pop_comm {d d' : Option (Dict α)} (h : SameItems? d d') (k k' : String) :
    SameItems? ((d.map (fun d => d.pop k)).map (fun d => d.pop k')) ((d'.map (fun d => d.pop k')).map (fun d => d.pop k)) := by
  cases d <;> cases d'
  · trivial
  · exact h.elim
  · exact h.elim
  · exact SameItems.pop_comm h k k'

theorem _root_.Verif.Spec.SameItems?.getD {d d' : Option (Dict α)} (h : SameItems? d d') {e e' : Dict α} (he : SameItems e e') :
    SameItems (d.getD e) (d'.getD e') := by
  cases d <;> cases d'
  · exact he
  · exact h.elim
  · exact h.elim
  · exact h

/-- A loop over items in two orders. -/
theorem foldl_items {S ι κ : Type} {R : S → S → Prop} (hsymm : ∀ s t, R s t → R t s) (htrans : ∀ s t u, R s t → R t u → R s u)
    {f : S → ι → S} (key : ι → κ) (hcong : ∀ s s' a, R s s' → R (f s a) (f s' a))
    (hcomm : ∀ s s' a b, key a ≠ key b → R s s' → R (f (f s a) b) (f (f s' b) a)) {l l' : List ι} (hp : l.Perm l')
    (hn : (l.map key).Nodup) {s s' : S} (h : R s s') : R (l.foldl f s) (l'.foldl f s') := by
  have hfold : ∀ (l : List ι) (s s' : S), R s s' → R (l.foldl f s) (l.foldl f s') := by
    intro l
    induction l with
    | nil => intro s s' h; exact h
    | cons a l ih => intro s s' h; exact ih _ _ (hcong s s' a h)
  induction hp generalizing s s' with
  | nil => exact h
  | cons a _ ih =>
    rw [List.map_cons, List.nodup_cons] at hn
    exact ih hn.2 (hcong s s' a h)
  | swap a b l =>
    rw [List.foldl_cons, List.foldl_cons, List.foldl_cons, List.foldl_cons]
    refine hfold l _ _ (hcomm s s' b a ?_ h)
    rw [List.map_cons, List.nodup_cons] at hn
    intro e
    exact hn.1 (e ▸ List.mem_map.mpr ⟨a, List.mem_cons_self, rfl⟩)
  | trans h1 _ ih1 ih2 =>
    refine htrans _ _ _ (ih1 hn h) (ih2 (((h1.map key).nodup_iff).mp hn) ?_)
    exact htrans _ _ _ (hsymm _ _ h) h

end

variable {K : Type}

theorem _root_.Verif.Spec.ArmOrder.symm {s t : Spectrum K} (h : ArmOrder s t) : ArmOrder t s :=
  ⟨h.z.symm, h.dwave.symm, h.wave.symm, h.flux.symm, h.ivar.symm, h.reso.symm, h.fwave.symm, h.fflux.symm, h.fivar.symm,
    h.freso.symm, h.ivarSm.symm, h.weight.symm, h.smoothing.symm, h.meanSnr.symm, h.cont.symm, h.valid.symm, h.chi2.symm,
    h.x0.symm⟩

theorem _root_.Verif.Spec.ArmOrder.trans {s t u : Spectrum K} (h : ArmOrder s t) (h' : ArmOrder t u) : ArmOrder s u :=
  ⟨h.z.trans h'.z, h.dwave.trans h'.dwave, h.wave.trans h'.wave, h.flux.trans h'.flux, h.ivar.trans h'.ivar,
    h.reso.trans h'.reso, h.fwave.trans h'.fwave, h.fflux.trans h'.fflux, h.fivar.trans h'.fivar,
    h.freso.trans h'.freso, h.ivarSm.trans h'.ivarSm, h.weight.trans h'.weight, h.smoothing.trans h'.smoothing,
    h.meanSnr.trans h'.meanSnr, h.cont.trans h'.cont, h.valid.trans h'.valid, h.chi2.trans h'.chi2, h.x0.trans h'.x0⟩

theorem _root_.Verif.Spec.ArmOrder.fivarSm {s t : Spectrum K} (h : ArmOrder s t) : SameItems s.fivarSm t.fivarSm :=
  h.ivarSm.getD h.fivar

theorem _root_.Verif.Spec.ArmOrder.fweight {s t : Spectrum K} (h : ArmOrder s t) : SameItems s.fweight t.fweight :=
  h.weight.getD h.fivarSm

/-- Loops over the arms of a spectrum. -/
theorem armLoop {α : Type} {f : Spectrum K → String × α → Spectrum K}
    (hcong : ∀ s s' a, ArmOrder s s' → ArmOrder (f s a) (f s' a))
    (hcomm : ∀ s s' a b, a.1 ≠ b.1 → ArmOrder s s' → ArmOrder (f (f s a) b) (f (f s' b) a)) {l l' : Dict α}
    (hl : SameItems l l') {s s' : Spectrum K} (h : ArmOrder s s') : ArmOrder (l.foldl f s) (l'.foldl f s') :=
  foldl_items (fun _ _ h => h.symm) (fun _ _ _ h h' => h.trans h') Prod.fst hcong hcomm hl.2 hl.1 h

/-- Change of flux and ivar of an arm. -/
def changeArm (F G : List K → List K) (s : Spectrum K) (arm : String) : Spectrum K :=
  { s with
    fflux := s.fflux.set arm (F (s.fflux.arr arm))
    fivar := s.fivar.set arm (G (s.fivar.arr arm)) }

theorem changeArm_cong (F G : List K → List K) {s s' : Spectrum K} (h : ArmOrder s s') (arm : String) :
    ArmOrder (changeArm F G s arm) (changeArm F G s' arm) := by
  refine { h with fflux := ?_, fivar := ?_ }
  · change SameItems (s.fflux.set arm _) (s'.fflux.set arm _)
    rw [h.fflux.arr]
    exact h.fflux.set _ _
  · change SameItems (s.fivar.set arm _) (s'.fivar.set arm _)
    rw [h.fivar.arr]
    exact h.fivar.set _ _

theorem changeArm_comm (F G F' G' : List K → List K) {s s' : Spectrum K} (h : ArmOrder s s') {a b : String} (hab : a ≠ b) :
    ArmOrder (changeArm F' G' (changeArm F G s a) b) (changeArm F G (changeArm F' G' s' b) a) := by
  refine { h with fflux := ?_, fivar := ?_ }
  · change SameItems ((s.fflux.set a _).set b (F' ((s.fflux.set a _).arr b))) ((s'.fflux.set b _).set a (F ((s'.fflux.set b _).arr a)))
    rw [arr_set, if_neg (Ne.symm hab), arr_set, if_neg hab, h.fflux.arr, h.fflux.arr]
    exact h.fflux.set_comm hab _ _
  · change SameItems ((s.fivar.set a _).set b (G' ((s.fivar.set a _).arr b))) ((s'.fivar.set b _).set a (G ((s'.fivar.set b _).arr a)))
    rw [arr_set, if_neg (Ne.symm hab), arr_set, if_neg hab, h.fivar.arr, h.fivar.arr]
    exact h.fivar.set_comm hab _ _

theorem changeLoop (F G : String × List K → List K → List K) {l l' : Dict (List K)} (hl : SameItems l l')
    {s s' : Spectrum K} (h : ArmOrder s s') :
    ArmOrder (l.foldl (fun t x => changeArm (F x) (G x) t x.1) s) (l'.foldl (fun t x => changeArm (F x) (G x) t x.1) s') :=
  armLoop (f := fun t x => changeArm (F x) (G x) t x.1) (fun _ _ a h => changeArm_cong (F a) (G a) h a.1)
    (fun _ _ a b hab h => changeArm_comm (F a) (G a) (F b) (G b) h hab) hl h

/-- Change of the ivar of an arm. -/
theorem setIvar_cong (G : List K → List K) {s s' : Spectrum K} (h : ArmOrder s s') (arm : String) :
    ArmOrder (s.setIvar arm (G (s.fivar.arr arm))) (s'.setIvar arm (G (s'.fivar.arr arm))) := by
  refine { h with fivar := ?_ }
  change SameItems (s.fivar.set arm _) (s'.fivar.set arm _)
  rw [h.fivar.arr]
  exact h.fivar.set _ _

theorem setIvar_comm (G G' : List K → List K) {s s' : Spectrum K} (h : ArmOrder s s') {a b : String} (hab : a ≠ b) :
    ArmOrder ((s.setIvar a (G (s.fivar.arr a))).setIvar b (G' ((s.setIvar a (G (s.fivar.arr a))).fivar.arr b)))
      ((s'.setIvar b (G' (s'.fivar.arr b))).setIvar a (G ((s'.setIvar b (G' (s'.fivar.arr b))).fivar.arr a))) := by
  refine { h with fivar := ?_ }
  change SameItems ((s.fivar.set a _).set b (G' ((s.fivar.set a _).arr b))) ((s'.fivar.set b _).set a (G ((s'.fivar.set b _).arr a)))
  rw [arr_set, if_neg (Ne.symm hab), arr_set, if_neg hab, h.fivar.arr, h.fivar.arr]
  exact h.fivar.set_comm hab _ _

variable [Field K] [LinearOrder K]

theorem etaLoop (eta : K → K) {s s' : Spectrum K} (h : ArmOrder s s') :
    ArmOrder (s.fwave.foldl (etaArm eta) s) (s'.fwave.foldl (etaArm eta) s') :=
  armLoop (f := etaArm eta)
    (fun _ _ a h => setIvar_cong (fun v => List.zipWith (fun w v => v / eta w) a.2 v) h a.1)
    (fun _ _ a b hab h => setIvar_comm (fun v => List.zipWith (fun w v => v / eta w) a.2 v)
      (fun v => List.zipWith (fun w v => v / eta w) b.2 v) h hab) h.fwave h

theorem fluxLoop (st : K → K) {s s' : Spectrum K} (h : ArmOrder s s') :
    ArmOrder (s.fwave.foldl (fluxArm st) s) (s'.fwave.foldl (fluxArm st) s') :=
  changeLoop (fun x f => List.zipWith (fun w f => f / st w) x.2 f) (fun x v => List.zipWith (fun w v => v * st w ^ 2) x.2 v)
    h.fwave h

theorem zeroLoop (m : List K → List Bool) {s s' : Spectrum K} (h : ArmOrder s s') :
    ArmOrder (s.fwave.foldl (fun t x => zeroArm t x.1 (m x.2)) s) (s'.fwave.foldl (fun t x => zeroArm t x.1 (m x.2)) s') :=
  changeLoop (fun x f => zeroWhere (m x.2) f) (fun x f => zeroWhere (m x.2) f) h.fwave h

theorem masker_order (dlaFlux : K → K → K → K) (row : MaskRow K) (m : Masker K) {s s' : Spectrum K} (h : ArmOrder s s') :
    ArmOrder (m.apply dlaFlux row s) (m.apply dlaFlux row s') := by
  cases m with
  | sky lines =>
    change ArmOrder (skyApply lines s) (skyApply lines s')
    unfold skyApply
    rw [← h.z]
    exact zeroLoop (fun w => markRanges w.length (skyRanges lines s.z w)) h
  | bal =>
    change ArmOrder (balApply row s) (balApply row s')
    unfold balApply
    split
    · exact h
    · rw [← h.z]
      exact zeroLoop (fun w => markRanges w.length ((balRanges row s.z).map (balIdx w))) h
  | dla m =>
    change ArmOrder (dlaApply dlaFlux m row s) (dlaApply dlaFlux m row s')
    unfold dlaApply
    split
    · exact h
    · rename_i dlas _
      rw [← h.z]
      exact changeLoop
        (fun x f => List.zipWith (fun f t => f / t)
          (zeroWhere ((dlaTransmission dlaFlux s.z x.2 dlas).map (fun x => decide (x < m.limit))) f)
          ((dlaTransmission dlaFlux s.z x.2 dlas).map (fun x => if x < m.limit then 1 else x)))
        (fun x f => List.zipWith (fun v t => v * t ^ 2)
          (zeroWhere ((dlaTransmission dlaFlux s.z x.2 dlas).map (fun x => decide (x < m.limit))) f)
          ((dlaTransmission dlaFlux s.z x.2 dlas).map (fun x => if x < m.limit then 1 else x)))
        h.fwave h

theorem dropArm_cong {s s' : Spectrum K} (h : ArmOrder s s') (a : String) : ArmOrder (s.dropArm a) (s'.dropArm a) :=
  { h with
    fwave := h.fwave.pop a, fflux := h.fflux.pop a, fivar := h.fivar.pop a, freso := h.freso.pop a
    ivarSm := h.ivarSm.map_pop a, weight := h.weight.map_pop a, cont := h.cont.pop a }

theorem dropArm_comm {s s' : Spectrum K} (h : ArmOrder s s') (a b : String) :
    ArmOrder ((s.dropArm a).dropArm b) ((s'.dropArm b).dropArm a) :=
  { h with
    fwave := h.fwave.pop_comm a b, fflux := h.fflux.pop_comm a b, fivar := h.fivar.pop_comm a b
    freso := h.freso.pop_comm a b, ivarSm := h.ivarSm.pop_comm a b, weight := h.weight.pop_comm a b
    cont := h.cont.pop_comm a b }

theorem dropShortArms_order [FloorRing K] {s s' : Spectrum K} (h : ArmOrder s s') (a b k : K) :
    ArmOrder (s.dropShortArms a b k) (s'.dropShortArms a b k) := by
  unfold Spectrum.dropShortArms
  have e : s'.minPixels a b k = s.minPixels a b k := by
    unfold Spectrum.minPixels
    rw [h.z, h.dwave]
  dsimp only
  rw [e]
  refine foldl_items (R := ArmOrder) (f := dropArm) (fun _ _ h => h.symm) (fun _ _ _ h h' => h.trans h') (key := id)
    (fun _ _ a h => dropArm_cong h a) (fun _ _ a b _ h => dropArm_comm h a b) ((h.fivar.2.filter _).map Prod.fst) ?_ h
  rw [List.map_id]
  exact h.fivar.1.sublist (List.filter_sublist.map Prod.fst)

theorem applyMasks_order [FloorRing K] (dlaFlux : K → K → K → K) (row : MaskRow K) (ms : List (Masker K))
    {s s' : Spectrum K} (h : ArmOrder s s') : ArmOrder (applyMasks dlaFlux row ms s) (applyMasks dlaFlux row ms s') := by
  have key : ∀ (ms : List (Masker K)) (s s' : Spectrum K), ArmOrder s s' →
      ArmOrder (ms.foldl (fun t m => m.apply dlaFlux row t) s) (ms.foldl (fun t m => m.apply dlaFlux row t) s') := by
    intro ms
    induction ms with
    | nil => intro s s' h; exact h
    | cons m ms ih => intro s s' h; exact ih _ _ (masker_order dlaFlux row m h)
  cases ms with
  | nil => exact h
  | cons m ms => exact dropShortArms_order (key (m :: ms) s s' h) 0 0 0

/-! ### The region of the forest -/

theorem relatedArm_order (sqrt : K → K) {s s' : Spectrum K} (h : ArmOrder s s') (eps : K) :
    ArmOrder (setForestRelatedParameters sqrt eps s) (setForestRelatedParameters sqrt eps s') := by
  let R : K × K × Dict K → K × K × Dict K → Prop := fun a b => a.1 = b.1 ∧ a.2.1 = b.2.1 ∧ SameItems a.2.2 b.2.2
  have hf : (fun acc (x : String × List K) => relatedArm sqrt s' acc x.1 x.2) =
      fun acc x => relatedArm sqrt s acc x.1 x.2 := by
    funext acc x
    unfold Spectrum.relatedArm
    rw [h.fflux.arr]
  have key : R (s.fivar.foldl (fun acc x => relatedArm sqrt s acc x.1 x.2) (0, eps, []))
      (s'.fivar.foldl (fun acc x => relatedArm sqrt s acc x.1 x.2) (0, eps, [])) := by
    refine foldl_items (R := R) (f := fun acc x => relatedArm sqrt s acc x.1 x.2) ?_ ?_ Prod.fst ?_ ?_ h.fivar.2 h.fivar.1
      (show R (0, eps, []) (0, eps, []) from ⟨rfl, rfl, .nil⟩)
    · rintro a b ⟨h1, h2, h3⟩
      exact ⟨h1.symm, h2.symm, h3.symm⟩
    · rintro a b c ⟨h1, h2, h3⟩ ⟨h1', h2', h3'⟩
      exact ⟨h1.trans h1', h2.trans h2', h3.trans h3'⟩
    · rintro ⟨a1, a2, a3⟩ ⟨b1, b2, b3⟩ x ⟨h1, h2, h3⟩
      dsimp only at h1 h2 h3
      subst h1 h2
      exact ⟨rfl, rfl, h3.set _ _⟩
    · rintro ⟨a1, a2, a3⟩ ⟨b1, b2, b3⟩ x y hxy ⟨h1, h2, h3⟩
      dsimp only at h1 h2 h3
      subst h1 h2
      refine ⟨?_, ?_, h3.set_comm hxy _ _⟩
      · change _ + _ + _ = _ + _ + _
        rw [add_right_comm]
      · change _ + _ + _ = _ + _ + _
        rw [add_right_comm]
  unfold Spectrum.setForestRelatedParameters
  rw [hf]
  generalize s.fivar.foldl (fun acc x => relatedArm sqrt s acc x.1 x.2) (0, eps, []) = A at key
  generalize s'.fivar.foldl (fun acc x => relatedArm sqrt s acc x.1 x.2) (0, eps, []) = B at key
  obtain ⟨h1, h2, h3⟩ := key
  refine { h with x0 := ?_, meanSnr := h3 }
  dsimp only
  rw [h1, h2]

/-- What `regionArm` uses of a spectrum. -/
theorem regionArm_change (l1 l2 : K) (s : Spectrum K) (arm : String) (w : List K) :
    regionArm l1 l2 s arm w =
      if numGood (slice (s.ivar.arr arm) (searchsorted w l1) (searchsorted w l2)) = 0 then s
      else
        { s with
          fwave := s.fwave.set arm (slice w (searchsorted w l1) (searchsorted w l2))
          fflux := s.fflux.set arm (slice (s.flux.arr arm) (searchsorted w l1) (searchsorted w l2))
          fivar := s.fivar.set arm (slice (s.ivar.arr arm) (searchsorted w l1) (searchsorted w l2))
          freso := if s.reso = [] then s.freso
            else s.freso.set arm ((s.reso.arr arm).map (fun r => slice r (searchsorted w l1) (searchsorted w l2))) } := rfl

theorem regionArm_kept (l1 l2 : K) (s : Spectrum K) (arm : String) (w : List K) :
    (regionArm l1 l2 s arm w).ivar = s.ivar ∧ (regionArm l1 l2 s arm w).flux = s.flux ∧
      (regionArm l1 l2 s arm w).reso = s.reso := by
  rw [regionArm_change]
  split <;> exact ⟨rfl, rfl, rfl⟩

theorem regionArm_cong (l1 l2 : K) {s s' : Spectrum K} (h : ArmOrder s s') (arm : String) (w : List K) :
    ArmOrder (regionArm l1 l2 s arm w) (regionArm l1 l2 s' arm w) := by
  rw [regionArm_change, regionArm_change, ← h.ivar.arr, ← h.flux.arr, ← h.reso.arr]
  split
  · exact h
  · refine { h with fwave := h.fwave.set _ _, fflux := h.fflux.set _ _, fivar := h.fivar.set _ _, freso := ?_ }
    dsimp only
    by_cases hr : s.reso = []
    · rw [if_pos hr, if_pos (h.reso.eq_nil.mp hr)]
      exact h.freso
    · rw [if_neg hr, if_neg (fun e => hr (h.reso.eq_nil.mpr e))]
      exact h.freso.set _ _

theorem regionArm_comm (l1 l2 : K) {s s' : Spectrum K} (h : ArmOrder s s') {a b : String} (hab : a ≠ b) (w v : List K) :
    ArmOrder (regionArm l1 l2 (regionArm l1 l2 s a w) b v) (regionArm l1 l2 (regionArm l1 l2 s' b v) a w) := by
  rw [regionArm_change l1 l2 (regionArm l1 l2 s a w), regionArm_change l1 l2 (regionArm l1 l2 s' b v)]
  obtain ⟨e1, e2, e3⟩ := regionArm_kept l1 l2 s a w
  obtain ⟨e1', e2', e3'⟩ := regionArm_kept l1 l2 s' b v
  rw [e1, e2, e3, e1', e2', e3', ← h.ivar.arr, ← h.flux.arr, ← h.reso.arr]
  rw [regionArm_change, regionArm_change, ← h.ivar.arr, ← h.flux.arr, ← h.reso.arr]
  have hr : (s'.reso = []) ↔ (s.reso = []) := h.reso.eq_nil.symm
  split
  · split
    · exact h
    · refine { h with fwave := h.fwave.set _ _, fflux := h.fflux.set _ _, fivar := h.fivar.set _ _, freso := ?_ }
      dsimp only
      by_cases hr' : s.reso = []
      · rw [if_pos hr', if_pos (hr.mpr hr')]
        exact h.freso
      · rw [if_neg hr', if_neg (fun e => hr' (hr.mp e))]
        exact h.freso.set _ _
  · split
    · refine { h with fwave := h.fwave.set _ _, fflux := h.fflux.set _ _, fivar := h.fivar.set _ _, freso := ?_ }
      dsimp only
      by_cases hr' : s.reso = []
      · rw [if_pos hr', if_pos (hr.mpr hr')]
        exact h.freso
      · rw [if_neg hr', if_neg (fun e => hr' (hr.mp e))]
        exact h.freso.set _ _
    · refine { h with
        fwave := h.fwave.set_comm hab _ _, fflux := h.fflux.set_comm hab _ _, fivar := h.fivar.set_comm hab _ _, freso := ?_ }
      dsimp only
      by_cases hr' : s.reso = []
      · rw [if_pos hr', if_pos hr', if_pos (hr.mpr hr'), if_pos (hr.mpr hr')]
        exact h.freso
      · have hr'' := fun e => hr' (hr.mp e)
        rw [if_neg hr', if_neg hr', if_neg hr'', if_neg hr'']
        exact h.freso.set_comm hab _ _

theorem setForestRegion_order (sqrt : K → K) (eps : K) {s s' : Spectrum K} (h : ArmOrder s s') (w1 w2 lya1 lya2 : K) :
    ArmOrder (s.setForestRegion sqrt eps w1 w2 lya1 lya2) (s'.setForestRegion sqrt eps w1 w2 lya1 lya2) := by
  unfold Spectrum.setForestRegion
  dsimp only
  rw [← h.z]
  have key := armLoop (f := fun s x => regionArm (max w1 ((1 + s'.z) * lya1)) (min w2 ((1 + s'.z) * lya2)) s x.1 x.2)
    (fun _ _ a h => regionArm_cong _ _ h a.1 a.2) (fun _ _ a b hab h => regionArm_comm _ _ h hab a.2 b.2) h.wave h
  rw [← h.z] at key
  generalize s.wave.foldl _ s = t at key ⊢
  generalize s'.wave.foldl _ s' = t' at key ⊢
  refine relatedArm_order sqrt ?_ eps
  exact { key with ivarSm := trivial, weight := trivial }

/-! ### Selection -/

variable [FloorRing K]

theorem setForest_order (C : SelectCfg K) {x x' : ReadSpec K} (h : ReadOrder x x') :
    ReadOrder (C.setForest x) (C.setForest x') := by
  have h1 := setForestRegion_order C.sqrt C.eps h.spec C.wave1 C.wave2 C.forestW1 C.forestW2
  refine ⟨h.row, h.rsnr, ?_⟩
  unfold SelectCfg.setForest
  dsimp only
  generalize x.spec.setForestRegion C.sqrt C.eps C.wave1 C.wave2 C.forestW1 C.forestW2 = t at h1 ⊢
  generalize x'.spec.setForestRegion C.sqrt C.eps C.wave1 C.wave2 C.forestW1 C.forestW2 = t' at h1 ⊢
  exact { h1 with wave := .nil, flux := .nil, ivar := .nil, reso := .nil }

theorem keepRead_order (C : SelectCfg K) {x x' : ReadSpec K} (h : ReadOrder x x') : C.keepRead x = C.keepRead x' := by
  unfold SelectCfg.keepRead
  rw [h.rsnr]
  refine decide_eq_decide.mpr ?_
  rw [ne_eq, ne_eq, h.spec.fwave.eq_nil]

theorem treatOne_order (C : SelectCfg K) (ids : List Int) {x x' : ReadSpec K} (h : ReadOrder x x') :
    ReadOrder (treatOne C ids x) (treatOne C ids x') := by
  refine ⟨h.row, h.rsnr, ?_⟩
  change ArmOrder (applyMasks C.dlaFlux x.row (C.maskers ids) (fluxOne C (etaOne C x.spec)))
    (applyMasks C.dlaFlux x'.row (C.maskers ids) (fluxOne C (etaOne C x'.spec)))
  rw [h.row]
  refine applyMasks_order _ _ _ ?_
  have h1 : ArmOrder (etaOne C x.spec) (etaOne C x'.spec) := by
    unfold etaOne
    cases C.eta with
    | none => exact h.spec
    | some eta => exact etaLoop eta h.spec
  unfold fluxOne
  cases C.stack with
  | none => exact h1
  | some st => exact fluxLoop st h1

theorem keepTreated_order (C : SelectCfg K) {x x' : ReadSpec K} (h : ReadOrder x x') : keepTreated C x = keepTreated C x' := by
  have h1 : x.spec.isLong (C.forestW2 - C.forestW1) C.skip = x'.spec.isLong (C.forestW2 - C.forestW1) C.skip := by
    unfold Spectrum.isLong Spectrum.realSize
    rw [h.spec.z, h.spec.dwave, (h.spec.fivar.2.map (fun x => numGood x.2)).sum_eq]
  have h2 : x.spec.effectiveMeansnr C.eps8 = x'.spec.effectiveMeansnr C.eps8 := by
    unfold Spectrum.effectiveMeansnr
    rw [(h.spec.meanSnr.2.map (fun x => x.2 ^ 3)).sum_eq, (h.spec.meanSnr.2.map (fun x => x.2 ^ 2)).sum_eq]
  unfold keepTreated
  rw [h1, h2]

end Verif.Proofs
