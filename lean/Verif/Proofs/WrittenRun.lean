import Verif.Proofs.CatalogRun
import Verif.Props.DeltaIo
import Verif.Spec.WrittenRun

/-!
# Lemmas: the spectra of a run can be written
-/

set_option linter.unusedSectionVars false

namespace Verif.Proofs
open Verif Verif.Np Verif.Model Verif.Model.Prog Verif.Spec Verif.Props Verif.Model.Spectrum

section
variable {K : Type} [Field K] [LinearOrder K] [FloorRing K]

/-! ### Arms -/

/-- What every arm of the forest has. -/
structure Stored (skip : Bool) (s : Spectrum K) : Prop where
  aligned : Aligned s
  snr : ∀ a ∈ s.fwave.keys, a ∈ s.meanSnr.keys
  noReso : skip = true → s.freso = []
  reso : skip = false → ∀ a ∈ s.fwave.keys, a ∈ s.freso.keys

/-- A valid spectrum has a continuum. -/
def HasCont (s : Spectrum K) : Prop :=
  s.valid = true → ∀ arm w, s.fwave.lookup arm = some w → ∃ c, s.cont.lookup arm = some c ∧ c.length = w.length

/-- No new arm; the resolution of the arms that are left is kept. -/
structure KeepsArms (s t : Spectrum K) : Prop where
  snr : t.meanSnr = s.meanSnr
  valid : t.valid = s.valid
  sub : ∀ a ∈ t.fwave.keys, a ∈ s.fwave.keys
  none : s.freso = [] → t.freso = []
  some : ∀ a ∈ t.fwave.keys, a ∈ s.freso.keys → a ∈ t.freso.keys

theorem KeepsArms.refl (s : Spectrum K) : KeepsArms s s := ⟨rfl, rfl, fun _ h => h, id, fun _ _ h => h⟩

theorem KeepsArms.trans {s t u : Spectrum K} (h : KeepsArms s t) (h' : KeepsArms t u) : KeepsArms s u :=
  ⟨h'.snr.trans h.snr, h'.valid.trans h.valid, fun a ha => h.sub a (h'.sub a ha), fun e => h'.none (h.none e),
    fun a ha hr => h'.some a ha (h.some a (h'.sub a ha) hr)⟩

theorem Stored.keeps {skip : Bool} {s t : Spectrum K} (h : Stored skip s) (k : KeepsArms s t) (hA : Aligned t) :
    Stored skip t :=
  ⟨hA, fun a ha => by rw [k.snr]; exact h.snr a (k.sub a ha), fun e => k.none (h.noReso e),
    fun e a ha => k.some a ha (h.reso e a (k.sub a ha))⟩

theorem foldl_keepsArms {α : Type} {f : Spectrum K → α → Spectrum K} (hf : ∀ t a, KeepsArms t (f t a)) (l : List α)
    (s : Spectrum K) : KeepsArms s (l.foldl f s) := by
  induction l generalizing s with
  | nil => exact .refl s
  | cons a l ih => exact (hf s a).trans (ih (f s a))

theorem dropArm_keepsArms (s : Spectrum K) (a : String) : KeepsArms s (s.dropArm a) := by
  refine ⟨rfl, rfl, fun b hb => ?_, fun e => ?_, fun b hb hr => ?_⟩
  · change b ∈ (s.fwave.pop a).keys at hb
    rw [keys_pop] at hb
    exact (List.mem_filter.mp hb).1
  · change s.freso.pop a = []
    rw [e]
    rfl
  · change b ∈ (s.fwave.pop a).keys at hb
    change b ∈ (s.freso.pop a).keys
    rw [keys_pop] at hb ⊢
    exact List.mem_filter.mpr ⟨hr, (List.mem_filter.mp hb).2⟩

theorem dropShort_keepsArms (s : Spectrum K) (a b k : K) : KeepsArms s (s.dropShortArms a b k) :=
  foldl_keepsArms dropArm_keepsArms _ s

theorem masker_keepsArms (dlaFlux : K → K → K → K) (row : MaskRow K) (m : Masker K) (s : Spectrum K) :
    KeepsArms s (m.apply dlaFlux row s) := by
  cases m with
  | sky lines =>
    change KeepsArms s (skyApply lines s)
    unfold skyApply
    refine foldl_keepsArms ?_ _ s
    exact fun t a => ⟨rfl, rfl, fun _ h => h, id, fun _ _ h => h⟩
  | bal =>
    change KeepsArms s (balApply row s)
    unfold balApply
    split
    · exact .refl s
    · refine foldl_keepsArms ?_ _ s
      exact fun t a => ⟨rfl, rfl, fun _ h => h, id, fun _ _ h => h⟩
  | dla m =>
    change KeepsArms s (dlaApply dlaFlux m row s)
    unfold dlaApply
    split
    · exact .refl s
    · refine foldl_keepsArms ?_ _ s
      exact fun t a => ⟨rfl, rfl, fun _ h => h, id, fun _ _ h => h⟩

theorem applyMasks_keepsArms (dlaFlux : K → K → K → K) (row : MaskRow K) (ms : List (Masker K)) (s : Spectrum K) :
    KeepsArms s (applyMasks dlaFlux row ms s) := by
  cases ms with
  | nil => exact .refl s
  | cons m ms =>
    exact (foldl_keepsArms (fun t m => masker_keepsArms dlaFlux row m t) (m :: ms) s).trans (dropShort_keepsArms _ _ _ _)

theorem treatOne_keepsArms (C : SelectCfg K) (ids : List Int) (x : ReadSpec K) :
    KeepsArms x.spec (treatOne C ids x).spec := by
  refine KeepsArms.trans ?_ (applyMasks_keepsArms _ _ _ _)
  refine KeepsArms.trans (t := etaOne C x.spec) ?_ ?_
  · unfold etaOne
    cases C.eta with
    | none => exact .refl _
    | some st =>
      dsimp only
      refine foldl_keepsArms ?_ _ _
      exact fun t a => ⟨rfl, rfl, fun _ h => h, id, fun _ _ h => h⟩
  · unfold fluxOne
    cases C.stack with
    | none => exact .refl _
    | some st =>
      dsimp only
      refine foldl_keepsArms ?_ _ _
      exact fun t a => ⟨rfl, rfl, fun _ h => h, id, fun _ _ h => h⟩

theorem smooth_keepsArms {Val : Type} (C : WholeCfg Val K) (x : ReadSpec K) : KeepsArms x.spec (C.smooth x).spec := by
  unfold WholeCfg.smooth
  split
  · unfold Spectrum.setSmoothForestivar
    split <;> exact ⟨rfl, rfl, fun _ h => h, id, fun _ _ h => h⟩
  · exact .refl _

/-! ### Before the fit -/

theorem regionArm_arms (l1 l2 : K) (s : Spectrum K) (arm : String) (w : List K) :
    let t := regionArm l1 l2 s arm w
    t.valid = s.valid ∧ (∀ a ∈ t.fwave.keys, a ∈ s.fwave.keys ∨ a = arm) ∧ (s.reso = [] → t.freso = s.freso) ∧
    (s.reso ≠ [] → (∀ a ∈ s.fwave.keys, a ∈ s.freso.keys) → ∀ a ∈ t.fwave.keys, a ∈ t.freso.keys) := by
  unfold regionArm
  dsimp only
  split
  · exact ⟨rfl, fun _ h => .inl h, fun _ => rfl, fun _ h => h⟩
  · refine ⟨rfl, fun a ha => ?_, fun e => ?_, fun e h a ha => ?_⟩
    · exact ((mem_keys_set _ _ _ _).mp ha).symm
    · simp only [e, if_true]
    · simp only [e, if_false]
      refine (mem_keys_set _ _ _ _).mpr ?_
      exact ((mem_keys_set _ _ _ _).mp ha).imp id (h a)

theorem region_foldl_arms (l1 l2 : K) (l : Dict (List K)) (s : Spectrum K) :
    let t := l.foldl (fun s x => regionArm l1 l2 s x.1 x.2) s
    t.valid = s.valid ∧ (∀ a ∈ t.fwave.keys, a ∈ s.fwave.keys ∨ a ∈ l.keys) ∧ (s.reso = [] → t.freso = s.freso) ∧
    (s.reso ≠ [] → (∀ a ∈ s.fwave.keys, a ∈ s.freso.keys) → ∀ a ∈ t.fwave.keys, a ∈ t.freso.keys) := by
  induction l generalizing s with
  | nil => exact ⟨rfl, fun _ h => .inl h, fun _ => rfl, fun _ h => h⟩
  | cons x l ih =>
    rw [List.foldl_cons]
    obtain ⟨a1, a2, a3, a4⟩ := ih (regionArm l1 l2 s x.1 x.2)
    obtain ⟨b1, b2, b3, b4⟩ := regionArm_arms l1 l2 s x.1 x.2
    have hr : (regionArm l1 l2 s x.1 x.2).reso = s.reso := (regionArm_sameData l1 l2 s x.1 x.2).reso
    rw [hr] at a3 a4
    refine ⟨a1.trans b1, fun a ha => ?_, fun e => (a3 e).trans (b3 e), fun e h => a4 e (b4 e h)⟩
    rcases a2 a ha with h | h
    · rcases b2 a h with h | rfl
      · exact .inl h
      · exact .inr (by simp [Dict.keys])
    · exact .inr (List.mem_cons_of_mem _ h)

theorem setForest_stored (C : SelectCfg K) {skip : Bool} {x : ReadSpec K} (hx : ReadOk x) (hn : NewSpec skip x.spec)
    (h0 : ∀ v, v ≤ 0 → C.sqrt v = 0) :
    Stored skip (C.setForest x).spec ∧ (C.setForest x).spec.valid = false := by
  obtain ⟨hA, -⟩ := setForest_same C hx h0
  obtain ⟨a1, a2, a3, a4⟩ := region_foldl_arms (max C.wave1 ((1 + x.spec.z) * C.forestW1))
    (min C.wave2 ((1 + x.spec.z) * C.forestW2)) x.spec.wave x.spec
  refine ⟨⟨hA, fun a ha => ?_, fun e => ?_, fun e a ha => ?_⟩, a1.trans hn.valid⟩
  · rw [← hA.ivarKeys] at ha
    have h1 := (related_eq C.sqrt C.eps { (x.spec.wave.foldl (fun s x' => regionArm (max C.wave1 ((1 + x.spec.z) * C.forestW1))
      (min C.wave2 ((1 + x.spec.z) * C.forestW2)) s x'.1 x'.2) x.spec) with ivarSm := none, weight := none } (by
        have := hA.nodup
        rw [← hA.ivarKeys] at this
        exact this)).2
    change a ∈ (setForestRelatedParameters C.sqrt C.eps _).meanSnr.keys
    rw [h1, keys_mapVals]
    exact ha
  · exact (a3 (hn.noReso e)).trans hx.fresh.freso
  · refine a4 ?_ (by rw [hx.fresh.fwave]; simp [Dict.keys]) a ha
    intro h
    rcases a2 a ha with h' | h'
    · rw [hx.fresh.fwave] at h'
      simp [Dict.keys] at h'
    · have := hn.reso e a h'
      rw [h] at this
      simp [Dict.keys] at this

theorem coadd_arms {sqrt : K → K} {smooth : List K → K → List K} {junk : Nat → K} {nan eps : K}
    {s t : Spectrum K} {varlss eta : K → K} (h : s.coaddArmsForest sqrt smooth junk nan eps varlss eta = .ok t) :
    t.valid = s.valid ∧ t.fwave.keys = ["brz"] ∧ t.meanSnr.keys = ["brz"] ∧ (s.freso = [] → t.freso = []) ∧
    (s.freso ≠ [] → t.freso.keys = ["brz"]) := by
  unfold coaddArmsForest at h
  obtain ⟨g, hg, h⟩ := except_bind_eq_ok.mp h
  obtain ⟨fi, hfi, h⟩ := except_bind_eq_ok.mp h
  obtain ⟨c, hcc, h⟩ := except_bind_eq_ok.mp h
  obtain ⟨r, hr, h⟩ := except_bind_eq_ok.mp h
  rw [except_pure] at h
  cases h
  have key : ∀ u : Spectrum K, let v := ((u.setSmoothForestivar smooth s.smoothing).setForestWeight varlss eta)
      v.valid = u.valid ∧ v.fwave = u.fwave ∧ v.freso = u.freso := by
    intro u
    unfold Spectrum.setSmoothForestivar Spectrum.setForestWeight
    dsimp only
    repeat' split
    all_goals exact ⟨rfl, rfl, rfl⟩
  obtain ⟨k1, k2, k3⟩ := key (s.replaceForest (linspace g.1 g.2.1 g.2.2) fi.1 fi.2 c r)
  refine ⟨k1, ?_, rfl, fun e => ?_, fun e => ?_⟩
  · change Dict.keys (Spectrum.fwave (Spectrum.setForestWeight _ _ _)) = _
    rw [k2]
    rfl
  · change Spectrum.freso (Spectrum.setForestWeight _ _ _) = _
    rw [k3]
    change r = []
    unfold newReso at hr
    rw [if_pos e] at hr
    cases hr
    rfl
  · change Dict.keys (Spectrum.freso (Spectrum.setForestWeight _ _ _)) = _
    rw [k3]
    change Dict.keys r = _
    unfold newReso at hr
    rw [if_neg e] at hr
    obtain ⟨m, -, hr⟩ := except_bind_eq_ok.mp hr
    rw [except_pure] at hr
    cases hr
    rfl

theorem prepRead_stored [IsStrictOrderedRing K] (C : SelectCfg K) {skip : Bool} {x : ReadSpec K} (hx : ReadOk x)
    (hn : NewSpec skip x.spec) (hc : C.coaddBefore = true → CoaddReady C x.spec) (h0 : ∀ v, v ≤ 0 → C.sqrt v = 0)
    (hg : readGood C x.spec ≠ []) :
    Stored skip (prepRead C x).spec ∧ (prepRead C x).spec.valid = false := by
  obtain ⟨p1, hA, -⟩ := prep_same C hx hc h0 hg
  obtain ⟨hs, hv⟩ := setForest_stored C hx hn h0
  obtain ⟨-, -, -, -, -, hne⟩ := setForest_same C hx h0
  by_cases hb : C.coaddBefore = true
  · have h1 := p1 hb
    unfold SelectCfg.coadd at h1
    obtain ⟨t, ht, h1⟩ := except_bind_eq_ok.mp h1
    rw [except_pure] at h1
    have e : prepRead C x = { C.setForest x with spec := t } := (Except.ok.inj h1).symm
    rw [e] at hA ⊢
    obtain ⟨c1, c2, c3, c4, c5⟩ := coadd_arms ht
    refine ⟨⟨hA, fun a ha => ?_, fun e => c4 (hs.noReso e), fun e a ha => ?_⟩, c1.trans hv⟩
    · dsimp only at ha ⊢
      rw [c2] at ha
      rw [c3]
      exact ha
    · dsimp only at ha ⊢
      rw [c2] at ha
      rw [c5 (fun h => ?_)]
      · exact ha
      · obtain ⟨b, hb⟩ := List.exists_mem_of_ne_nil _ (hne.mpr hg)
        have := hs.reso e b.1 (List.mem_map.mpr ⟨b, hb, rfl⟩)
        rw [h] at this
        simp [Dict.keys] at this
  · have e : prepRead C x = C.setForest x := if_neg hb
    rw [e]
    exact ⟨hs, hv⟩

/-- Other smoothed ivar and weights. -/
theorem aligned_newWeight {s t : Spectrum K} (A : Aligned s) (h1 : t.fwave = s.fwave) (h2 : t.fflux = s.fflux)
    (h3 : t.fivar = s.fivar) (h4 : t.freso = s.freso) (k1 : t.fivarSm.keys = s.fwave.keys)
    (k2 : t.fweight.keys = s.fwave.keys)
    (l1 : ∀ arm w, s.fwave.lookup arm = some w → (t.fivarSm.arr arm).length = w.length)
    (l2 : ∀ arm w, s.fwave.lookup arm = some w → (t.fweight.arr arm).length = w.length) : Aligned t := by
  constructor
  · rw [h1]; exact A.nodup
  · rw [h1, h2]; exact A.fluxKeys
  · rw [h1, h3]; exact A.ivarKeys
  · rw [h1]; exact k1
  · rw [h1]; exact k2
  · rw [h1, h4]; exact A.resoKeys
  · rw [h1]; exact A.sorted
  · rw [h1, h2]; exact A.flux
  · rw [h1, h3]; exact A.ivar
  · rw [h1]; exact l1
  · rw [h1]; exact l2
  · rw [h1, h4]; exact A.reso

theorem smooth_aligned (sm : List K → K → List K) (hsm : ∀ v x, (sm v x).length = v.length) (size : K)
    {s : Spectrum K} (A : Aligned s) : Aligned (s.setSmoothForestivar sm size) := by
  unfold setSmoothForestivar
  split
  · exact aligned_newWeight A rfl rfl rfl rfl A.ivarKeys A.ivarKeys A.ivar A.ivar
  · have hk : (s.fivar.mapVals (fun _ v => sm v (size / s.dwave))).keys = s.fwave.keys := by
      rw [keys_mapVals]; exact A.ivarKeys
    have hl : ∀ arm w, s.fwave.lookup arm = some w →
        ((s.fivar.mapVals (fun _ v => sm v (size / s.dwave))).arr arm).length = w.length := by
      intro arm w hw
      rw [arr_mapVals (by rw [A.ivarKeys]; exact mem_keys_of_lookup hw), hsm]
      exact A.ivar arm w hw
    exact aligned_newWeight A rfl rfl rfl rfl hk hk hl hl

theorem prepOne_stored {Val : Type} [LinearOrder Val] [IsStrictOrderedRing K] (C : WholeCfg Val K) {dw dr : K}
    (hC : PlainRun C dw dr) (hsm : ∀ v x, (C.sel.smooth v x).length = v.length) {skip : Bool} (ids : List Int)
    {x : ReadSpec K} (hx : ReadOk x) (hn : NewSpec skip x.spec)
    (hc : C.sel.coaddBefore = true → CoaddReady C.sel x.spec) (hp : PassesCuts C.sel x) :
    Stored skip (prepOne C ids x).spec ∧ (prepOne C ids x).spec.valid = false := by
  obtain ⟨h1, h2⟩ := prepRead_stored C.sel hx hn hc hC.sqrt hp.1
  have hA : Aligned (treatOne C.sel ids (prepRead C.sel x)).spec := by
    obtain ⟨-, a1, a2, -⟩ := prep_same C.sel hx hc hC.sqrt hp.1
    obtain ⟨b1, b2, -⟩ := etaOne_same C.sel hC.eta a1
    obtain ⟨c1, c2, -⟩ := fluxOne_same C.sel hC.stack b1
    exact masks_aligned C.sel.dlaFlux _ _ c1 (by rw [c2, b2, a2]; exact hx.zpos)
  have k := (treatOne_keepsArms C.sel ids (prepRead C.sel x)).trans
    (smooth_keepsArms C (treatOne C.sel ids (prepRead C.sel x)))
  refine ⟨h1.keeps k ?_, k.valid.trans h2⟩
  change Aligned (C.smooth (treatOne C.sel ids (prepRead C.sel x))).spec
  unfold WholeCfg.smooth
  split
  · exact smooth_aligned _ hsm _ hA
  · exact hA

/-! ### The fit -/

theorem weight_aligned (varlss eta : K → K) {s : Spectrum K} (A : Aligned s) (hc : HasCont s) :
    Aligned (s.setForestWeight varlss eta) := by
  unfold setForestWeight
  split
  · exact aligned_newWeight A rfl rfl rfl rfl A.smKeys A.smKeys A.sm A.sm
  next h =>
    have hv : s.valid = true := by
      have := (not_or.mp h).1
      simpa using this
    refine aligned_newWeight A rfl rfl rfl rfl A.smKeys ?_ A.sm fun arm w hw => ?_
    · simp only [fweight, Option.getD_some]
      exact keys_mapVals _ _
    simp only [fweight, Option.getD_some]
    rw [arr_mapVals (mem_keys_of_lookup hw), arr_of_lookup hw]
    obtain ⟨c, c1, c2⟩ := hc hv arm w hw
    have := A.sm arm w hw
    unfold armWeight
    rw [arr_of_lookup c1]
    simp [c2, this]

theorem endFit_stored (varlss eta : K → K) {skip : Bool} {s : Spectrum K} (h : Stored skip s) (hc : HasCont s) :
    Stored skip (endFit varlss eta s) ∧ HasCont (endFit varlss eta s) := by
  have hA := weight_aligned varlss eta h.aligned hc
  have k1 : KeepsArms s (s.setForestWeight varlss eta) := by
    unfold setForestWeight
    split <;> exact ⟨rfl, rfl, fun _ h => h, id, fun _ _ h => h⟩
  have hcc : HasCont (s.setForestWeight varlss eta) := by
    obtain ⟨e1, e2, e3, -⟩ := sfw_same varlss eta s
    unfold HasCont
    rw [e1, e2, e3]
    exact hc
  have h2 := h.keeps k1 hA
  unfold endFit
  dsimp only
  generalize s.setForestWeight varlss eta = t at h2 hcc
  have h3 : Stored skip t.calcContinuumChi2 ∧ HasCont t.calcContinuumChi2 := by
    unfold calcContinuumChi2
    split <;> exact ⟨⟨⟨h2.1.1, h2.1.2, h2.1.3, h2.1.4, h2.1.5, h2.1.6, h2.1.7, h2.1.8, h2.1.9, h2.1.10, h2.1.11, h2.1.12⟩,
      h2.2, h2.3, h2.4⟩, hcc⟩
  generalize t.calcContinuumChi2 = u at h3
  obtain ⟨h3, h4⟩ := h3
  split
  · exact ⟨h3, h4⟩
  next hv =>
    refine ⟨⟨⟨h3.1.1, h3.1.2, h3.1.3, h3.1.4, h3.1.5, h3.1.6, h3.1.7, h3.1.8, h3.1.9, h3.1.10, h3.1.11, h3.1.12⟩,
      h3.2, h3.3, h3.4⟩, fun h => absurd h hv⟩

theorem setCont_stored {skip : Bool} {s : Spectrum K} (h : Stored skip s) (r : Bool × Dict (List K)) :
    Stored skip (s.setCont r) :=
  ⟨⟨h.1.1, h.1.2, h.1.3, h.1.4, h.1.5, h.1.6, h.1.7, h.1.8, h.1.9, h.1.10, h.1.11, h.1.12⟩, h.2, h.3, h.4⟩

theorem fitOne_stored (C : FullCfg K) (g : FullState K) {skip : Bool} {s : Spectrum K} (h : Stored skip s) :
    Stored skip (C.fitOne g s) ∧ HasCont (C.fitOne g s) := by
  unfold FullCfg.fitOne piccaFit
  split
  · refine endFit_stored _ _ (setCont_stored h _) fun hv arm w hw => ?_
    have hw : s.fwave.lookup arm = some w := hw
    have e := (contLoop_spec _ _ _ _ h.aligned.nodup _).2 hv arm
    rw [hw] at e
    exact ⟨_, e, by simp [mulFlux]⟩
  · exact endFit_stored _ _ (setCont_stored h _) fun hv => by cases hv

theorem normSpec_stored (st : Stacker K) {skip : Bool} {s : Spectrum K} (h : Stored skip s) (hc : HasCont s) :
    Stored skip (normSpec st s) ∧ HasCont (normSpec st s) := by
  unfold normSpec
  have key : ∀ (l : Dict (List K)) (t : Spectrum K), (∀ a ∈ l, t.fwave.lookup a.1 = some a.2) → Stored skip t → HasCont t →
      Stored skip (l.foldl (fun t a => { t with cont := t.cont.set a.1 (normArm st a.2 (t.cont.arr a.1)) }) t) ∧
      HasCont (l.foldl (fun t a => { t with cont := t.cont.set a.1 (normArm st a.2 (t.cont.arr a.1)) }) t) := by
    intro l
    induction l with
    | nil => exact fun t _ h1 h2 => ⟨h1, h2⟩
    | cons a l ih =>
      intro t hl h1 h2
      rw [List.foldl_cons]
      refine ih _ (fun b hb => hl b (List.mem_cons_of_mem _ hb))
        ⟨⟨h1.1.1, h1.1.2, h1.1.3, h1.1.4, h1.1.5, h1.1.6, h1.1.7, h1.1.8, h1.1.9, h1.1.10, h1.1.11, h1.1.12⟩,
          h1.2, h1.3, h1.4⟩ fun hv arm w hw => ?_
      have hw : t.fwave.lookup arm = some w := hw
      change ∃ c, (t.cont.set a.1 (normArm st a.2 (t.cont.arr a.1))).lookup arm = some c ∧ _
      obtain ⟨c, c1, c2⟩ := h2 hv arm w hw
      rw [lookup_set]
      by_cases e : arm = a.1
      · subst e
        rw [hl a List.mem_cons_self] at hw
        cases hw
        rw [if_pos rfl]
        refine ⟨_, rfl, ?_⟩
        rw [arr_of_lookup c1]
        simp [normArm, mulFlux, c2]
      · rw [if_neg e]
        exact ⟨c, c1, c2⟩
  exact key s.fwave s (fun a ha => lookup_of_mem h.aligned.nodup ha) h hc

theorem etaCalib_stored (eta : K → K) {skip : Bool} {s : Spectrum K} (h : Stored skip s) (hc : HasCont s) :
    Stored skip (etaCalibIvar eta s) ∧ HasCont (etaCalibIvar eta s) := by
  unfold etaCalibIvar
  have hA : Aligned (s.fwave.foldl (etaArm eta) s) := by
    rw [etaApply_eq eta h.aligned]
    exact aligned_updAll h.aligned (fun w y e => by simp [e]) (fun w y e => by simp [e])
  have hk : KeepsArms s (s.fwave.foldl (etaArm eta) s) := by
    refine foldl_keepsArms ?_ _ _
    exact fun t a => ⟨rfl, rfl, fun _ h => h, id, fun _ _ h => h⟩
  refine ⟨h.keeps hk hA, ?_⟩
  rw [etaApply_eq eta h.aligned]
  exact hc

theorem dropShort_stored (a b k : K) {skip : Bool} {s : Spectrum K} (h : Stored skip s) (hc : HasCont s) :
    Stored skip (s.dropShortArms a b k) ∧ HasCont (s.dropShortArms a b k) := by
  refine ⟨h.keeps (dropShort_keepsArms s a b k) (dropArms_aligned _ h.aligned), ?_⟩
  unfold dropShortArms
  dsimp only
  generalize (List.map Prod.fst (List.filter (fun x => decide ((numGood x.2 : Int) < s.minPixels a b k)) s.fivar)) = l
  induction l generalizing s with
  | nil => exact hc
  | cons e l ih =>
    refine ih (h.keeps (dropArm_keepsArms s e) (dropArms_aligned [e] h.aligned)) fun hv arm w hw => ?_
    have hw : (s.fwave.pop e).lookup arm = some w := hw
    change ∃ c, (s.cont.pop e).lookup arm = some c ∧ _
    rw [lookup_pop] at hw ⊢
    split at hw
    · cases hw
    next he =>
      rw [if_neg he]
      exact hc hv arm w hw

/-! ### Pixels -/

/-- Same wavelengths and flux, and unless eta is used for it the same ivar. -/
def SameGood (eta : Bool) (s t : Spectrum K) : Prop :=
  t.z = s.z ∧ t.dwave = s.dwave ∧ t.fwave = s.fwave ∧ t.fflux = s.fflux ∧ (eta = false → t.fivar = s.fivar)

theorem SameGood.trans {eta : Bool} {s t u : Spectrum K} (h : SameGood eta s t) (g : SameGood eta t u) :
    SameGood eta s u :=
  ⟨g.1.trans h.1, g.2.1.trans h.2.1, g.2.2.1.trans h.2.2.1, g.2.2.2.1.trans h.2.2.2.1,
    fun e => (g.2.2.2.2 e).trans (h.2.2.2.2 e)⟩

theorem endFit_good (eta' : Bool) (varlss eta : K → K) (s : Spectrum K) : SameGood eta' s (endFit varlss eta s) := by
  have h1 : SameGood eta' s (s.setForestWeight varlss eta) := by
    unfold setForestWeight
    split <;> exact ⟨rfl, rfl, rfl, rfl, fun _ => rfl⟩
  refine h1.trans ?_
  unfold endFit
  dsimp only
  generalize s.setForestWeight varlss eta = t
  have h2 : SameGood eta' t t.calcContinuumChi2 := by
    unfold calcContinuumChi2
    split <;> exact ⟨rfl, rfl, rfl, rfl, fun _ => rfl⟩
  split
  · exact h2
  · exact h2.trans ⟨rfl, rfl, rfl, rfl, fun _ => rfl⟩

theorem fitOne_good (eta : Bool) (C : FullCfg K) (g : FullState K) (s : Spectrum K) : SameGood eta s (C.fitOne g s) := by
  unfold FullCfg.fitOne piccaFit
  refine SameGood.trans ?_ (endFit_good _ _ _ _)
  split <;> exact ⟨rfl, rfl, rfl, rfl, fun _ => rfl⟩

theorem foldl_good {α : Type} {eta : Bool} {f : Spectrum K → α → Spectrum K} (hf : ∀ t a, SameGood eta t (f t a))
    (l : List α) (s : Spectrum K) : SameGood eta s (l.foldl f s) := by
  induction l generalizing s with
  | nil => exact ⟨rfl, rfl, rfl, rfl, fun _ => rfl⟩
  | cons a l ih => exact (hf s a).trans (ih (f s a))

theorem normSpec_good (eta : Bool) (st : Stacker K) (s : Spectrum K) : SameGood eta s (normSpec st s) := by
  unfold normSpec
  refine foldl_good ?_ _ _
  exact fun _ _ => ⟨rfl, rfl, rfl, rfl, fun _ => rfl⟩

theorem etaCalib_good (eta : K → K) (s : Spectrum K) : SameGood true s (etaCalibIvar eta s) := by
  unfold etaCalibIvar
  refine foldl_good ?_ _ _
  exact fun _ _ => ⟨rfl, rfl, rfl, rfl, fun e => by cases e⟩

theorem dropShort_same (s : Spectrum K) (a b k : K) :
    (s.dropShortArms a b k).z = s.z ∧ (s.dropShortArms a b k).dwave = s.dwave ∧
    ∀ x ∈ (s.dropShortArms a b k).fwave, x ∈ s.fwave := by
  have ht : s.dropShortArms a b k = (shortArms s a b k).foldl dropArm s := rfl
  obtain ⟨h1, -, -, -, -, -, -, h8, -⟩ := foldl_dropArm (shortArms s a b k) s
  rw [ht]
  refine ⟨h8.z, h8.dwave, fun x hx => ?_⟩
  rw [h1] at hx
  exact mem_foldl_pop _ hx

theorem dropShort_good [IsStrictOrderedRing K] {s : Spectrum K} (hs : Aligned s) (a b k : K) :
    (forestGood (s.dropShortArms a b k)).Sublist (forestGood s) ∧
    (k = 0 → forestGood (s.dropShortArms a b k) = forestGood s) := by
  refine ⟨?_, ?_⟩
  · have ht : s.dropShortArms a b k = (shortArms s a b k).foldl dropArm s := rfl
    obtain ⟨h1, h2, h3, -⟩ := foldl_dropArm (shortArms s a b k) s
    unfold forestGood allPixels
    refine List.Sublist.filter _ ?_
    rw [ht, h1, h2, h3, foldl_pop_eq _ s.fwave]
    rw [List.flatMap_congr (g := fun a => a.2.zip ((s.fflux.arr a.1).zip (s.fivar.arr a.1)))]
    · exact List.filter_sublist.flatMap _
    · intro c hc
      have hna : c.1 ∉ shortArms s a b k := by simpa using (List.mem_filter.mp hc).2
      have e : ∀ d : Dict (List K), (List.foldl (fun d k => Dict.pop d k) d (shortArms s a b k)).arr c.1 = d.arr c.1 := by
        intro d
        unfold Dict.arr
        rw [lookup_foldl_pop, if_neg hna]
      rw [e, e]
  · rintro rfl
    have e : s.dropShortArms a b 0 = s.dropShortArms 0 0 0 := by
      unfold dropShortArms minPixels
      simp only [zero_mul]
    rw [e]
    exact forestGood_dropEmpty hs

theorem prepOne_from {Val : Type} [LinearOrder Val] [IsStrictOrderedRing K] (C : WholeCfg Val K) {dw dr : K}
    (hC : PlainRun C dw dr) {ids : List Int} {x : ReadSpec K} (hx : ReadOk x) (hid : x.row.targetid ∈ ids)
    (hc : C.sel.coaddBefore = true → CoaddReady C.sel x.spec) (hp : PassesCuts C.sel x) :
    let t := (prepOne C ids x).spec
    t.z = x.spec.z ∧ t.dwave = x.spec.dwave ∧ (∀ a ∈ t.fwave, ForestArm C.sel x.spec a) ∧
    forestGood t = ((inputGood C.sel x.spec).filter (fun p => decide (¬ IsMasked C.sel x p.1))).map (treated C.sel x) := by
  obtain ⟨-, a1, a2, -, -, -, -, a8⟩ := prep_same C.sel hx hc hC.sqrt hp.1
  obtain ⟨b1, b2, -, -, b5, -⟩ := etaOne_same C.sel hC.eta a1
  obtain ⟨c1, c2, -, -, c5, -⟩ := fluxOne_same C.sel hC.stack b1
  have hz : (fluxOne C.sel (etaOne C.sel (prepRead C.sel x).spec)).z = x.spec.z := by rw [c2, b2, a2]
  have hz0 : 0 < 1 + (fluxOne C.sel (etaOne C.sel (prepRead C.sel x).spec)).z := by rw [hz]; exact hx.zpos
  have hw := masks_fwave C.sel.dlaFlux (prepRead C.sel x).row (C.sel.maskers ids) c1 hz0
  obtain ⟨t1, t2, -, -, t5⟩ := treat_same C.sel hx hc hid hC.sqrt hC.eta hC.stack hp.1
  have hsm : SameGood false (treatOne C.sel ids (prepRead C.sel x)).spec (prepOne C ids x).spec := by
    unfold prepOne WholeCfg.smooth
    split
    · unfold Spectrum.setSmoothForestivar
      split <;> exact ⟨rfl, rfl, rfl, rfl, fun _ => rfl⟩
    · exact ⟨rfl, rfl, rfl, rfl, fun _ => rfl⟩
  obtain ⟨s1, s2, s3, s4, s5⟩ := hsm
  refine ⟨s1.trans t1, s2.trans t2, fun a ha => a8 a ?_, ?_⟩
  · rw [s3] at ha
    have := hw a ha
    rwa [c5, b5] at this
  · rw [← t5]
    unfold forestGood
    rw [s3, s4, s5 rfl]

/-! ### Tables -/

/-- A spectrum can be written: C30, or there is no arm. -/
theorem stored_write (lya : K) (night : Nat) (a : BlindArgs K) {pick : List String → Option String} (hp : IsPick pick)
    (pow10 : K → K) (id : Ident K) (meanReso : String → K) (rsnr : K) {s : Spectrum K} (h : Stored a.skipResomat s)
    (hc : HasCont s) (hv : s.valid = true)
    (hextra : ∀ k ∈ id.extra.keys, k ∈ ["TILEID", "FIBER", "PETAL_LOC", "EXPID", "NIGHT"]) :
    ∃ hdus, s.write (setBlinding lya ClassState.init night a) id meanReso rsnr = .ok hdus ∧
      ∃ ds, hdus.mapM (Delta.read pick pow10) = .ok ds ∧
        List.Forall₂ (fun x d => ReadBack id s (decide (MustBlind lya night a)) x d) (armsWithSignal s) ds := by
  by_cases he : s.fwave = []
  · refine ⟨[], ?_, [], rfl, ?_⟩
    · unfold Spectrum.write
      rw [he]
      rfl
    · unfold armsWithSignal
      rw [he]
      exact .nil
  · have hk : ∀ x ∈ s.fwave, x.1 ∈ s.fwave.keys := fun x hx => List.mem_map.mpr ⟨x, hx, rfl⟩
    have hw : Writable s := by
      refine ⟨fun x hx => h.snr _ (hk x hx), fun x hx => ?_, fun hr x hx => ?_⟩
      · obtain ⟨c, hc, -⟩ := hc hv x.1 x.2 (lookup_of_mem h.aligned.nodup hx)
        exact mem_keys_of_lookup hc
      · cases hsk : a.skipResomat with
        | true => exact absurd (h.noReso hsk) hr
        | false => exact h.reso hsk _ (hk x hx)
    have hsk : a.skipResomat = true ↔ s.freso = [] := by
      refine ⟨h.noReso, fun hr => ?_⟩
      by_contra hne
      have hne : a.skipResomat = false := by simpa using hne
      obtain ⟨x, hx⟩ := List.exists_mem_of_ne_nil _ he
      have := h.reso hne _ (hk x hx)
      rw [hr] at this
      simp [Dict.keys] at this
    obtain ⟨hdus, h1, h2⟩ := C30_spectrum_roundtrip lya night a hp pow10 id meanReso rsnr hw hsk hextra
    refine ⟨hdus, h1, ?_⟩
    clear h1
    generalize armsWithSignal s = arms at h2 ⊢
    induction h2 with
    | nil => exact ⟨[], rfl, .nil⟩
    | cons h _ ih =>
      obtain ⟨-, d, hd, hrb⟩ := h
      obtain ⟨es, he, hE⟩ := ih
      exact ⟨d :: es, by rw [List.mapM_cons, hd, except_bind_ok, he]; rfl, .cons hrb hE⟩

/-- What is read is what the spectrum has. -/
theorem recovered {ra dec : Int → K} {skip blind : Bool} {x : ReadSpec K} {id : Ident K} {a : String × List K} {d : Delta K}
    (h : ReadBack id x.spec blind a d) (hs : Stored skip x.spec) (hc : HasCont x.spec) (hv : x.spec.valid = true)
    (ha : a ∈ x.spec.fwave) (h1 : id.targetid = x.row.targetid) (h2 : id.ra = ra x.row.targetid)
    (h3 : id.dec = dec x.row.targetid) (h4 : id.z = x.spec.z) : Recovered blind ra dec x a d := by
  have hl := lookup_of_mem hs.aligned.nodup ha
  obtain ⟨c, c1, c2⟩ := hc hv a.1 a.2 hl
  have ec : d.cont = c := by
    have := h.cont
    rw [c1] at this
    exact (Option.some.inj this).symm
  have l1 := hs.aligned.flux a.1 a.2 hl
  have l2 := hs.aligned.ivar a.1 a.2 hl
  have l3 := hs.aligned.weight a.1 a.2 hl
  have l4 : (x.spec.cont.arr a.1).length = a.2.length := by rw [arr_of_lookup c1]; exact c2
  obtain ⟨s1, s2, s3⟩ := h.size l1 l2 l3 l4
  refine ⟨by rw [h.targetid, h1], by rw [h.ra, h2], by rw [h.dec, h3], by rw [h.z, h4], h.dwave, h.snr, h.blinded, h.wave, h.cont,
    h.reso, ⟨by rw [ec]; exact c2, s1, s2, s3⟩, fun i hi => ?_⟩
  have g1 := List.getElem?_eq_getElem (l := x.spec.fflux.arr a.1) (i := i) (by omega)
  have g2 := List.getElem?_eq_getElem (l := x.spec.fivar.arr a.1) (i := i) (by omega)
  have g3 := List.getElem?_eq_getElem (l := x.spec.fweight.arr a.1) (i := i) (by omega)
  have g4 := List.getElem?_eq_getElem (l := x.spec.cont.arr a.1) (i := i) (by omega)
  obtain ⟨p1, p2, p3, p4⟩ := h.pixel i _ _ _ _ g1 g2 g3 g4
  refine ⟨_, _, _, _, g1, g2, g3, ?_, p1, p2, ?_⟩
  · rw [ec, ← arr_of_lookup c1]
    exact g4
  · split
    next e => exact p4 e
    next e => exact p3 e

end

section
variable {Val K : Type} [LinearOrder Val] [Field K] [LinearOrder K] [FloorRing K]

/-- What is known of a delta. -/
def GoodDelta (C : WrittenCfg Val K) (x : ReadSpec K) : Prop :=
  Stored C.skipResomat x.spec ∧ HasCont x.spec ∧ x.spec.valid = true

theorem file_written (C : WrittenCfg Val K) (night : Option Val) {pick : List String → Option String} (hp : IsPick pick)
    (pow10 : K → K) (hextra : ∀ i, ∀ k ∈ (C.extra i).keys, k ∈ ["TILEID", "FIBER", "PETAL_LOC", "EXPID", "NIGHT"])
    {l : List (ReadSpec K)} (hl : ∀ x ∈ l, GoodDelta C x) :
    ∃ t, writeFile (C.state night) (l.map C.toSave) = .ok t ∧ ∃ ds, readDeltas pick pow10 (some t) = .ok ds ∧
      List.Forall₂ (fun y d => Recovered (decide (MustBlind C.lya ((night.map C.night).getD 0) C.args)) C.ra C.dec y.1 y.2 d)
        (signalArms l) ds := by
  induction l with
  | nil => exact ⟨[], rfl, [], rfl, .nil⟩
  | cons x l ih =>
    obtain ⟨t, ht, ds, hds, hF⟩ := ih (fun y hy => hl y (List.mem_cons_of_mem _ hy))
    obtain ⟨g1, g2, g3⟩ := hl x List.mem_cons_self
    obtain ⟨hdus, w1, es, w2, w3⟩ := stored_write C.lya ((night.map C.night).getD 0) C.args hp pow10 (C.ident x)
      (C.meanReso x) x.rsnr g1 g2 g3 (hextra _)
    unfold writeFile at ht ⊢
    obtain ⟨T, hT, ht⟩ := except_bind_eq_ok.mp ht
    rw [except_pure] at ht
    cases ht
    refine ⟨hdus ++ T.flatten, ?_, es ++ ds, ?_, ?_⟩
    · rw [List.map_cons, List.mapM_cons]
      change ((x.spec.write (C.state night) (C.ident x) (C.meanReso x) x.rsnr >>= _) >>= _) = _
      unfold WrittenCfg.state
      rw [w1, except_bind_ok]
      unfold WrittenCfg.state at hT
      rw [hT]
      rfl
    · change (hdus ++ T.flatten).mapM _ = _
      rw [List.mapM_append, w2, except_bind_ok]
      change T.flatten.mapM _ = _ at hds
      rw [hds]
      rfl
    · unfold signalArms
      rw [List.flatMap_cons]
      refine List.rel_append ?_ hF
      rw [List.forall₂_map_left_iff]
      have : ∀ a ∈ armsWithSignal x.spec, a ∈ x.spec.fwave := fun a ha => (List.mem_filter.mp ha).1
      change List.Forall₂ _ (armsWithSignal x.spec) es
      generalize armsWithSignal x.spec = arms at w3 this
      clear w2
      induction w3 with
      | nil => exact .nil
      | @cons a b l1 l2 h _ ih2 =>
        exact .cons (recovered h g1 g2 g3 (this a List.mem_cons_self) rfl rfl rfl rfl)
          (ih2 fun c hc => this c (List.mem_cons_of_mem _ hc))

omit [LinearOrder Val] [Field K] [LinearOrder K] [FloorRing K] in
theorem perm_map_inv {α β : Type} {g : α → β} {a b : List β} (h : a.Perm b) :
    ∀ l : List α, b = l.map g → ∃ l' : List α, l'.Perm l ∧ a = l'.map g := by
  induction h with
  | nil =>
    intro l e
    exact ⟨l, .refl _, e⟩
  | cons x _ ih =>
    intro l e
    cases l with
    | nil => simp at e
    | cons y l =>
      rw [List.map_cons, List.cons.injEq] at e
      obtain ⟨l', p, rfl⟩ := ih l e.2
      exact ⟨y :: l', p.cons y, by rw [List.map_cons, e.1]⟩
  | swap x y l =>
    intro m e
    match m, e with
    | [], e => simp at e
    | [_], e => simp at e
    | u :: v :: m, e =>
      simp only [List.map_cons, List.cons.injEq] at e
      exact ⟨v :: u :: m, .swap _ _ _, by simp [e.1, e.2.1, e.2.2]⟩
  | trans _ _ ih1 ih2 =>
    intro l e
    obtain ⟨m, p, e'⟩ := ih2 l e
    obtain ⟨m', p', e''⟩ := ih1 m e'
    exact ⟨m', p'.trans p, e''⟩

theorem signalArms_perm {l l' : List (ReadSpec K)} (h : l.Perm l') : (signalArms l).Perm (signalArms l') :=
  h.flatMap_right _

/-- What a rank saves. -/
theorem saved_read (C : WrittenCfg Val K) (hA : ∀ k, IsArgsort k (C.run.argsort k)) (night : Option Val)
    {pick : List String → Option String} (hp : IsPick pick) (pow10 : K → K)
    (hextra : ∀ i, ∀ k ∈ (C.extra i).keys, k ∈ ["TILEID", "FIBER", "PETAL_LOC", "EXPID", "NIGHT"]) (r : Nat)
    {l : List (ReadSpec K)} (hl : ∀ x ∈ l, GoodDelta C x) :
    ∃ files, C.save night r l = .ok files ∧ (C.run.outdir = false → files = []) ∧
      (C.run.outdir = true → (files.map Prod.fst).Nodup ∧ (∀ x ∈ l, ∃ f ∈ files, f.1 = deltaFile C.run r x) ∧
        ∀ f ∈ files, (C.run.byHpx = false ∧ f.1 = .rank r ∨ C.run.byHpx = true ∧ ∃ x ∈ l, f.1 = .pix (C.run.pix x.row.targetid)) ∧
          ∃ ds arms, readDeltas pick pow10 (some f.2) = .ok ds ∧
            arms.Perm (signalArms (l.filter (fun x => decide (deltaFile C.run r x = f.1)))) ∧
            List.Forall₂ (fun y d => Recovered (decide (MustBlind C.lya ((night.map C.night).getD 0) C.args))
              C.ra C.dec y.1 y.2 d) arms ds) := by
  have hb : (C.state night).blinding.isSome = true := rfl
  have hval : ∀ x ∈ l, x.spec.valid = true := fun x hx => (hl x hx).2.2
  unfold WrittenCfg.save saveDeltaFiles
  rw [hb]
  by_cases ho : C.run.outdir = true
  swap
  · have ho : C.run.outdir = false := by simpa using ho
    rw [ho, C17_no_outdir, except_bind_ok]
    exact ⟨[], rfl, fun _ => rfl, fun h => by cases h⟩
  rw [ho]
  by_cases hx : C.run.byHpx = true
  · rw [hx]
    obtain ⟨files, f1, f2, f3, f4, -⟩ := C17_by_pixel hA (l.map C.toSave) (some r)
    rw [f1, except_bind_ok]
    have one : ∀ f ∈ files, ∃ g : DeltaName Val × List (Hdu K), (do
        let t ← writeFile (C.state night) f.2
        pure (f.1, t) : Except Err _) = .ok g ∧ (g.1 = f.1 ∧
          (C.run.byHpx = false ∧ g.1 = .rank r ∨ C.run.byHpx = true ∧ ∃ x ∈ l, g.1 = .pix (C.run.pix x.row.targetid)) ∧
          ∃ ds arms, readDeltas pick pow10 (some g.2) = .ok ds ∧
            arms.Perm (signalArms (l.filter (fun x => decide (deltaFile C.run r x = g.1)))) ∧
            List.Forall₂ (fun y d => Recovered (decide (MustBlind C.lya ((night.map C.night).getD 0) C.args))
              C.ra C.dec y.1 y.2 d) arms ds) := by
      intro f hf
      obtain ⟨p, p1, ⟨s, hs, rfl⟩, p2⟩ := f4 f hf
      obtain ⟨x, hxl, rfl⟩ := List.mem_map.mp hs
      have e : (l.map C.toSave).filter (fun s => s.valid ∧ s.hpix = (C.toSave x).hpix) =
          (l.filter (fun y => decide (deltaFile C.run r y = f.1))).map C.toSave := by
        rw [List.filter_map]
        congr 1
        refine List.filter_congr fun y hy => ?_
        have h1 : (C.toSave y).valid = true := hval y hy
        simp only [Function.comp_apply, h1, true_and, p1, deltaFile, hx, if_true, DeltaName.pix.injEq]
        rfl
      rw [e] at p2
      obtain ⟨l', q1, q2⟩ := perm_map_inv p2 _ rfl
      obtain ⟨t, t1, ds, t2, t3⟩ := file_written C night hp pow10 hextra (l := l') (fun y hy =>
        hl y (List.mem_filter.mp (q1.mem_iff.mp hy)).1)
      refine ⟨(f.1, t), ?_, rfl, .inr ⟨hx, x, hxl, p1⟩, ds, _, t2, signalArms_perm q1, t3⟩
      rw [q2, t1]
      rfl
    obtain ⟨out, o1, o2⟩ := mapM_ok_of_forall one
    have hn : out.map Prod.fst = files.map Prod.fst := by
      clear o1 f1 f2 f3 f4 one
      induction o2 with
      | nil => rfl
      | cons h _ ih => rw [List.map_cons, List.map_cons, ih, h.1]
    refine ⟨out, o1, fun h => (by cases h), fun _ => ⟨by rw [hn]; exact f2, fun x hxl => ?_, fun g hg => ?_⟩⟩
    · obtain ⟨f, hf, e⟩ := f3 (C.toSave x) (List.mem_map.mpr ⟨x, hxl, rfl⟩)
      have : f.1 ∈ out.map Prod.fst := by
        rw [hn]
        exact List.mem_map.mpr ⟨f, hf, rfl⟩
      obtain ⟨g, hg, eg⟩ := List.mem_map.mp this
      refine ⟨g, hg, ?_⟩
      rw [eg, e]
      simp [deltaFile, hx, WrittenCfg.toSave]
    · obtain ⟨i, hi, rfl⟩ := List.mem_iff_getElem.mp hg
      have hi' : i < files.length := by rw [o2.length_eq]; exact hi
      have hfg := List.Forall₂.get o2 hi' hi
      simp only [List.get_eq_getElem] at hfg
      rw [hx] at hfg
      exact hfg.2
  · have hx : C.run.byHpx = false := by simpa using hx
    rw [hx, C17_by_rank, except_bind_ok]
    have e : (l.map C.toSave).filter (fun s => s.valid) = l.map C.toSave := by
      rw [List.filter_eq_self]
      intro s hs
      obtain ⟨x, hxl, rfl⟩ := List.mem_map.mp hs
      exact hval x hxl
    obtain ⟨t, t1, ds, t2, t3⟩ := file_written C night hp pow10 hextra hl
    refine ⟨[(.rank r, t)], ?_, fun h => (by cases h), fun _ => ⟨by simp, fun x hxl => ⟨_, List.mem_singleton.mpr rfl, ?_⟩,
      fun f hf => ?_⟩⟩
    · rw [List.mapM_cons, e, t1]
      rfl
    · simp [deltaFile, hx]
    · obtain rfl := List.mem_singleton.mp hf
      refine ⟨.inl ⟨rfl, rfl⟩, ds, _, t2, ?_, t3⟩
      rw [List.filter_eq_self.mpr]
      intro x hxl
      simp [deltaFile, hx]

omit [LinearOrder Val] [Field K] [LinearOrder K] [FloorRing K] in
/-- The iterations, with the variance fitted or not: all ranks are in step, and what every step keeps of a spectrum is
kept by all. -/
theorem sync_iterate_inv {G Sp R Q D V : Type} (F : FitterFns G Sp R Q D) (c : FitterCodecs R Q V) (n : Nat) (hf : Bool)
    (g0 : G) (sp : Nat → List Sp) (fname : String) (niter : Nat) :
    (∃ (k : Nat) (b : Bool) (f : Sp → Sp) (gfin : G) (M : Nat → List (SaverEv (String × D))),
      Sync n (fun r => F.iterate c fname niter hf r g0 (sp r)) (fun r => .ok (gfin, (sp r).map f, k, b)) M ∧
      ∀ I : Sp → Sp → Prop, (∀ y, I y y) → (∀ g y x, I y x → I y (F.fitOne g x)) →
        (∀ g y x, I y x → I y (F.normalize g x)) → (∀ g y x, I y x → I y (F.etaCalib g x)) → ∀ y, I y (f y)) ∨
    (∃ M : Nat → List (SaverEv (String × D)),
      Sync n (fun r => F.iterate c fname niter hf r g0 (sp r)) (fun _ => .error .qsonic) M) := by
  obtain ⟨g, s, conv, h, rfl, rfl⟩ := exists_iterations F n hf g0 sp
  have hmap : ∀ i, ∃ f : Sp → Sp, (∀ r, s i r = (s 0 r).map f) ∧
      ∀ I : Sp → Sp → Prop, (∀ y, I y y) → (∀ g y x, I y x → I y (F.fitOne g x)) → ∀ y, I y (f y) := by
    intro i
    induction i with
    | zero => exact ⟨id, fun r => by simp, fun I h0 _ y => h0 y⟩
    | succ i ih =>
      obtain ⟨f, f1, f3⟩ := ih
      refine ⟨F.fitOne (g i) ∘ f, fun r => ?_, fun I h0 h1 y => h1 _ _ _ (f3 I h0 h1 y)⟩
      rw [h.fit i r, f1 r, List.map_map]
  by_cases hv : ∀ j < niter, (∀ l, 0 < l → l ≤ j → conv l = false) → SomeValid F n (s (j + 1))
  · left
    obtain ⟨k, -, -, -, -, k4⟩ := sync_iterate (c := c) h fname niter hv
    obtain ⟨f, f1, f3⟩ := hmap k
    refine ⟨k, if k = 0 then false else conv k,
      (fun x => F.etaCalib (g k) (if F.valid x = true then F.normalize (g k) x else x)) ∘ f,
      finalG F n hf (g k) (fun r => F.tweak (g k) (s k r)), fun r => Saver.session fname r
        (allExts F hf g k (finalG F n hf (g k) (fun r => F.tweak (g k) (s k r)))),
      k4.congr (fun _ _ => rfl) (fun r _ => Eq.symm ?_) (fun _ _ => rfl), fun I h0 h1 h2 h3 y => h3 _ _ _ ?_⟩
    · rw [f1 r, ← List.map_map]
      unfold FitterFns.tweak
      rw [List.map_map (l := (s 0 r).map f)]
      rfl
    · split
      · exact h2 _ _ _ (f3 I h0 h1 y)
      · exact f3 I h0 h1 y
  · right
    have hex : ∃ j, j < niter ∧ (∀ l, 0 < l → l ≤ j → conv l = false) ∧ ¬ SomeValid F n (s (j + 1)) := by
      push Not at hv
      obtain ⟨j, h1, h2, h3⟩ := hv
      exact ⟨j, h1, h2, h3⟩
    classical
    obtain ⟨h1, h2, h3⟩ := Nat.find_spec hex
    have hmin : ∀ l < Nat.find hex, SomeValid F n (s (l + 1)) := by
      intro l hl
      by_contra hbad
      exact Nat.find_min hex hl ⟨by omega, fun q q1 q2 => h2 q q1 (by omega), hbad⟩
    exact ⟨_, sync_iterate_fail (c := c) h fname niter (Nat.find hex) h1 hmin
      (fun l hl => h2 (l + 1) (by omega) (by omega)) h3⟩

/-- The whole run. -/
theorem written_sync [IsStrictOrderedRing K] {Q D V : Type} (C : WrittenCfg Val K) {c : Catalog Val}
    {f : Val → List (ReadSpec K)} {dw dr : K} (hC : PlainRun C.run dw dr) (hr : ReadsPixels C.run c f)
    (hA : ∀ k, IsArgsort k (C.run.argsort k)) (hsm : ∀ v x, (C.run.sel.smooth v x).length = v.length)
    (hnew : ∀ p ∈ catPixels C.run.tile c, ∀ x ∈ f p, NewSpec C.skipResomat x.spec)
    (hextra : ∀ i, ∀ k ∈ (C.extra i).keys, k ∈ ["TILEID", "FIBER", "PETAL_LOC", "EXPID", "NIGHT"])
    (P : FitterFns (FullState K) (Spectrum K) (StackSums K) Q D) (cs : Codec Bool V)
    (cq : Codec (List (List (Row Val))) V) (cn : Codec Val V) (fc : FitterCodecs (StackSums K) Q V)
    {ang2pix : Nat → Val → Val → Val} {file : Except Err (Catalog Val)} {isMock : Bool}
    {ks : Option (List Val)} {zmin zmax : Val}
    (h : readQuasarCatalog ang2pix file isMock C.run.tile ks zmin zmax = .ok c) (n : Nat)
    (hidle : IdleOk C.run ∨ n + 1 ≤ (catPixels C.run.tile c).length)
    (fname : String) (g0 : FullState K) {pick : List String → Option String} (hp : IsPick pick) (pow10 : K → K) :
    (∃ (night : Option Val) (g : ReadSpec K → ReadSpec K) (D1 : Nat → List (ReadSpec K))
      (F1 : Nat → List (DeltaName Val × List (Hdu K))) (M : Nat → List (SaverEv (String × D))),
      Sync n (fun r => C.runAll P cs cq cn fc (.ok c) fname g0 (n + 1) r) (fun r => .ok ⟨night, D1 r, F1 r⟩) M ∧
      (C.run.mock = true → night = none) ∧ (C.run.mock = false → ∃ m, night = some m ∧ IsLastNight c m) ∧
      (∀ x ∈ ((catPixels C.run.tile c).flatMap f).filter (fun x => decide (PassesCuts C.run.sel x)),
        FromRead C.run x (g x)) ∧
      ((List.range (n + 1)).flatMap D1).Perm
        (((((catPixels C.run.tile c).flatMap f).filter (fun x => decide (PassesCuts C.run.sel x))).map g).filter
          (fun x => x.spec.valid)) ∧
      (C.run.tile = false → ∀ i ≤ n, ∀ j ≤ n, i ≠ j → ∀ x ∈ D1 i, ∀ y ∈ D1 j,
        C.run.pix x.row.targetid ≠ C.run.pix y.row.targetid) ∧
      ∀ r ≤ n, (C.run.outdir = false → F1 r = []) ∧
        (C.run.outdir = true → ((F1 r).map Prod.fst).Nodup ∧
          (∀ x ∈ D1 r, ∃ f ∈ F1 r, f.1 = deltaFile C.run r x) ∧
          ∀ f ∈ F1 r, (C.run.byHpx = false ∧ f.1 = .rank r ∨
            C.run.byHpx = true ∧ ∃ x ∈ D1 r, f.1 = .pix (C.run.pix x.row.targetid)) ∧
            ∃ ds arms, readDeltas pick pow10 (some f.2) = .ok ds ∧
              arms.Perm (signalArms ((D1 r).filter (fun x => decide (deltaFile C.run r x = f.1)))) ∧
              List.Forall₂ (fun y d => Recovered (decide (MustBlind C.lya ((night.map C.night).getD 0) C.args))
                C.ra C.dec y.1 y.2 d) arms ds)) ∨
    (∃ ev : Nat → List (SaverEv (String × D)),
      Sync n (fun r => C.runAll P cs cq cn fc (.ok c) fname g0 (n + 1) r) (fun _ => .error .qsonic) ev) := by
  obtain ⟨Q1, night, hP1, na1, na2, ne, ns⟩ := sync_before (W := SaverEv (String × D)) (A := WrittenOut Val K) C.run hC hr
    cs cq cn h n hidle
  by_cases hbad : C.run.sel.bal = true ∧ balCheckCatalog C.run.cols ≠ .ok ()
  · exact .inr ⟨_, ne hbad _⟩
  have ns1 := ns hbad
  clear ne ns
  set cat := ((catPixels C.run.tile c).flatMap f).filter (fun x => decide (PassesCuts C.run.sel x)) with hcat
  set ids := c.rows.map C.run.tid with hids
  have hpool : (pooled n (fun r => (prepQueue C.run c f (Q1 r)).map (·.spec))).Perm
      ((cat.map (prepOne C.run ids)).map (·.spec)) := by
    unfold pooled
    rw [← List.map_flatMap]
    exact hP1.perm.map _
  have hmem : ∀ x ∈ cat, ReadOk x ∧ NewSpec C.skipResomat x.spec ∧
      (C.run.sel.coaddBefore = true → CoaddReady C.run.sel x.spec) ∧ PassesCuts C.run.sel x := by
    intro x hx
    obtain ⟨p, hpp, hxp⟩ := List.mem_flatMap.mp (List.mem_filter.mp hx).1
    obtain ⟨a1, a2, a3⟩ := hr.data p hpp x hxp
    exact ⟨⟨a1, a2, a3⟩, hnew p hpp x hxp, fun hb => hr.coadd hb p hpp x hxp, of_decide_eq_true (List.mem_filter.mp hx).2⟩
  have hfit := sync_iterate_inv (C.run.fit.fns P) fc n C.fitVar g0
    (fun r => (prepQueue C.run c f (Q1 r)).map (·.spec)) fname C.run.niter
  rcases hfit with ⟨k, b, u, gfin, M, s1, hI⟩ | ⟨ev, s1⟩
  · left
    have hu : ∀ y, Stored C.skipResomat y ∧ HasCont y → Stored C.skipResomat (u y) ∧ HasCont (u y) := by
      refine hI (fun y x => Stored C.skipResomat y ∧ HasCont y → Stored C.skipResomat x ∧ HasCont x) (fun y h => h)
        (fun g y x hyx hy => fitOne_stored C.run.fit g (hyx hy).1) (fun g y x hyx hy => ?_) (fun g y x hyx hy => ?_)
      · change Stored _ (if C.run.fit.normalize then normSpec g.stack x else x) ∧
          HasCont (if C.run.fit.normalize then normSpec g.stack x else x)
        split
        · exact normSpec_stored _ (hyx hy).1 (hyx hy).2
        · exact hyx hy
      · change Stored _ (if C.run.fit.etaCalib then etaCalibIvar g.eta x else x) ∧
          HasCont (if C.run.fit.etaCalib then etaCalibIvar g.eta x else x)
        split
        · exact etaCalib_stored _ (hyx hy).1 (hyx hy).2
        · exact hyx hy
    have hD : ∀ l : List (ReadSpec K), C.run.finish (SelectCfg.setSpecs l ((l.map (·.spec)).map u)) =
        (l.map (endOne C.run u)).filter (fun x => x.spec.valid) := finish_eq C.run u
    have hgood : ∀ r ≤ n, ∀ x ∈ ((prepQueue C.run c f (Q1 r)).map (endOne C.run u)).filter (fun x => x.spec.valid),
        GoodDelta C x := by
      intro r hrn x hx
      obtain ⟨hx1, hx2⟩ := List.mem_filter.mp hx
      obtain ⟨y, hy, rfl⟩ := List.mem_map.mp hx1
      obtain ⟨z, hz, rfl⟩ := List.mem_map.mp (hP1.perm.mem_iff.mp (List.mem_flatMap.mpr
        ⟨r, List.mem_range.mpr (by omega), hy⟩))
      obtain ⟨a1, a2, a3, a4⟩ := hmem z hz
      obtain ⟨b1, b2⟩ := prepOne_stored C.run hC hsm ids a1 a2 a3 a4
      obtain ⟨c1, c2⟩ := hu _ ⟨b1, fun h => by rw [b2] at h; cases h⟩
      obtain ⟨d1, d2⟩ := dropShort_stored C.run.sel.forestW1 C.run.sel.forestW2 C.run.sel.skip c1 c2
      exact ⟨d1, d2, hx2⟩
    have hsv := fun (r : Nat) (hrn : r ≤ n) => saved_read C hA night hp pow10 hextra r (hgood r hrn)
    choose! files hf1 hf2 hf3 using hsv
    have s2 := s1.bind (f := fun r w =>
        (Prog.ofExcept (C.save night r (C.run.finish (SelectCfg.setSpecs (prepQueue C.run c f (Q1 r)) w.2.1)))).bind fun fl =>
            .ret (⟨night, C.run.finish (SelectCfg.setSpecs (prepQueue C.run c f (Q1 r)) w.2.1), fl⟩ :
              WrittenOut Val K)) (N := fun _ => [])
        (y := fun r => .ok ⟨night, ((prepQueue C.run c f (Q1 r)).map (endOne C.run u)).filter (fun x => x.spec.valid),
            files r⟩) (by
          refine (sync_ret n _).congr (fun r hrn => ?_) (fun _ _ => rfl) (fun _ _ => rfl)
          dsimp only
          rw [hD, hf1 r hrn]
          rfl)
    have hsame : ∀ y, SameGood C.run.fit.etaCalib y (u y) := by
      refine hI _ (fun y => ⟨rfl, rfl, rfl, rfl, fun _ => rfl⟩) (fun g y x hyx => hyx.trans (fitOne_good _ C.run.fit g x))
        (fun g y x hyx => hyx.trans ?_) (fun g y x hyx => hyx.trans ?_)
      · change SameGood _ x (if C.run.fit.normalize then normSpec g.stack x else x)
        split
        · exact normSpec_good _ _ _
        · exact ⟨rfl, rfl, rfl, rfl, fun _ => rfl⟩
      · change SameGood _ x (if C.run.fit.etaCalib then etaCalibIvar g.eta x else x)
        split
        next he => rw [he]; exact etaCalib_good _ _
        · exact ⟨rfl, rfl, rfl, rfl, fun _ => rfl⟩
    refine ⟨night, endOne C.run u ∘ prepOne C.run ids, _, files, _, ns1 _ _ _ s2, na1, na2,
      fun x hx => ?_, ?_, ?_, fun r hrn => ⟨hf2 r hrn, hf3 r hrn⟩⟩
    · obtain ⟨a1, a2, a3, a4⟩ := hmem x hx
      have hid : x.row.targetid ∈ ids := by
        obtain ⟨p, hpp, hxp⟩ := List.mem_flatMap.mp (List.mem_filter.mp hx).1
        obtain ⟨r, hr1, hr2, -⟩ := hr.row p hpp x hxp
        rw [← hr2]
        exact List.mem_map.mpr ⟨r, (List.mem_filter.mp hr1).1, rfl⟩
      obtain ⟨b1, b2, b3, b4⟩ := prepOne_from C.run hC a1 hid a3 a4
      obtain ⟨c1, c2, c3, c4, c5⟩ := hsame (prepOne C.run ids x).spec
      obtain ⟨d1, d2, d3⟩ := dropShort_same (u (prepOne C.run ids x).spec) C.run.sel.forestW1 C.run.sel.forestW2
        C.run.sel.skip
      have hst := prepOne_stored C.run hC hsm ids a1 a2 a3 a4
      have hal := (hu _ ⟨hst.1, fun h => by rw [hst.2] at h; cases h⟩).1.aligned
      obtain ⟨e1, e2⟩ := dropShort_good hal C.run.sel.forestW1 C.run.sel.forestW2 C.run.sel.skip
      have hfg : C.run.fit.etaCalib = false → forestGood (u (prepOne C.run ids x).spec) =
          ((inputGood C.run.sel x.spec).filter (fun p => decide (¬ IsMasked C.run.sel x p.1))).map (treated C.run.sel x) := by
        intro he
        rw [← b4]
        unfold forestGood
        rw [c3, c4, c5 he]
      refine ⟨prepOne_row C.run ids x, ?_, d1.trans (c1.trans b1), d2.trans (c2.trans b2), fun a ha => b3 a ?_,
        fun he => ?_, fun he hk => ?_⟩
      · change (C.run.smooth (treatOne C.run.sel ids (prepRead C.run.sel x))).rsnr = x.rsnr
        unfold WholeCfg.smooth
        split <;> exact (prepRead_row C.run.sel x).2
      · rw [← c3]
        exact d3 a ha
      · rw [← hfg he]
        exact e1
      · rw [← hfg he]
        exact e2 hk
    · rw [← List.map_map, ← List.filter_flatMap, ← List.map_flatMap]
      exact (hP1.perm.map _).filter _
    · intro ht i hi j hj hij x hx y hy
      obtain ⟨x', hx', rfl⟩ := List.mem_map.mp (List.mem_filter.mp hx).1
      obtain ⟨y', hy', rfl⟩ := List.mem_map.mp (List.mem_filter.mp hy).1
      exact hP1.pix ht i hi j hj hij x' hx' y' hy'
  · right
    refine ⟨_, ns1 _ _ _ (s1.bind_error fun r w =>
            (Prog.ofExcept (C.save night r (C.run.finish (SelectCfg.setSpecs (prepQueue C.run c f (Q1 r)) w.2.1)))).bind fun fl =>
            .ret (⟨night, C.run.finish (SelectCfg.setSpecs (prepQueue C.run c f (Q1 r)) w.2.1), fl⟩ :
              WrittenOut Val K))⟩

end
end Verif.Proofs
