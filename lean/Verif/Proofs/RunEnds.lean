import Verif.Proofs.AllRun
import Verif.Proofs.CalibEnds
import Verif.Proofs.FitterErr
import Verif.Spec.RunEnds

/-!
# Lemmas on the end of a run
-/

namespace Verif.Proofs
open Verif Verif.Np Verif.Model Verif.Model.Prog Verif.Spec Verif.Props

section
variable {Val K : Type} [LinearOrder Val] [Field K] [LinearOrder K] [FloorRing K]

/-! ### Exceptions -/

omit [LinearOrder Val] [Field K] [LinearOrder K] [FloorRing K] in
/-- All exceptions of `x` are caught by `except Exception`. -/
def Ordinary {A : Type} (x : Except Err A) : Prop := ∀ e, x = .error e → e.isException = true

theorem Ordinary.ok {A : Type} (a : A) : Ordinary (Except.ok a : Except Err A) := fun _ h => by cases h

theorem Ordinary.bind {A B : Type} {x : Except Err A} {f : A → Except Err B} (hx : Ordinary x)
    (hf : ∀ a, Ordinary (f a)) : Ordinary (x >>= f) := by
  intro e h
  cases x with
  | error e' => cases h; exact hx e rfl
  | ok a => exact hf a e h

theorem ordinary_check (l : List (List String)) (cols : List String) : Ordinary (checkRequiredColumns l cols) := by
  induction l with
  | nil => exact Ordinary.ok _
  | cons a l ih =>
    intro e h
    unfold checkRequiredColumns at h
    split at h
    · exact ih e h
    · cases h; rfl

theorem ordinary_read (ang2pix : Nat → Val → Val → Val) {file : Except Err (Catalog Val)} (hf : Ordinary file)
    (isMock isTile : Bool) (ks : Option (List Val)) (zmin zmax : Val) :
    Ordinary (readQuasarCatalog ang2pix file isMock isTile ks zmin zmax) := by
  unfold readQuasarCatalog
  refine Ordinary.bind ?_ fun cat => Ordinary.bind ?_ fun cat => ?_
  · exact hf.bind fun _ => Ordinary.ok _
  · have hif : ∀ (b : Bool) {x : Except Err PUnit} {jp : PUnit → Except Err (Catalog Val)}, Ordinary x →
        (∀ u, Ordinary (jp u)) → Ordinary (if b = true then x >>= jp else jp ()) := by
      intro b x jp hx hj
      split
      · exact hx.bind hj
      · exact hj _
    have ht : Ordinary (throw .exception : Except Err PUnit) := fun e h => by cases h; rfl
    unfold validateAdjustColumnNames
    refine Ordinary.bind (ordinary_check _ _) fun _ => hif _ (ordinary_check _ _) fun _ =>
      hif _ (ordinary_check _ _) fun _ => hif _ ht fun _ => hif _ ht fun _ => ?_
    dsimp only
    split
    · exact Ordinary.ok _
    · exact Ordinary.ok _
  · have hs : ∀ (o : List String) (d : Catalog Val), Ordinary (sortCatalog o d) := by
      intro o d e h
      unfold sortCatalog at h
      split at h
      · cases h
      · cases h; rfl
    have hp : ∀ m : Nat, Ordinary (primeCatalog ang2pix cat m ks zmin zmax isTile) := by
      intro m
      unfold primeCatalog
      dsimp only
      split
      · intro e h; cases h; rfl
      · exact hs _ _
    exact hp _

theorem crash_apply_eta (eta : K → K) (l : List (Spectrum K)) : Crashes (NoiseCal.apply ⟨eta, none⟩ l) := by
  intro e h
  cases h

theorem crash_select {Cat : Type} (C : SelectCfg K) {reader : Cat → Except Err (List (ReadSpec K))}
    (hr : OrdinaryErrors reader) (ids : List Int) (q : List Cat) : Crashes (C.select reader ids q) := by
  unfold SelectCfg.select
  refine Crashes.bind ?_ fun l => Crashes.bind ?_ fun l => Crashes.ok _
  · unfold SelectCfg.readLocal
    refine Crashes.bind (Crashes.mapM (fun a e h => hr a e h) q) fun l => ?_
    dsimp only
    split
    · refine Crashes.mapM (fun x => ?_) _
      unfold SelectCfg.coadd
      refine Crashes.bind ?_ fun _ => Crashes.ok _
      unfold Spectrum.coaddArmsForest
      exact (crash_grid _ _).bind fun _ => (crash_coaddArms _ _ _ _).bind fun _ => (crash_newCont _ _ _ _).bind fun _ =>
        (crash_newReso _ _ _ _ _).bind fun _ => Crashes.ok _
    · exact Crashes.ok _
  · unfold SelectCfg.noise
    split
    · exact (crash_apply_eta _ _).bind fun _ => Crashes.ok _
    · exact Crashes.ok _

theorem crash_chiRow (n rank : Nat) (s : ChiSpec K) : Crashes (chiRow n rank s) := by
  have ha : ∀ (n : Nat) (l : List K), Crashes (assignVec n l) := by
    intro n l e h
    unfold assignVec at h
    split at h
    · cases h
    · split at h
      · cases h
      · cases h; exact ⟨rfl, by simp⟩
  have hs : ∀ l : List K, Crashes (snrVec l) := by
    intro l e h
    unfold snrVec at h
    split at h
    · cases h
    · cases h; exact ⟨rfl, by simp⟩
  unfold chiRow
  exact (hs _).bind fun _ => (ha _ _).bind fun _ => (ha _ _).bind fun _ => Crashes.ok _

theorem crash_match (l e : List (ReadSpec K)) : Crashes (assignConts l e) := by
  have hfl : ∀ l : List K, Crashes (firstElem l) := by
    intro l e h
    unfold firstElem at h
    split at h
    · cases h
    · cases h; exact ⟨rfl, by simp⟩
  have hll : ∀ l : List K, Crashes (lastElem l) := by
    intro l e h
    unfold lastElem at h
    split at h
    · cases h
    · cases h; exact ⟨rfl, by simp⟩
  unfold assignConts matchExposures
  refine Crashes.bind (Crashes.mapM (fun x => ?_) _) fun _ => Crashes.ok _
  refine Crashes.bind ?_ fun co => Crashes.bind ?_ fun _ => Crashes.ok _
  · intro e h
    unfold coaddOf at h
    split at h
    · cases h; exact ⟨rfl, by simp⟩
    · cases h
  · unfold matchExposure
    refine Crashes.foldlM (fun t x => ?_) _ _
    unfold matchArm
    split
    · intro e h; cases h; exact ⟨rfl, by simp⟩
    · refine Crashes.bind ?_ fun _ => Crashes.bind ?_ fun _ => Crashes.ok _
      · unfold matchIdx
        exact (hfl _).bind fun _ => (hfl _).bind fun _ => (hll _).bind fun _ => (hll _).bind fun _ => Crashes.ok _
      · intro e h
        unfold dictGet at h
        split at h
        · cases h
        · cases h; exact ⟨rfl, by simp⟩

theorem crash_exposures (C : AllCfg Val K) (he : ∀ x, C.exps = some x → OrdinaryErrors x.1) (q : List (List (Row Val)))
    (l : List (ReadSpec K)) : Crashes (C.exposures q l) := by
  unfold AllCfg.exposures
  split
  · exact Crashes.ok _
  · rename_i e h
    unfold ExposureCfg.exposuresAfter
    refine Crashes.bind ?_ fun s => Crashes.bind (crash_select _ (he _ h) _ _) fun _ => crash_match _ _
    intro e' h'
    unfold ExposureCfg.sorted at h'
    split at h'
    · cases h'; exact ⟨rfl, by simp⟩
    · cases h'

theorem crash_fancy {A : Type} (l : List A) (idx : List Nat) : Crashes (fancy l idx) := by
  induction idx with
  | nil => exact Crashes.ok _
  | cons i is ih =>
    intro e h
    unfold fancy at h
    split at h
    · cases h
    · rename_i h2
      cases h
      exact ih _ h2
    · cases h; exact ⟨rfl, by simp⟩

theorem crash_save (C : WholeCfg Val K) (rank : Nat) (l : List (ReadSpec K)) : Crashes (C.save rank l) := by
  unfold WholeCfg.save saveDeltas
  split
  · exact Crashes.ok _
  · split
    · exact (crash_fancy _ _).bind fun _ => Crashes.ok _
    · exact Crashes.ok _

/-! ### Before the fit -/

/-- The catalog cannot be used: all ranks raise. -/
theorem sync_queue_error {V W : Type} (cs : Codec Bool V) (cq : Codec (List (List (Row Val))) V) {e : Err}
    (he : e.isException = true) (tile : Bool) (n : Nat) :
    Sync n (fun r => mpiGetLocalQueue (W := W) cs cq (.error e) tile (n + 1) r) (fun _ => .error .qsonic)
      (fun _ => []) := by
  have hP : ∀ r, mpiGetLocalQueue (W := W) cs cq (.error e) tile (n + 1) r =
      .bcast (cs.enc false) (fun v => if cs.dec v = false then .raise .qsonic
        else .scatter none fun v => .ret (cq.dec v)) := by
    intro r
    unfold mpiGetLocalQueue
    by_cases hr : r = 0
    · simp [hr, he]
    · simp [hr]
  simp only [hP]
  refine sync_bcast (fun _ => cs.enc false) ?_
  simp only [cs.dec_enc, if_true]
  exact sync_raise n (fun _ => .qsonic)

theorem prepare_cases (C : WholeCfg Val K) (hr : OrdinaryErrors C.reader) (q : List (List (Row Val))) :
    (∃ l, C.prepare q = .ok l) ∨ (∃ e, C.prepare q = .error e ∧ Unexpected e) ∨
    (C.prepare q = .error .qsonic ∧ C.sel.bal = true ∧ balCheckCatalog C.cols = .error .qsonic) := by
  cases h : C.prepare q with
  | ok l => exact .inl ⟨l, rfl⟩
  | error e =>
    right
    by_cases hb : C.sel.bal = true ∧ balCheckCatalog C.cols = .error .qsonic ∧ q ≠ []
    · right
      have : C.prepare q = .error .qsonic := by
        unfold WholeCfg.prepare WholeCfg.maskIds WholeCfg.balStep
        have hq : q.isEmpty = false := by simpa using hb.2.2
        rw [if_pos hb.1, hq, hb.2.1]
        rfl
      rw [this] at h
      cases h
      exact ⟨rfl, hb.1, hb.2.1⟩
    · left
      refine ⟨e, rfl, ?_⟩
      have hc : Crashes (C.prepare q) := by
        unfold WholeCfg.prepare WholeCfg.maskIds
        refine Crashes.bind (Crashes.bind ?_ fun _ => Crashes.bind ?_ fun _ => Crashes.ok _) fun ids =>
          Crashes.bind (crash_select _ hr _ _) fun _ => Crashes.ok _
        · intro e h
          unfold WholeCfg.balStep at h
          split at h
          · rename_i hbal
            split at h
            · cases h; exact ⟨rfl, by simp⟩
            · rename_i hq
              unfold balCheckCatalog at h
              split at h
              · cases h
              · rename_i hcols
                exact absurd ⟨hbal, by unfold balCheckCatalog; rw [if_neg hcols], by simpa using hq⟩ hb
          · cases h
        · intro e h
          unfold WholeCfg.dlaStep at h
          split at h
          · cases h; exact ⟨rfl, by simp⟩
          · cases h
      exact hc e h

/-- What was there if the stages before the fit went well on a rank. -/
theorem prepare_ok_inv (C : WholeCfg Val K) {q : List (List (Row Val))} {l : List (ReadSpec K)}
    (h : C.prepare q = .ok l) :
    (∀ ch ∈ q, ∃ s, C.reader ch = .ok s) ∧ ((C.sel.bal = true ∨ C.sel.dla.isSome = true) → q ≠ []) ∧
    (C.sel.bal = true → balCheckCatalog C.cols = .ok ()) := by
  unfold WholeCfg.prepare at h
  cases h1 : C.maskIds q with
  | error e => rw [h1] at h; cases h
  | ok ids =>
    rw [h1] at h
    refine ⟨?_, ?_, ?_⟩
    · intro ch hch
      change ((C.sel.select C.reader ids q) >>= _) = _ at h
      cases h2 : C.sel.select C.reader ids q with
      | error e => rw [h2] at h; cases h
      | ok l' =>
        unfold SelectCfg.select SelectCfg.readLocal at h2
        cases h3 : q.mapM C.reader with
        | error e => rw [h3] at h2; cases h2
        | ok m =>
          cases h4 : C.reader ch with
          | ok s => exact ⟨s, rfl⟩
          | error e =>
            exfalso
            clear h h1 h2
            induction q generalizing m with
            | nil => cases hch
            | cons a q ih =>
              rw [List.mapM_cons] at h3
              cases ha : C.reader a with
              | error e => rw [ha] at h3; cases h3
              | ok s =>
                rw [ha] at h3
                cases hm : q.mapM C.reader with
                | error e => rw [hm] at h3; cases h3
                | ok m' =>
                  rcases List.mem_cons.mp hch with rfl | hch
                  · rw [h4] at ha; cases ha
                  · exact ih hch _ hm
    · rintro hb rfl
      unfold WholeCfg.maskIds WholeCfg.balStep WholeCfg.dlaStep at h1
      by_cases hbal : C.sel.bal = true
      · simp [hbal, Bind.bind, Except.bind] at h1
      · rcases hb with hb | hb
        · exact hbal hb
        · simp [hbal, hb, Bind.bind, Except.bind] at h1
    · intro hbal
      unfold WholeCfg.maskIds WholeCfg.balStep at h1
      rw [if_pos hbal] at h1
      split at h1
      · cases h1
      · cases hc : balCheckCatalog C.cols with
        | ok u => rfl
        | error e => rw [hc] at h1; cases h1

/-! ### After the fit -/

/-- What follows the fit ends with results or with an abort. -/
theorem ends_after {D V : Type} (C : AllCfg Val K) (he : ∀ x, C.exps = some x → OrdinaryErrors x.1)
    (ck : Codec (List (ChiRow K)) V) {n : Nat} {F : Nat → Prog V (SaverEv (String × D)) (Fitted Val K)}
    {a : Nat → Fitted Val K} {M : Nat → List (SaverEv (String × D))} (h : Sync n F (fun r => .ok (a r)) M) :
    let job := runJob n (fun r => mainProg ((F r).bind
      (fun x : Fitted Val K => C.ending ck x.1.1 r x.1.2.1 x.1.2.2 x.2)))
    job.1 = .aborted ∨ ∃ outs : Nat → CatalogOut Val K, job.1 = .done ((List.range (n + 1)).map (fun r => .ok (outs r))) := by
  dsimp only
  by_cases hb : ∃ r ≤ n, ∃ e, C.tail (a r).2.1 (a r).2.2.1 = .error e
  · obtain ⟨r, hr, e, hte⟩ := hb
    refine .inl (main_abort_at h (fun r (x : Fitted Val K) => C.ending ck x.1.1 r x.1.2.1 x.1.2.2 x.2) hr
      (crash_fitTail _ _ _ _ _ _ e hte) ?_)
    unfold AllCfg.ending
    rw [hte]
    rfl
  push Not at hb
  have hb' : ∀ r, ∃ t, r ≤ n → C.tail (a r).2.1 (a r).2.2.1 = .ok t := by
    intro r
    cases ht : C.tail (a r).2.1 (a r).2.2.1 with
    | error e => exact ⟨[], fun hr => absurd ht (hb r hr e)⟩
    | ok t => exact ⟨t, fun _ => rfl⟩
  choose t ht using hb'
  have hend : ∀ r ≤ n, C.ending ck (a r).1.1 r (a r).1.2.1 (a r).1.2.2 (a r).2 =
      (C.afterTail ck (a r).1.1 r (a r).1.2.1 (a r).1.2.2 (a r).2 (t r) :
        Prog V (SaverEv (String × D)) (CatalogOut Val K)) := by
    intro r hr
    unfold AllCfg.ending
    rw [ht r hr]
    rfl
  -- the catalog
  have htab : (∃ r ≤ n, ∃ e, Unexpected e ∧ C.cat.saveTable ck r (putBack (a r).2.2.1 (t r)) =
        (.raise e : Prog V (SaverEv (String × D)) _)) ∨
      ∃ tb : Nat → Option (List (ChiRow K)), Sync n (fun r => (C.cat.saveTable ck r (putBack (a r).2.2.1 (t r)) :
        Prog V (SaverEv (String × D)) _)) (fun r => .ok (tb r)) (fun _ => []) := by
    by_cases ho : C.cat.run.outdir = true
    · by_cases hc : ∃ r ≤ n, ∃ e, (putBack (a r).2.2.1 (t r)).mapM
          (fun s => chiRow (C.cat.run.fit.order + 1) r s.chi) = .error e
      · obtain ⟨r, hr, e, hce⟩ := hc
        refine .inl ⟨r, hr, e, Crashes.mapM (fun s => crash_chiRow _ _ _) _ e hce, ?_⟩
        unfold CatalogCfg.saveTable
        rw [if_pos ho, hce]
        rfl
      · push Not at hc
        have hc' : ∀ r, ∃ rows, r ≤ n → (putBack (a r).2.2.1 (t r)).mapM
            (fun s => chiRow (C.cat.run.fit.order + 1) r s.chi) = .ok rows := by
          intro r
          cases hr : (putBack (a r).2.2.1 (t r)).mapM (fun s => chiRow (C.cat.run.fit.order + 1) r s.chi) with
          | error e => exact ⟨[], fun hrn => absurd hr (hc r hrn e)⟩
          | ok rows => exact ⟨rows, fun _ => rfl⟩
        choose rows hrows using hc'
        right
        refine ⟨_, (sync_gather (fun r => ck.enc (rows r)) (k := fun _ o => .ret (chiTable ck o))
          (sync_ret n _)).congr (fun r hr => ?_) (fun _ _ => rfl) (fun _ _ => rfl)⟩
        unfold CatalogCfg.saveTable
        rw [if_pos ho, hrows r hr]
        rfl
    · refine .inr ⟨fun _ => none, (sync_ret n (fun _ => none)).congr (fun r _ => ?_) (fun _ _ => rfl) (fun _ _ => rfl)⟩
      unfold CatalogCfg.saveTable
      rw [if_neg ho]
  rcases htab with ⟨r, hr, e, he, hraise⟩ | ⟨tb, htab⟩
  · refine .inl (main_abort_at h (fun r (x : Fitted Val K) => C.ending ck x.1.1 r x.1.2.1 x.1.2.2 x.2) hr he ?_)
    rw [hend r hr]
    unfold AllCfg.afterTail
    rw [hraise]
    rfl
  -- the exposures and the deltas
  let y : Nat → Except Err (CatalogOut Val K) := fun r => do
    let e ← C.exposures (a r).1.2.1 (AllCfg.kept (a r).1.2.2 (a r).2.2.1 (t r))
    let files ← C.cat.run.save r (C.clean e)
    pure ⟨⟨(a r).1.1, (a r).2.2.2.1, (a r).2.2.2.2, C.clean e, files⟩, tb r⟩
  have hy : ∀ r, Crashes (y r) := fun r =>
    (crash_exposures C he _ _).bind fun _ => (crash_save _ _ _).bind fun _ => Crashes.ok _
  have hlast : Sync n (fun r => ((Prog.ofExcept (C.exposures (a r).1.2.1 (AllCfg.kept (a r).1.2.2 (a r).2.2.1 (t r)))).bind
      fun e => C.saveAll (a r).1.1 r (a r).2.2.2.1 (a r).2.2.2.2 (tb r) e :
        Prog V (SaverEv (String × D)) (CatalogOut Val K))) y (fun _ => []) := by
    refine (sync_ofExcept n y).congr (fun r _ => ?_) (fun _ _ => rfl) (fun _ _ => rfl)
    change _ = Prog.ofExcept (C.exposures _ _ >>= _)
    cases hx : C.exposures (a r).1.2.1 (AllCfg.kept (a r).1.2.2 (a r).2.2.1 (t r)) with
    | error e => rfl
    | ok e =>
      change C.saveAll _ _ _ _ _ e = Prog.ofExcept (C.cat.run.save r (C.clean e) >>= _)
      unfold AllCfg.saveAll
      cases C.cat.run.save r (C.clean e) <;> rfl
  have hall := htab.bind (f := fun r table =>
    (Prog.ofExcept (C.exposures (a r).1.2.1 (AllCfg.kept (a r).1.2.2 (a r).2.2.1 (t r)))).bind
      fun e => C.saveAll (a r).1.1 r (a r).2.2.2.1 (a r).2.2.2.2 table e) hlast
  have hall' := hall.congr (Q := fun r => C.ending ck (a r).1.1 r (a r).1.2.1 (a r).1.2.2 (a r).2)
    (fun r hr => hend r hr) (fun _ _ => rfl) (fun _ _ => rfl)
  have hrun := h.bind (f := fun r (x : Fitted Val K) => C.ending ck x.1.1 r x.1.2.1 x.1.2.2 x.2) hall'
  by_cases hbad : ∃ r ≤ n, ∃ e, y r = .error e
  · obtain ⟨r, hr, e, hye⟩ := hbad
    exact .inl (main_abort hrun hr (hy r e hye) hye)
  · push Not at hbad
    have hok : ∀ r, ∃ o, r ≤ n → y r = .ok o := by
      intro r
      cases hr : y r with
      | error e => exact ⟨⟨⟨none, 0, false, [], []⟩, none⟩, fun hrn => absurd hr (hbad r hrn e)⟩
      | ok o => exact ⟨o, fun _ => rfl⟩
    choose o ho using hok
    refine .inr ⟨o, ?_⟩
    rw [main_ok (hrun.congr (fun _ _ => rfl) (fun r hr => (ho r hr).symm) (fun _ _ => rfl))]

/-! ### The run -/

theorem maxNight_nil : WholeCfg.maxNight ([] : List (List (Row Val))) = none := rfl

theorem noBal_iff (C : WholeCfg Val K) : NoBalColumns C ↔ C.sel.bal = true ∧ balCheckCatalog C.cols = .error .qsonic := by
  unfold NoBalColumns balCheckCatalog
  refine and_congr_right fun _ => ?_
  constructor
  · rintro ⟨s, hs, hn⟩
    rw [if_neg]
    intro h
    exact hn (of_decide_eq_true (List.all_eq_true.mp h s hs))
  · intro h
    by_contra hno
    push Not at hno
    rw [if_pos (List.all_eq_true.mpr fun s hs => decide_eq_true (hno s hs))] at h
    cases h

/-- The fit. -/
def recFitE {Q D V : Type} (C : CatalogCfg Val K) (P : FitterFns (FullState K) (Spectrum K) (StackSums K) Q D)
    (E : UpdateErrs (FullState K) (StackSums K) Q) (fc : FitterCodecs (StackSums K) Q V) (fname : String) (hf : Bool)
    (g0 : FullState K) (r : Nat) (x : Before Val K) : Prog V (SaverEv (String × D)) (Fitted Val K) :=
  ((C.run.fit.recFns C.cov P).iterateE E fc fname C.run.niter hf r g0 (x.2.2.map C.start)).bind fun w => .ret (x, w)

/-- A run up to the end of the fit. -/
def fitPartE {Q D V : Type} (C : CatalogCfg Val K) (P : FitterFns (FullState K) (Spectrum K) (StackSums K) Q D)
    (E : UpdateErrs (FullState K) (StackSums K) Q) (cs : Codec Bool V) (cq : Codec (List (List (Row Val))) V)
    (cn : Codec Val V) (fc : FitterCodecs (StackSums K) Q V) (c : Catalog Val) (fname : String) (hf : Bool)
    (g0 : FullState K) (size r : Nat) : Prog V (SaverEv (String × D)) (Fitted Val K) :=
  (beforeFit C.run cs cq cn c size r).bind (recFitE C P E fc fname hf g0 r)

theorem runE_eq {Q D V : Type} (C : AllCfg Val K) (P : FitterFns (FullState K) (Spectrum K) (StackSums K) Q D)
    (E : UpdateErrs (FullState K) (StackSums K) Q) (cs : Codec Bool V) (cq : Codec (List (List (Row Val))) V)
    (cn : Codec Val V) (fc : FitterCodecs (StackSums K) Q V) (ck : Codec (List (ChiRow K)) V) (c : Catalog Val)
    (fname : String) (hf : Bool) (g0 : FullState K) (size r : Nat) :
    C.runE P E cs cq cn fc ck (.ok c) fname hf g0 size r =
      (fitPartE C.cat P E cs cq cn fc c fname hf g0 size r).bind
        (fun x : Fitted Val K => C.ending ck x.1.1 r x.1.2.1 x.1.2.2 x.2) := by
  unfold AllCfg.runE fitPartE beforeFit recFitE
  simp only [prog_bind_assoc]
  rfl

theorem ends_ok {Q D V : Type} (C : AllCfg Val K) (hR : OrdinaryErrors C.cat.run.reader)
    (he : ∀ x, C.exps = some x → OrdinaryErrors x.1)
    (P : FitterFns (FullState K) (Spectrum K) (StackSums K) Q D) {E : UpdateErrs (FullState K) (StackSums K) Q}
    (hX : ∀ e, UpdateRaises E e → e.isException = true) (cs : Codec Bool V)
    (cq : Codec (List (List (Row Val))) V) (cn : Codec Val V) (fc : FitterCodecs (StackSums K) Q V)
    (ck : Codec (List (ChiRow K)) V) {c : Catalog Val}
    {ang2pix : Nat → Val → Val → Val} {file : Except Err (Catalog Val)} {isMock : Bool}
    {ks : Option (List Val)} {zmin zmax : Val}
    (h : readQuasarCatalog ang2pix file isMock C.cat.run.tile ks zmin zmax = .ok c) (n : Nat)
    (fname : String) (hf : Bool) (g0 : FullState K) :
    let job := runJob n (fun r => mainProg (C.runE P E cs cq cn fc ck (.ok c) fname hf g0 (n + 1) r))
    job.1 = .aborted ∨
    (job.1 = .done (List.replicate (n + 1) (.error (.systemExit 1))) ∧
      (NoBalColumns C.cat.run ∨ ((NoValidFit C.cat c g0 n ∨ UpdateRaises E .qsonic) ∧
        ∀ p ∈ catPixels C.cat.run.tile c, ∃ s, C.cat.run.reader (catPixelRows C.cat.run.tile c p) = .ok s))) ∨
    ((∃ outs : Nat → CatalogOut Val K, job.1 = .done ((List.range (n + 1)).map (fun r => .ok (outs r)))) ∧
      ¬ NoBalColumns C.cat.run ∧ (¬ IdleOk C.cat.run → n + 1 ≤ (catPixels C.cat.run.tile c).length) ∧
      ((hf = true → 0 < C.cat.run.niter) → ∃ g s, E.var g s = none) ∧
      ∀ p ∈ catPixels C.cat.run.tile c, ∃ s, C.cat.run.reader (catPixelRows C.cat.run.tile c p) = .ok s) := by
  dsimp only
  simp only [runE_eq]
  obtain ⟨q, hq, hlen, hrows, hpix, -⟩ := queues_ok h n
  have hchunk : ∀ r ≤ n, ∀ ch ∈ q.getD r [], ch ≠ [] := by
    intro r hrn ch hch
    have hl : r < q.length := by omega
    rw [List.getD_eq_getElem?_getD, List.getElem?_eq_getElem hl] at hch
    have : ch ∈ q.flatten := List.mem_flatten.mpr ⟨_, List.getElem_mem hl, hch⟩
    obtain ⟨p, hp, rfl⟩ := List.mem_map.mp (hpix.mem_iff.mp this)
    unfold catPixels at hp
    obtain ⟨x, hx, rfl⟩ := List.mem_map.mp (List.mem_dedup.mp hp)
    exact List.ne_nil_of_mem (List.mem_filter.mpr ⟨hx, by simp⟩)
  have hpool : ((List.range (n + 1)).flatMap (fun r => (q.getD r []).flatten)).Perm c.rows := by
    refine (List.Perm.of_eq ?_).trans hrows
    rw [← pooled_getD hlen]
    generalize List.range (n + 1) = l
    induction l with
    | nil => rfl
    | cons a l ih => rw [List.flatMap_cons, List.flatMap_cons, List.flatten_append, ih]
  have hdist : ((List.range (n + 1)).flatMap (fun r => q.getD r [])).Perm
      ((catPixels C.cat.run.tile c).map (catPixelRows C.cat.run.tile c)) := by
    rw [pooled_getD hlen]; exact hpix
  have hfull : (∀ r ≤ n, q.getD r [] ≠ []) → n + 1 ≤ (catPixels C.cat.run.tile c).length := by
    intro hne
    have h1 : (List.range (n + 1)).length ≤ ((List.range (n + 1)).flatMap (fun r => q.getD r [])).length := by
      rw [List.length_flatMap]
      have := List.card_nsmul_le_sum ((List.range (n + 1)).map (fun r => (q.getD r []).length)) 1 (by
        intro x hx
        obtain ⟨r, hr, rfl⟩ := List.mem_map.mp hx
        exact List.length_pos_iff.mpr (hne r (by simpa [Nat.lt_succ_iff] using hr)))
      simpa using this
    rw [hdist.length_eq, List.length_map, List.length_range] at h1
    exact h1
  have hs := sync_queue (W := SaverEv (String × D)) cs cq C.cat.run.tile hq hlen
  -- ranks without rows
  by_cases hempty : C.cat.run.mock = false ∧ ∃ r ≤ n, q.getD r [] = []
  · obtain ⟨hm, r, hr, hrq⟩ := hempty
    left
    unfold fitPartE beforeFit
    simp only [prog_bind_assoc]
    refine main_abort_at (e := .valueError) hs _ hr ⟨rfl, by simp⟩ ?_
    rw [hrq]
    unfold WholeCfg.blinding
    rw [if_neg (by simp [hm]), maxNight_nil]
    rfl
  have hempty : C.cat.run.mock = false → ∀ r ≤ n, q.getD r [] ≠ [] := fun hm r hr hrq => hempty ⟨hm, r, hr, hrq⟩
  obtain ⟨night, hn, -, -⟩ := sync_blinding (W := SaverEv (String × D)) C.cat.run cn (fun r => q.getD r []) hpool
    hempty hchunk
  have hqn := hs.bind (f := fun r q => (C.cat.run.blinding cn q).bind fun night => .ret (q, night))
    (hn.bind (f := fun r night => .ret (q.getD r [], night)) (sync_ret n _))
  obtain ⟨A, hA⟩ : ∃ A : Nat → Prog V (SaverEv (String × D)) (List (List (Row Val)) × Option Val), A = fun r =>
      (mpiGetLocalQueue cs cq (.ok c) C.cat.run.tile (n + 1) r).bind fun q =>
        (C.cat.run.blinding cn q).bind fun night => .ret (q, night) := ⟨_, rfl⟩
  obtain ⟨M, hqn⟩ : ∃ M, Sync n A (fun r => .ok (q.getD r [], night)) M := by rw [hA]; exact ⟨_, hqn⟩
  have hsplit : ∀ r, fitPartE C.cat P E cs cq cn fc c fname hf g0 (n + 1) r =
      ((A r).bind fun x => (Prog.ofExcept (C.cat.run.prepare x.1)).bind fun l => .ret (x.2, x.1, l)).bind
        (recFitE C.cat P E fc fname hf g0 r) := by
    intro r
    rw [hA]
    unfold fitPartE beforeFit
    simp only [prog_bind_assoc]
    rfl
  clear hA hs hn
  -- the spectra
  by_cases hun : ∃ r ≤ n, ∃ e, C.cat.run.prepare (q.getD r []) = .error e ∧ Unexpected e
  · obtain ⟨r, hr, e, hpe, hue⟩ := hun
    left
    simp only [hsplit]
    simp only [prog_bind_assoc]
    refine main_abort_at hqn _ hr hue ?_
    dsimp only
    rw [hpe]
    rfl
  push Not at hun
  by_cases hbal : ∃ r ≤ n, C.cat.run.prepare (q.getD r []) = .error .qsonic
  · obtain ⟨r0, hr0, hq0⟩ := hbal
    have hb : C.cat.run.sel.bal = true ∧ balCheckCatalog C.cat.run.cols = .error .qsonic := by
      rcases prepare_cases C.cat.run hR (q.getD r0 []) with ⟨l, hl⟩ | ⟨e, h1, h2⟩ | ⟨-, h2⟩
      · rw [hq0] at hl; cases hl
      · exact absurd h2 (hun r0 hr0 e h1)
      · exact h2
    have hall : ∀ r ≤ n, C.cat.run.prepare (q.getD r []) = .error .qsonic := by
      intro r hr
      rcases prepare_cases C.cat.run hR (q.getD r []) with ⟨l, hl⟩ | ⟨e, h1, h2⟩ | ⟨h1, -⟩
      · have := (prepare_ok_inv C.cat.run hl).2.2 hb.1
        rw [hb.2] at this
        cases this
      · exact absurd h2 (hun r hr e h1)
      · exact h1
    right; left
    refine ⟨?_, .inl ((noBal_iff _).mpr hb)⟩
    have h3 := hqn.bind (f := fun _ x => (Prog.ofExcept (C.cat.run.prepare x.1)).bind fun l => .ret (x.2, x.1, l))
      ((sync_ofExcept_eq hall).bind_error (fun r l => .ret (night, q.getD r [], l)))
    have h4 := (h3.bind_error (fun r => recFitE C.cat P E fc fname hf g0 r)).bind_error
      (fun r (x : Fitted Val K) => C.ending ck x.1.1 r x.1.2.1 x.1.2.2 x.2)
    simp only [hsplit]
    rw [main_exit h4]
  have hprep : ∀ r, ∃ l, r ≤ n → C.cat.run.prepare (q.getD r []) = .ok l := by
    intro r
    by_cases hr : r ≤ n
    · rcases prepare_cases C.cat.run hR (q.getD r []) with ⟨l, hl⟩ | ⟨e, h1, h2⟩ | ⟨h1, -⟩
      · exact ⟨l, fun _ => hl⟩
      · exact absurd h2 (hun r hr e h1)
      · exact absurd ⟨r, hr, h1⟩ hbal
    · exact ⟨[], fun h => absurd h hr⟩
  choose l hl using hprep
  have h3 := hqn.bind (f := fun _ x => (Prog.ofExcept (C.cat.run.prepare x.1)).bind fun l => .ret (x.2, x.1, l))
    ((sync_ofExcept_eq (y := fun r => .ok (l r)) hl).bind (f := fun r l => .ret (night, q.getD r [], l)) (sync_ret n _))
  have hbalc : ¬ NoBalColumns C.cat.run := by
    intro hb
    have := (prepare_ok_inv C.cat.run (hl 0 (Nat.zero_le n))).2.2 hb.1
    rw [((noBal_iff _).mp hb).2] at this
    cases this
  have hread : ∀ p ∈ catPixels C.cat.run.tile c, ∃ s,
      C.cat.run.reader (catPixelRows C.cat.run.tile c p) = .ok s := by
    intro p hp
    have : catPixelRows C.cat.run.tile c p ∈ (List.range (n + 1)).flatMap (fun r => q.getD r []) :=
      hdist.mem_iff.mpr (List.mem_map.mpr ⟨p, hp, rfl⟩)
    obtain ⟨r, hr, hch⟩ := List.mem_flatMap.mp this
    exact (prepare_ok_inv C.cat.run (hl r (by simpa [Nat.lt_succ_iff] using hr))).1 _ hch
  obtain ⟨M', ⟨a, ha, hit⟩ | ⟨e, hcause, hit⟩⟩ := all_iterate (E := E) (c := fc) (F := C.cat.run.fit.recFns C.cat.cov P) n hf
    fname C.cat.run.niter g0 (fun r => (l r).map C.cat.start)
    (err := fun e => UpdateRaises E e ∨ (e = .qsonic ∧ NoValidFit C.cat c g0 n)) (fun e h => .inl h) (by
      rintro ⟨gs, hg1, hg2, hg3⟩
      exact .inr ⟨rfl, fun r => q.getD r [], gs, hdist, hg1, hg2, fun r hr => ⟨l r, hl r hr, fun x hx =>
        hg3 r hr _ (List.mem_map.mpr ⟨x, hx, rfl⟩)⟩⟩)
  · have h4 := h3.bind (f := fun r => recFitE C.cat P E fc fname hf g0 r)
      (hit.bind (f := fun r w => .ret ((night, q.getD r [], l r), w)) (sync_ret n _))
    have h5 := h4.congr (Q := fun r => fitPartE C.cat P E cs cq cn fc c fname hf g0 (n + 1) r) (fun r _ => hsplit r)
      (fun _ _ => rfl) (fun _ _ => rfl)
    rcases ends_after C he ck h5 with hab | hdone
    · exact .inl hab
    · refine .inr (.inr ⟨hdone, hbalc, fun hidle => hfull fun r hr hrq => ?_, ha, hread⟩)
      · by_cases hm : C.cat.run.mock = false
        · exact hempty hm r hr hrq
        · refine (prepare_ok_inv C.cat.run (hl r hr)).2.1 ?_ hrq
          by_contra hno
          push Not at hno
          exact hidle ⟨by simpa using hm, by simpa using hno.1, by simpa using hno.2⟩
  · have h4 := (h3.bind (f := fun r => recFitE C.cat P E fc fname hf g0 r)
      (hit.bind_error (fun r w => .ret ((night, q.getD r [], l r), w)))).bind_error
      (fun r (x : Fitted Val K) => C.ending ck x.1.1 r x.1.2.1 x.1.2.2 x.2)
    simp only [hsplit]
    by_cases hqs : e = .qsonic
    · subst hqs
      refine .inr (.inl ⟨by rw [main_exit h4], ?_⟩)
      rcases hcause with h | ⟨-, h⟩
      · exact .inr ⟨.inr h, hread⟩
      · exact .inr ⟨.inl h, hread⟩
    · refine .inl (main_abort h4 (Nat.zero_le n) ⟨?_, hqs⟩ rfl)
      rcases hcause with h | ⟨h, -⟩
      · exact hX e h
      · exact absurd h hqs

end
end Verif.Proofs
