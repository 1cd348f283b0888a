import Verif.Proofs.CalibEnds

/-!
# C112: how a run of `qsonic-calib` ends
-/

namespace Verif.Props
open Verif Verif.Np Verif.Model Verif.Model.Prog Verif.Spec Verif.Proofs

variable {K : Type} [Field K] [LinearOrder K] [FloorRing K] [IsStrictOrderedRing K] {V W : Type}

/-- The file with two tables only, not closed. -/
def calibUnfinished (C : CalibCfg K) (fname : String) (t : VarTable K) : List (SaverEv (CalHdu K)) :=
  [.create fname, .write fname (.stats t),
    .write fname (.func ((List.range C.var.nw).map (fun iw : Nat =>
        C.var.w1 + ((iw : K) + 1 / 2) * ((C.var.w2 - C.var.w1) / C.var.nw)))
      (C.smooth (fitValues C t).1 (fitValues C t).2) (fitValues C t).2)]

/-- **C112.** If the root cannot read the list of targets or the catalog that is given, or finds no names of delta files, or
the catalog has no columns of the BALs that are to be removed, then all ranks exit with status 1 and no file is
created. On any number of ranks and whatever the delta files hold; what reading raises are `Exception`s. -/
theorem C112_root_input (C : CalibCfg K) (c : CalibCodecs K C.nsub C.var V) (called : W) (ev : SaverEv (CalHdu K) → W)
    (fname : String) (N : Nat) (inp : Nat → CalibIn K) (he1 : ∀ e, (inp 0).ids = .error e → e.isException = true)
    (he2 : ∀ e, (inp 0).cat = .error e → e.isException = true)
    (he3 : ∀ e, (inp 0).glob = .error e → e.isException = true)
    (h : ¬ ∃ ids rows files, RootReads C (inp 0) ids rows files) :
    ∃ j, runJob N (fun r => mainProg (C.run c called ev fname (inp r) (N + 1) r)) =
      (.done (List.replicate (N + 1) (.error (.systemExit 1))),
        (List.range (N + 1)).map (fun r => if r = 0 then List.replicate j called else [])) := by
  simp only [calib_split]
  rcases sync_open_error (W := W) C c called (N := N) (inp := inp) he1 he2 with ⟨ids, rows, h1, h2, h3⟩ | ⟨j, hj⟩
  · cases hg : (inp 0).glob with
    | ok files => exact absurd ⟨ids, rows, files, h1, h2, fun a b => balColumns_ok_inv C h3 a b, hg⟩ h
    | error e =>
      have s1 := sync_open (W := W) C c called (N := N) h1 h2 h3
      have s2 := sync_fncBcast_error (W := W) N c.glob called (fun r => (inp r).glob) hg (he3 e hg)
      have s3 : Sync N (fun r => calibStats C c called (inp r) (N + 1) r (ids, rows)) (fun _ => .error .qsonic)
          (fun r => if r = 0 then [called] else []) :=
        ((s2.bind_error (fun r fs => (ofExcept ((filesThisRank fs r (N + 1)).mapM (inp r).read) : Prog V W _))).bind_error
          (fun r lists => (C.addKept (N + 1) r (C.kept ids rows lists)).bind fun obj =>
            (obj.statsProg C.eps C.useCov c.sums).bind fun s => (.ret (C.kept ids rows lists, s) : Prog V W _))).congr
          (fun _ _ => rfl) (fun _ _ => rfl) (fun _ _ => rfl)
      refine ⟨openCalls C + 1, ?_⟩
      rw [main_exit ((s1.bind s3).bind_error (fun r => calibTail C c ev fname r))]
      congr 1
      refine List.map_congr_left fun r _ => ?_
      by_cases h0 : r = 0
      · subst h0
        simp only [if_true]
        rw [show [called] = List.replicate 1 called from rfl, List.replicate_append_replicate]
      · simp [h0]
  · refine ⟨j, ?_⟩
    rw [main_exit ((hj.bind_error (fun r => calibStats C c called (inp r) (N + 1) r)).bind_error
      (fun r => calibTail C c ev fname r))]

/-- **C112.** If a rank cannot read one of its delta files the job is aborted, and no file is created. -/
theorem C112_delta_input (C : CalibCfg K) (c : CalibCodecs K C.nsub C.var V) (hc : GoodBins C.var) (called : W)
    (ev : SaverEv (CalHdu K) → W) (fname : String) (N : Nat) (inp : Nat → CalibIn K)
    (he : ∀ r f e, (inp r).read f = .error e → Unexpected e) {ids : List Int} {rows : Option (List (CalRow K))}
    {files : List String} (h : RootReads C (inp 0) ids rows files) {r : Nat} (hr : r ≤ N) {f : String}
    (hf : f ∈ fileShare files (N + 1) r) (hbad : ∀ l, (inp r).read f ≠ .ok l) :
    runJob N (fun r => mainProg (C.run c called ev fname (inp r) (N + 1) r)) =
      (.aborted, (List.range (N + 1)).map (fun r => if r = 0 then List.replicate (calibCalls C) called else [])) := by
  -- the read and the rest
  let g : Nat → (List Int × Option (List (CalRow K))) × List String → Prog V W (CalibOut K) := fun r x =>
    (ofExcept ((filesThisRank x.2 r (N + 1)).mapM (inp r).read)).bind fun lists =>
    ((C.addKept (N + 1) r (C.kept x.1.1 x.1.2 lists)).bind fun obj =>
    (obj.statsProg C.eps C.useCov c.sums).bind fun s => (.ret (C.kept x.1.1 x.1.2 lists, s) : Prog V W _)).bind
    (calibTail C c ev fname r)
  have e1 : ∀ r, C.run c called ev fname (inp r) (N + 1) r = ((calibOpen C c called (inp r) r).bind fun x =>
      (mpiFncBcast c.glob called (inp r).glob true r).bind fun fs => .ret (x, fs)).bind (g r) := by
    intro r
    rw [calib_split]
    simp only [g, calibStats, readAllDeltas, prog_bind_bind]
    rfl
  have s := (sync_open (W := W) C c called (N := N) h.ids h.cat (balColumns_ok C h.bal)).bind
    (f := fun r x => (mpiFncBcast c.glob called (inp r).glob true r).bind fun fs => .ret (x, fs))
    ((sync_fncBcast (W := W) N c.glob called (fun r => (inp r).glob) h.glob).bind
      (f := fun _ fs => (.ret ((ids, rows), fs) : Prog V W _)) (sync_ret N (fun _ => ((ids, rows), files))))
  simp only [e1]
  have hbad' : ∃ e, (fileShare files (N + 1) r).mapM (inp r).read = .error e := by
    cases hm : (fileShare files (N + 1) r).mapM (inp r).read with
    | error e => exact ⟨e, rfl⟩
    | ok l =>
      have h2 := mapM_ok_inv hm
      obtain ⟨i, hi, rfl⟩ := List.getElem_of_mem hf
      exact absurd (h2.get hi (h2.length_eq ▸ hi)) (hbad _)
  obtain ⟨e, hm⟩ := hbad'
  obtain ⟨f', -, hf'⟩ := mapM_error_inv hm
  rw [main_crash s (N := fun _ => []) (fun r hr => ?_) hr (he r f' e hf') ?_]
  · congr 1
    refine List.map_congr_left fun r _ => ?_
    by_cases h0 : r = 0
    · subst h0
      simp only [if_true, List.append_nil]
      rw [show [called] = List.replicate 1 called from rfl, List.replicate_append_replicate]
      rfl
    · simp [h0]
  · change (peel ((Prog.ofExcept ((filesThisRank files r (N + 1)).mapM (inp r).read)).bind _)).2 = _
    rw [share_eq, hm]
    rfl
  · change (peel ((Prog.ofExcept ((filesThisRank files r (N + 1)).mapM (inp r).read)).bind _)).1 = []
    cases hm : (filesThisRank files r (N + 1)).mapM (inp r).read with
    | error e => rfl
    | ok lists =>
      have h2 := (rankObj_fresh hc C.nsub_pos N (fun _ => (C.kept ids rows lists).map CalDelta.vpix) r hr).2.2
      obtain ⟨t, h1, -⟩ := addList_ok hc.length ((C.kept ids rows lists).map CalDelta.vpix)
        (VarLss.new C.var C.nsub_pos r (N + 1)) rfl
      unfold rankObj at h2
      rw [h1] at h2
      change (peel (((C.addKept (N + 1) r (C.kept ids rows lists)).bind _).bind _)).1 = []
      unfold CalibCfg.addKept
      rw [h1]
      change (peel (((t.statsProg C.eps C.useCov c.sums).bind _).bind _)).1 = []
      unfold VarLss.statsProg
      rw [if_neg (by rw [h2]; decide)]
      rfl

open Classical in
/-- **C112.** All input can be read: one table `t` holds the statistics of the deltas to be used of all ranks, and the run
ends in one of three ways. If the fit fails in too many wavelength bins all ranks exit with status 1 and no file is created.
Otherwise, if some rank has no delta to be used, the job is aborted and the root has created a file without the stack that it
does not close. Otherwise (for deltas on grids as in `C61_partial`) all ranks finish and the root alone writes, one complete
file. -/
theorem C112_outcomes (C : CalibCfg K) (c : CalibCodecs K C.nsub C.var V) (hc : GoodBins C.var) (called : W)
    (ev : SaverEv (CalHdu K) → W) {fname : String} (hf : fname ≠ "") (N : Nat) {inp : Nat → CalibIn K}
    {ids : List Int} {rows : Option (List (CalRow K))} {files : List String}
    {data : Nat → String → List (CalDelta K)}
    (hroot : RootReads C (inp 0) ids rows files)
    (hread : ∀ r ≤ N, ∀ f ∈ fileShare files (N + 1) r, (inp r).read f = .ok (data r f)) :
    ∃ used : Nat → List (CalDelta K), (∀ r, used r = usedBy C ids rows files (data r) (N + 1) r) ∧
    ∃ t, StatsOf C.var ((List.range (N + 1)).flatMap used) t ∧ t.cov.isSome = C.useCov ∧
      (FitFails C t → runJob N (fun r => mainProg (C.run c called ev fname (inp r) (N + 1) r)) =
        (.done (List.replicate (N + 1) (.error (.systemExit 1))),
          (List.range (N + 1)).map (fun r => if r = 0 then List.replicate (calibCalls C) called else []))) ∧
      (¬ FitFails C t → (∃ r ≤ N, used r = []) →
        runJob N (fun r => mainProg (C.run c called ev fname (inp r) (N + 1) r)) =
          (.aborted, (List.range (N + 1)).map (fun r => if r = 0 then List.replicate (calibCalls C) called ++
            (calibUnfinished C fname t).map ev else []))) ∧
      (¬ FitFails C t → (∀ r ≤ N, used r ≠ []) → ∀ dw, 0 < dw → ∀ m : Nat,
        C.var.w2 - C.var.w1 = ((m + 1 : Nat) : K) * dw →
        (∀ r ≤ N, ∀ d ∈ used r, d.dwave = dw ∧ OnGrid C.var.w1 dw d) →
        runJob N (fun r => mainProg (C.run c called ev fname (inp r) (N + 1) r)) =
          (.done ((List.range (N + 1)).map (fun r => .ok
            { kept := used r
              table := t
              fit := (C.smooth (fitValues C t).1 (fitValues C t).2, (fitValues C t).2)
              stack := (stackGrid C.var.w1 dw m, stackOf C.var.w1 dw m ((List.range (N + 1)).flatMap used)) })),
            (List.range (N + 1)).map (fun r => if r = 0 then List.replicate (calibCalls C) called ++
              (calibFile C fname t (stackGrid C.var.w1 dw m)
                (stackOf C.var.w1 dw m ((List.range (N + 1)).flatMap used))).map ev else []))) := by
  generalize hL : (fun r => usedBy C ids rows files (data r) (N + 1) r) = L
  have hLr : ∀ r, usedBy C ids rows files (data r) (N + 1) r = L r := fun r => congrFun hL r
  obtain ⟨t, ht, hcov, hr⟩ := stats_table C hc N L
  have hs := (sync_open (W := W) C c called (N := N) hroot.ids hroot.cat (balColumns_ok C hroot.bal)).bind
    (sync_calibStats (W := W) C c hc called ids rows hroot.glob hread)
  simp only [hLr] at hs
  have hlog : ∀ r, ((if r = 0 then List.replicate (openCalls C) called else []) ++ (if r = 0 then [called] else [])) =
      (if r = 0 then List.replicate (calibCalls C) called else []) := by
    intro r
    by_cases h0 : r = 0
    · subst h0
      simp only [if_true]
      rw [show [called] = List.replicate 1 called from rfl, List.replicate_append_replicate]
      rfl
    · simp [h0]
  simp only [hlog] at hs
  have hfit : ∀ r ≤ N, C.fitStats (rankStats C.var C.nsub_pos C.eps C.useCov N (fun r => (L r).map CalDelta.vpix) r) =
      if FitFails C t then .error .qsonic
      else .ok (C.smooth (fitValues C t).1 (fitValues C t).2, (fitValues C t).2) := fun r h =>
    fit_table C hc.nw_pos _ (hr r h).2.1 (hr r h).2.2 t (hr r h).1
  have hcenter : (List.range C.var.nw).map C.var.center = (List.range C.var.nw).map (fun iw : Nat =>
      C.var.w1 + ((iw : K) + 1 / 2) * ((C.var.w2 - C.var.w1) / C.var.nw)) := by
    refine List.map_congr_left fun iw _ => ?_
    unfold VarCfg.center VarCfg.edge VarCfg.dw
    push_cast
    ring
  refine ⟨L, fun r => (hLr r).symm, t, ht, hcov, fun hF => ?_, fun hF hno => ?_, fun hF hne dw hdw m hm hg => ?_⟩
  · simp only [calib_split]
    have h1 : Sync N (fun r => calibTail C c ev fname r (L r, rankStats C.var C.nsub_pos C.eps C.useCov N
        (fun r => (L r).map CalDelta.vpix) r)) (fun _ => .error .qsonic) (fun _ => []) := by
      refine (sync_raise N (fun _ => Err.qsonic)).congr (fun r h => ?_) (fun _ _ => rfl) (fun _ _ => rfl)
      unfold calibTail
      dsimp only
      rw [hfit r h, if_pos hF]
      rfl
    rw [main_exit (hs.bind h1)]
    simp only [List.append_nil]
  · simp only [calib_split]
    obtain ⟨r, hrN, hr0⟩ := hno
    -- the programs up to the stack
    have htail : ∀ r ≤ N, ∃ f : List K × List K → Prog V W (CalibOut K), calibTail C c ev fname r (L r, rankStats C.var
        C.nsub_pos C.eps C.useCov N (fun r => (L r).map CalDelta.vpix) r) =
        .emits (if r = 0 then (calibUnfinished C fname t).map ev else [])
          ((stackFluxes c.arr C.var.w1 C.var.w2 (L r)).bind f) := by
      intro r h
      refine ⟨fun st => .emits ((((Saver.init (D := CalHdu K) fname r).2.write (CalHdu.stack st.1 st.2) ++
        (Saver.init (D := CalHdu K) fname r).2.close).map ev)) <| .ret ⟨L r, t, (C.smooth (fitValues C t).1
          (fitValues C t).2, (fitValues C t).2), st⟩, ?_⟩
      unfold calibTail
      dsimp only
      rw [hfit r h, if_neg hF, (hr r h).1]
      change Prog.emits _ _ = _
      congr 1
      by_cases h0 : r = 0
      · subst h0
        simp [Saver.init, Saver.write, hf, calibUnfinished, hcenter]
      · simp [Saver.init, Saver.write, h0]
    rw [main_crash hs (N := fun r => if r = 0 then (calibUnfinished C fname t).map ev else []) (fun r h => ?_) hrN
      (e := .indexError) ⟨rfl, by decide⟩ ?_]
    · congr 1
      refine List.map_congr_left fun r _ => ?_
      by_cases h0 : r = 0
      · simp [h0]
      · simp [h0]
    · obtain ⟨f, hf'⟩ := htail r hrN
      rw [hf', peel_emits, hr0]
      rfl
    · obtain ⟨f, hf'⟩ := htail r h
      rw [hf', peel_emits]
      cases hl : L r with
      | nil => exact List.append_nil _
      | cons d ds => exact List.append_nil _
  · simp only [calib_split]
    obtain ⟨flux, s1, s2, s3⟩ := sync_stackFluxes (W := W) c.arr (w2 := C.var.w2) hdw N L hne
      (fun r hr d hd => (hg r hr d hd).1) (fun r hr d hd => (hg r hr d hd).2)
    have hN : numWave C.var.w1 C.var.w2 dw = m + 2 := by
      unfold numWave
      rw [hm, mul_div_assoc, div_self hdw.ne', mul_one]
      have : truncInt (((m + 1 : Nat) : K)) = ((m + 1 : Nat) : Int) := by
        unfold truncInt
        simp
      rw [this]
      omega
    rw [hN] at s1 s2 s3
    have hgrid : linspace C.var.w1 C.var.w2 (m + 2) = stackGrid C.var.w1 dw m := by
      unfold linspace stackGrid
      refine List.map_congr_left fun j _ => ?_
      have hm0 : ((m + 1 : Nat) : K) ≠ 0 := by exact_mod_cast Nat.succ_ne_zero m
      rw [hm, show m + 2 - 1 = m + 1 from rfl, mul_div_cancel_left₀ _ hm0]
    have hflux : flux = stackOf C.var.w1 dw m ((List.range (N + 1)).flatMap L) := by
      refine List.ext_getElem (by simp [s2, stackOf]) fun j a b => ?_
      have := s3 j (by omega)
      simpa [List.getD_eq_getElem?_getD, a, stackOf] using this
    rw [hgrid, hflux] at s1
    have h1 : Sync N (fun r => (Prog.ofExcept (C.fitStats (rankStats C.var C.nsub_pos C.eps C.useCov N
        (fun r => (L r).map CalDelta.vpix) r)) : Prog V W _))
        (fun _ => .ok (C.smooth (fitValues C t).1 (fitValues C t).2, (fitValues C t).2)) (fun _ => []) :=
      sync_ofExcept_eq fun r h => by rw [hfit r h, if_neg hF]
    have h2 : Sync N (fun r => (Prog.ofExcept (writeTable C.sqrt C.useCov (rankStats C.var C.nsub_pos C.eps C.useCov N
        (fun r => (L r).map CalDelta.vpix) r)) : Prog V W _)) (fun _ => .ok t) (fun _ => []) :=
      sync_ofExcept_eq fun r h => (hr r h).1
    have h3 : Sync N (fun r => calibTail C c ev fname r (L r, rankStats C.var C.nsub_pos C.eps C.useCov N
        (fun r => (L r).map CalDelta.vpix) r)) _ _ :=
      (h1.bind (h2.bind (sync_emits _ (s1.bind (sync_emits _ (sync_ret N _)))))).congr (fun _ _ => rfl)
        (fun _ _ => rfl) (fun r _ => rfl)
    rw [main_ok (hs.bind h3)]
    congr 1
    refine List.map_congr_left fun r _ => ?_
    by_cases h0 : r = 0
    · subst h0
      simp [Saver.init, Saver.write, Saver.close, hf, calibFile, hcenter]
    · simp [Saver.init, Saver.write, Saver.close, h0]

/-- **C112.** With fewer delta files than ranks no run finishes: whatever the list of targets, the catalog and the files
hold, no rank ends without an exception, and no rank writes a stack or closes a file. -/
theorem C112_few_files (C : CalibCfg K) (c : CalibCodecs K C.nsub C.var V) (hc : GoodBins C.var) (called : W)
    (ev : SaverEv (CalHdu K) → W) (hev : Function.Injective ev) (hcalled : ∀ x, ev x ≠ called) {fname : String}
    (hf : fname ≠ "") (N : Nat) (inp : Nat → CalibIn K) (he1 : ∀ e, (inp 0).ids = .error e → e.isException = true)
    (he2 : ∀ e, (inp 0).cat = .error e → e.isException = true)
    (he3 : ∀ r f e, (inp r).read f = .error e → Unexpected e)
    {files : List String} (hg : (inp 0).glob = .ok files) (hn : files.length < N + 1)
    {job : Outcome (CalibOut K) × List (List W)}
    (hjob : job = runJob N (fun r => mainProg (C.run c called ev fname (inp r) (N + 1) r))) :
    (∀ rs, job.1 = .done rs → ∀ o, .ok o ∉ rs) ∧
    (∀ log ∈ job.2, (∀ g, ev (.close g) ∉ log) ∧ ∀ g a b, ev (.write g (.stack a b)) ∉ log) := by
  subst hjob
  have hlog : ∀ (j : Nat) (l : List (SaverEv (CalHdu K))), (∀ g, SaverEv.close g ∉ l) →
      (∀ g a b, SaverEv.write g (CalHdu.stack a b) ∉ l) →
      ∀ log ∈ (List.range (N + 1)).map (fun r => if r = 0 then List.replicate j called ++ l.map ev else []),
        (∀ g, ev (.close g) ∉ log) ∧ ∀ g a b, ev (.write g (.stack a b)) ∉ log := by
    intro j l h1 h2 log hl
    obtain ⟨r, -, rfl⟩ := List.mem_map.mp hl
    have hx : ∀ x, x ∉ l → ev x ∉ (if r = 0 then List.replicate j called ++ l.map ev else []) := by
      intro x hx h
      split at h
      · rcases List.mem_append.mp h with h | h
        · exact hcalled x (List.eq_of_mem_replicate h)
        · obtain ⟨y, hy, e⟩ := List.mem_map.mp h
          rw [hev e] at hy
          exact hx hy
      · cases h
    exact ⟨fun g => hx _ (h1 g), fun g a b => hx _ (h2 g a b)⟩
  have hexit : ∀ rs, Outcome.done (A := CalibOut K) (List.replicate (N + 1) (.error (.systemExit 1))) = .done rs →
      ∀ o, .ok o ∉ rs := by
    intro rs h o ho
    obtain rfl := Outcome.done.inj h
    cases List.eq_of_mem_replicate ho
  by_cases hroot : ∃ ids rows files, RootReads C (inp 0) ids rows files
  · obtain ⟨ids, rows, files', hroot⟩ := hroot
    have hfiles : files' = files := Except.ok.inj (hroot.glob.symm.trans hg)
    subst hfiles
    by_cases hread : ∃ r ≤ N, ∃ f ∈ fileShare files' (N + 1) r, ∀ l, (inp r).read f ≠ .ok l
    · obtain ⟨r, hr, f, hf1, hf2⟩ := hread
      have hj := C112_delta_input C c hc called ev fname N inp he3 hroot hr hf1 hf2
      refine ⟨fun rs h => ?_, ?_⟩
      · rw [hj] at h
        cases h
      · rw [hj]
        have := hlog (calibCalls C) [] (by simp) (by simp)
        simpa only [List.map_nil, List.append_nil] using this
    · push Not at hread
      choose! data hd using hread
      obtain ⟨used, hu, t, -, -, h1, h2, -⟩ := C112_outcomes C c hc called ev hf N hroot hd
      by_cases hF : FitFails C t
      · rw [h1 hF]
        refine ⟨hexit, ?_⟩
        have := hlog (calibCalls C) [] (by simp) (by simp)
        simpa only [List.map_nil, List.append_nil] using this
      · have h3 : ∃ r ≤ N, used r = [] := by
          refine ⟨N, le_rfl, ?_⟩
          rw [hu]
          unfold usedBy
          rw [share_few files' hn (by omega)]
          rfl
        rw [h2 hF h3]
        refine ⟨fun rs h => (by cases h), ?_⟩
        exact hlog (calibCalls C) _ (by simp [calibUnfinished]) (by simp [calibUnfinished])
  · obtain ⟨j, hj⟩ := C112_root_input C c called ev fname N inp he1 he2 (fun e h => by rw [hg] at h; cases h) hroot
    rw [hj]
    refine ⟨hexit, ?_⟩
    have := hlog j [] (by simp) (by simp)
    simpa only [List.map_nil, List.append_nil] using this

/-! ### Examples -/

/-- The program of `main` for the input `inp`. -/
def c112Main (C : CalibCfg ℚ) (c : CalibCodecs ℚ C.nsub C.var C105Msg) (inp : Nat → CalibIn ℚ) (size rank : Nat) :
    Prog C105Msg (Option (SaverEv (CalHdu ℚ))) (CalibOut ℚ) :=
  mainProg (C.run c none some "stats.fits" (inp rank) size rank)

/-- How a job ends: the statuses, or nothing if it is aborted. -/
def c112End : Outcome (CalibOut ℚ) → Option (List (Option Int))
  | .done l => some (l.map (fun
      | .ok _ => some 0
      | .error (.systemExit k) => some k
      | .error _ => none))
  | _ => none

/-- No columns of BALs. -/
def c112NoBal : CalibCfg ℚ := { c105Cfg with cols := ["TARGETID"] }

/-- No fit succeeds. -/
def c112NoFit : CalibCfg ℚ := { c105Cfg with curveFit := fun _ _ => none }

/-- Rank 1 cannot read its files. -/
def c112Bad (files : List String) (r : Nat) : CalibIn ℚ :=
  { c105In files with read := fun f => if r = 1 then .error .osError else .ok (c105Data f) }

theorem c112_root (files : List String) : RootReads c105Cfg (c105In files) [9]
    (some [⟨8, "main", [1], [2], [], []⟩, ⟨2, "main", [0], [2], [], []⟩]) files :=
  ⟨rfl, ⟨_, rfl, rfl⟩, fun _ _ => by decide, rfl⟩

/-- The hypotheses of `C112_root_input` and what happens. -/
example : (¬ ∃ ids rows files, RootReads c112NoBal (c105In ["b", "a"]) ids rows files) ∧
    c112End (runJob 1 (c112Main c112NoBal c105Codec (fun _ => c105In ["b", "a"]) 2)).1 = some [some 1, some 1] ∧
    (runJob 1 (c112Main c112NoBal c105Codec (fun _ => c105In ["b", "a"]) 2)).2.map c105File = [[], []] := by
  refine ⟨?_, by decide +kernel, by decide +kernel⟩
  rintro ⟨ids, rows, files, h⟩
  have := (h.bal rfl rfl).1
  revert this
  decide

/-- The hypotheses of `C112_delta_input` and what happens. -/
example : RootReads c105Cfg (c112Bad ["b", "a"] 0) [9]
      (some [⟨8, "main", [1], [2], [], []⟩, ⟨2, "main", [0], [2], [], []⟩]) ["b", "a"] ∧
    "a" ∈ fileShare ["b", "a"] 2 1 ∧ (∀ l, (c112Bad ["b", "a"] 1).read "a" ≠ .ok l) ∧
    (∀ r f e, (c112Bad ["b", "a"] r).read f = .error e → Unexpected e) ∧
    c112End (runJob 1 (c112Main c105Cfg c105Codec (c112Bad ["b", "a"]) 2)).1 = none ∧
    (runJob 1 (c112Main c105Cfg c105Codec (c112Bad ["b", "a"]) 2)).2.map c105File = [[], []] := by
  refine ⟨⟨rfl, ⟨_, rfl, rfl⟩, fun _ _ => by decide, rfl⟩, by decide, fun l h => (by cases h), ?_, by decide +kernel,
    by decide +kernel⟩
  intro r f e h
  unfold c112Bad at h
  dsimp only at h
  split at h
  · cases h
    exact ⟨rfl, by decide⟩
  · cases h

/-- `C112_outcomes`: the hypotheses; the fit fails; a rank has no delta to be used (target 9 is listed) although it has a file;
all ranks have one. The third file of the last case is read by no rank. -/
example : (∀ files, RootReads c105Cfg (c105In files) [9]
      (some [⟨8, "main", [1], [2], [], []⟩, ⟨2, "main", [0], [2], [], []⟩]) files ∧
      ∀ r ≤ 1, ∀ f ∈ fileShare files 2 r, (c105In files).read f = .ok (c105Data f)) ∧
    c112End (runJob 1 (c112Main c112NoFit c105Codec (fun _ => c105In ["b", "a"]) 2)).1 = some [some 1, some 1] ∧
    (runJob 1 (c112Main c112NoFit c105Codec (fun _ => c105In ["b", "a"]) 2)).2.map c105File = [[], []] ∧
    (let inp := fun _ => { c105In ["b", "a"] with ids := .ok [9, 1] }
     c112End (runJob 1 (c112Main { c105Cfg with minPix := 1, minQso := 1 } c105Codec inp 2)).1 = none ∧
     (runJob 1 (c112Main { c105Cfg with minPix := 1, minQso := 1 } c105Codec inp 2)).2.map c105File =
      [["create", "stats", "func"], []]) ∧
    c112End (runJob 1 (c112Main c105Cfg c105Codec (fun _ => c105In ["a", "b", "c"]) 2)).1 = some [some 0, some 0] ∧
    (runJob 1 (c112Main c105Cfg c105Codec (fun _ => c105In ["a", "b", "c"]) 2)).2.map c105File =
      [["create", "stats", "func", "stack", "close"], []] := by
  refine ⟨fun files => ⟨c112_root files, fun _ _ _ _ => rfl⟩, by decide +kernel, by decide +kernel,
    ⟨by decide +kernel, by decide +kernel⟩, by decide +kernel, by decide +kernel⟩

/-- `C112_few_files`: one file for two ranks. -/
example : Function.Injective (some : SaverEv (CalHdu ℚ) → Option (SaverEv (CalHdu ℚ))) ∧ ["c"].length < 1 + 1 ∧
    c112End (runJob 1 (c112Main c105Cfg c105Codec (fun _ => c105In ["c"]) 2)).1 = none ∧
    (runJob 1 (c112Main c105Cfg c105Codec (fun _ => c105In ["c"]) 2)).2.map c105File =
      [["create", "stats", "func"], []] := by
  refine ⟨Option.some_injective _, by decide, by decide +kernel, by decide +kernel⟩

end Verif.Props
