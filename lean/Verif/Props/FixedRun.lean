import Verif.Proofs.FixedRun
import Verif.Props.Restart

/-!
# C118: with continua that are not fitted every quasar stands alone

`mpi_run_all` (py/qsonic/scripts/qsonic_fit.py:452-502) with `--input-continuum-dir` or `--continuum-model true`. The model is
in `Verif.Model.FixedRun`.
-/

namespace Verif.Props
open Verif Verif.Np Verif.Model Verif.Model.Prog Verif.Spec Verif.Proofs Verif.Model.Spectrum

section
variable {Val K : Type} [LinearOrder Val] [Field K] [LinearOrder K] [IsStrictOrderedRing K] [FloorRing K]

/-- **C118**. With `--fiducial-varlss` and without the normalization by the stacked flux, what becomes of a spectrum is a
function of this spectrum, of the continuum given for it and of the options: the same for all catalogs, numbers of
processes, neighbours and numbers of iterations. The continuum of a delta is in every arm the spline through the
continuum given for its own target, times the mean flux; a quasar without a given continuum gives no delta, one with a
spline that is positive everywhere does. The job gives exactly the valid ones of the spectra that pass the cuts, each
treated by itself; it fails, with `QsonicException` on all ranks, exactly if there is none, or if columns for the mask
of BALs are missing. -/
theorem C118_alone_partial (C : FixedCfg Val K) {dw dr : K} (hC : PlainRun C.run dw dr)
    (hA : ∀ k, IsArgsort k (C.run.argsort k)) (hs : SourceOk C.source) (hf : C.fitVar = false)
    (hno : C.run.fit.normalize = false) (g0 : FullState K) :
    ∃ alone : ReadSpec K → ReadSpec K, (∀ x, (alone x).row = x.row) ∧
    (∀ x, ReadOk x → (C.run.sel.coaddBefore = true → CoaddReady C.run.sel x.spec) → PassesCuts C.run.sel x →
      ((alone x).spec.valid = true → ∃ d, GivenContinuum C.source x.row.targetid d ∧
        ∀ arm w, (alone x).spec.fwave.lookup arm = some w →
          (alone x).spec.cont.lookup arm = some (w.map (fun v =>
            dataInterp C.run.fit.junk d (contWave C.source x.spec.z v) * C.run.fit.meanflux v)) ∧
          ((∀ t, C.source ≠ .truth t) → ∀ v ∈ w, 0 < dataInterp C.run.fit.junk d (contWave C.source x.spec.z v))) ∧
      (∀ d, GivenContinuum C.source x.row.targetid d →
        ((∃ t, C.source = .truth t) ∨ ∀ v, 0 < dataInterp C.run.fit.junk d v) → (alone x).spec.valid = true)) ∧
    ∀ {Q D V : Type} (c : Catalog Val) (f : Val → List (ReadSpec K)), ReadsPixels C.run c f →
    ∀ (P : FitterFns (FullState K) (Spectrum K) (StackSums K) Q D) (cs : Codec Bool V)
    (cq : Codec (List (List (Row Val))) V) (cn : Codec Val V) (fc : FitterCodecs (StackSums K) Q V)
    (ang2pix : Nat → Val → Val → Val) (file : Except Err (Catalog Val)) (isMock : Bool)
    (ks : Option (List Val)) (zmin zmax : Val), readQuasarCatalog ang2pix file isMock C.run.tile ks zmin zmax = .ok c →
    ∀ n : Nat, FixedIdleOk C c f (n + 1) → ∀ (fname : String) (m : Nat), 0 < m →
    let all := ((((catPixels C.run.tile c).flatMap f).filter (fun x => decide (PassesCuts C.run.sel x))).map alone).filter
      (fun x => x.spec.valid)
    let job := (runJob n (fun r => ({ C with run := { C.run with niter := m } } : FixedCfg Val K).runAll
      P cs cq cn fc (.ok c) fname g0 (n + 1) r)).1
    ((C.run.sel.bal = true ∧ balCheckCatalog C.run.cols ≠ .ok ()) ∨ all = [] →
      job = .done (List.replicate (n + 1) (.error .qsonic))) ∧
    (¬ (C.run.sel.bal = true ∧ balCheckCatalog C.run.cols ≠ .ok ()) → all ≠ [] →
      ∃ outs : List (WholeOut Val K), job = .done (outs.map .ok) ∧ outs.length = n + 1 ∧
        (outs.flatMap (·.deltas)).Perm all) := by
  refine ⟨aloneFixed C g0 g0, fun x => prepOne_row C.run _ x, fun x h1 h2 h3 => alone_cont C hC hs hno g0 g0 h1 h2 h3, ?_⟩
  intro Q D V c f hr P cs cq cn fc ang2pix file isMock ks zmin zmax h n hidle fname m hm all job
  obtain ⟨a1, a2⟩ := fixed_run ({ C with run := { C.run with niter := m } } : FixedCfg Val K)
    ⟨hC.1, hC.2, hC.3, hC.4, hC.5, hC.6, hC.7⟩ ⟨hr.1, hr.2, hr.3, hr.4⟩ hA hs hm P cs cq cn fc h n hidle fname g0
  refine ⟨fun hb => ?_, fun hb hne => ?_⟩
  · obtain ⟨M, s1⟩ := a1 (hb.imp id fun he x hx => by
      by_contra hv
      have : aloneFixed C g0 g0 x ∈ all := List.mem_filter.mpr ⟨List.mem_map.mpr ⟨x, hx, rfl⟩, eq_true_of_ne_false hv⟩
      rw [he] at this
      cases this)
    refine (congrArg Prod.fst s1.job).trans ?_
    simp [List.map_const']
  · obtain ⟨o, M, g1, g2, k, s1, -, -, -, hperm, hg⟩ := a2 hb (by
      obtain ⟨y, hy⟩ := List.exists_mem_of_ne_nil _ hne
      obtain ⟨hy, hv⟩ := List.mem_filter.mp hy
      obtain ⟨x, hx, rfl⟩ := List.mem_map.mp hy
      exact ⟨x, hx, hv⟩)
    refine ⟨(List.range (n + 1)).map o, (congrArg Prod.fst s1.job).trans ?_, by simp, ?_⟩
    · dsimp only
      rw [List.map_map]
      rfl
    · rw [List.flatMap_map]
      refine hperm.trans (List.Perm.of_eq (congrArg _ (List.map_congr_left fun x _ => ?_)))
      obtain ⟨e1, e2⟩ := hg hf
      unfold aloneFixed fixedOne
      refine congrArg (fun s : Spectrum K => ({ prepOne C.run [x.row.targetid] x with
        spec := s.dropShortArms C.run.sel.forestW1 C.run.sel.forestW2 C.run.sel.skip } : ReadSpec K)) ?_
      change fixedEnd C g1 g2 (prepOne C.run [x.row.targetid] x) = fixedEnd C g0 g0 (prepOne C.run [x.row.targetid] x)
      unfold fixedEnd
      rw [hno, fixed_same C e1, e2.2]
      rfl

/-- Whether or not the variance is fitted and the deltas are normalized: which quasars give a delta is a matter of
each quasar alone. -/
theorem C118_targets_partial (C : FixedCfg Val K) {dw dr : K} (hC : PlainRun C.run dw dr)
    (hA : ∀ k, IsArgsort k (C.run.argsort k)) (hs : SourceOk C.source) :
    ∃ good : ReadSpec K → Bool, ∀ (g0 : FullState K)
    {Q D V : Type} (c : Catalog Val) (f : Val → List (ReadSpec K)), ReadsPixels C.run c f →
    ∀ (P : FitterFns (FullState K) (Spectrum K) (StackSums K) Q D) (cs : Codec Bool V)
    (cq : Codec (List (List (Row Val))) V) (cn : Codec Val V) (fc : FitterCodecs (StackSums K) Q V)
    (ang2pix : Nat → Val → Val → Val) (file : Except Err (Catalog Val)) (isMock : Bool)
    (ks : Option (List Val)) (zmin zmax : Val), readQuasarCatalog ang2pix file isMock C.run.tile ks zmin zmax = .ok c →
    ∀ n : Nat, FixedIdleOk C c f (n + 1) → ∀ (fname : String) (m : Nat), 0 < m → ∀ fitVar : Bool,
    let all := (((catPixels C.run.tile c).flatMap f).filter (fun x => decide (PassesCuts C.run.sel x))).filter good
    let job := (runJob n (fun r => ({ C with run := { C.run with niter := m }, fitVar := fitVar } : FixedCfg Val K).runAll
      P cs cq cn fc (.ok c) fname g0 (n + 1) r)).1
    ((C.run.sel.bal = true ∧ balCheckCatalog C.run.cols ≠ .ok ()) ∨ all = [] →
      job = .done (List.replicate (n + 1) (.error .qsonic))) ∧
    (¬ (C.run.sel.bal = true ∧ balCheckCatalog C.run.cols ≠ .ok ()) → all ≠ [] →
      ∃ outs : List (WholeOut Val K), job = .done (outs.map .ok) ∧ outs.length = n + 1 ∧
        ((outs.flatMap (·.deltas)).map (fun x => x.row)).Perm (all.map (fun x => x.row))) := by
  refine ⟨fun x => (C.fitOne ⟨[], [], Stacker.new C.run.fit.obs C.run.fit.rf, fun _ => 0, fun _ => 0⟩
    (initOne C.source (prepOne C.run [x.row.targetid] x))).spec.valid, ?_⟩
  intro g0 Q D V c f hr P cs cq cn fc ang2pix file isMock ks zmin zmax h n hidle fname m hm fitVar all job
  set gz : FullState K := ⟨[], [], Stacker.new C.run.fit.obs C.run.fit.rf, fun _ => 0, fun _ => 0⟩ with hgz
  obtain ⟨a1, a2⟩ := fixed_run ({ C with run := { C.run with niter := m }, fitVar := fitVar } : FixedCfg Val K)
    ⟨hC.1, hC.2, hC.3, hC.4, hC.5, hC.6, hC.7⟩ ⟨hr.1, hr.2, hr.3, hr.4⟩ hA hs hm P cs cq cn fc h n hidle fname g0
  have hval : ∀ (g1 g2 : FullState K) (x : ReadSpec K),
      (aloneFixed ({ C with run := { C.run with niter := m }, fitVar := fitVar } : FixedCfg Val K) g1 g2 x).spec.valid =
      (C.fitOne gz (initOne C.source (prepOne C.run [x.row.targetid] x))).spec.valid := by
    intro g1 g2 x
    exact (fixedOne_valid _ g1 g2 _).trans (fixed_valid C g1 gz (initOne C.source (prepOne C.run [x.row.targetid] x)))
  refine ⟨fun hb => ?_, fun hb hne => ?_⟩
  · obtain ⟨M, s1⟩ := a1 (hb.imp id fun he x hx => by
      rw [hval]
      by_contra hv
      have : x ∈ all := List.mem_filter.mpr ⟨hx, by simpa using hv⟩
      rw [he] at this
      cases this)
    refine (congrArg Prod.fst s1.job).trans ?_
    simp [List.map_const']
  · obtain ⟨o, M, g1, g2, k, s1, -, -, -, hperm, -⟩ := a2 hb (by
      obtain ⟨x, hx⟩ := List.exists_mem_of_ne_nil _ hne
      obtain ⟨hx, hv⟩ := List.mem_filter.mp hx
      exact ⟨x, hx, (hval _ _ x).trans hv⟩)
    refine ⟨(List.range (n + 1)).map o, (congrArg Prod.fst s1.job).trans ?_, by simp, ?_⟩
    · dsimp only
      rw [List.map_map]
      rfl
    · rw [List.flatMap_map]
      refine (hperm.map _).trans (List.Perm.of_eq ?_)
      rw [List.filter_map, List.map_map]
      have e1 : ((fun x : ReadSpec K => x.spec.valid) ∘
          aloneFixed ({ C with run := { C.run with niter := m }, fitVar := fitVar } : FixedCfg Val K) g1 g2) =
          fun x => (C.fitOne gz (initOne C.source (prepOne C.run [x.row.targetid] x))).spec.valid := funext fun x => hval g1 g2 x
      rw [e1]
      exact List.map_congr_left fun x _ => prepOne_row C.run _ x

/-- **C118** is false for input continua if there are more processes than pixels: whatever the reader, the catalog and
the files of continua, `main` ends in `comm.Abort()`. A rank without spectra raises `ValueError` (`np.hstack` of an empty
list), also with mock data and without masks, where the run with fitted continua finishes. -/
theorem C118_idle_refuted {Q D V : Type} (C : FixedCfg Val K) {c : Catalog Val} {f : Val → List (ReadSpec K)} {dw dr : K}
    (hC : PlainRun C.run dw dr) (hr : ReadsPixels C.run c f)
    {hpx : Int → Int} {files : Int → Option (ContFile Int K)} {argsort : List (Lex (Int × Int)) → List Nat}
    (he : C.source = .input hpx files argsort)
    (P : FitterFns (FullState K) (Spectrum K) (StackSums K) Q D) (cs : Codec Bool V)
    (cq : Codec (List (List (Row Val))) V) (cn : Codec Val V) (fc : FitterCodecs (StackSums K) Q V)
    {ang2pix : Nat → Val → Val → Val} {file : Except Err (Catalog Val)} {isMock : Bool}
    {ks : Option (List Val)} {zmin zmax : Val}
    (h : readQuasarCatalog ang2pix file isMock C.run.tile ks zmin zmax = .ok c) (n : Nat)
    (hn : (catPixels C.run.tile c).length < n + 1) (fname : String) (g0 : FullState K) :
    (runJob n (fun r => mainProg (C.runAll P cs cq cn fc (.ok c) fname g0 (n + 1) r))).1 = .aborted := by
  obtain ⟨q, hq, hlen, -, hpix, -⟩ := queues_ok h n
  -- a rank without rows
  obtain ⟨r, hrn, hrq⟩ : ∃ r ≤ n, q.getD r [] = [] := by
    by_contra hno
    push Not at hno
    have hne : ∀ b ∈ q, 1 ≤ b.length := by
      intro b hb
      obtain ⟨i, hi, rfl⟩ := List.mem_iff_getElem.mp hb
      have := hno i (by omega)
      rw [List.getD_eq_getElem?_getD, List.getElem?_eq_getElem hi] at this
      exact List.length_pos_iff.mpr this
    have h1 : q.length ≤ q.flatten.length := by
      rw [List.length_flatten]
      have := List.card_nsmul_le_sum (q.map List.length) 1 (by
        intro x hx
        obtain ⟨b, hb, rfl⟩ := List.mem_map.mp hx
        exact hne b hb)
      simpa using this
    rw [hpix.length_eq, List.length_map] at h1
    omega
  have hs := sync_queue (W := SaverEv (String × D)) cs cq C.run.tile hq hlen
  rw [runJob_eq_runFam]
  unfold mainProg FixedCfg.runAll
  simp only [catch_eq_seqE]
  simp only [bind_eq_seqE (mpiGetLocalQueue _ _ _ _ _ _), seqE_assoc]
  rw [hs]
  refine runFam_abort n _ _ ⟨r, hrn, ?_⟩
  simp only [hrq, onOk]
  by_cases hm : C.run.mock = true
  · have hbl : (C.run.blinding cn [] : Prog V (SaverEv (String × D)) (Option Val)) = .ret none := if_pos hm
    rw [hbl]
    by_cases hidle : IdleOk C.run
    · have hprep : C.run.prepare [] = .ok [] := by
        rw [prepare_queue C.run hC hr (Q := []) (fun ch hch => nomatch hch) (.inl hidle), if_neg (by rw [hidle.2.1]; simp)]
        rfl
      have hinit : C.initSpectra [] = .error .valueError := by
        unfold FixedCfg.initSpectra
        rw [he]
        rfl
      have hfit : C.fitFixed P fc fname g0 none r [] = (.raise .valueError : Prog V (SaverEv (String × D)) (WholeOut Val K)) := by
        unfold FixedCfg.fitFixed
        rw [hinit]
        rfl
      rw [hprep]
      change (peel (Verif.Proofs.seqE (C.fitFixed P fc fname g0 none r []) _)).2 = _
      rw [hfit]
      change (peel (mainHandler Err.valueError)).2 = _
      rw [handler_abort ⟨rfl, by simp⟩]
      rfl
    · have hprep : ∃ e, Unexpected e ∧ C.run.prepare [] = .error e := by
        unfold WholeCfg.prepare WholeCfg.maskIds WholeCfg.balStep WholeCfg.dlaStep
        by_cases hb : C.run.sel.bal = true
        · exact ⟨.indexError, ⟨rfl, by simp⟩, by simp [hb, Bind.bind, Except.bind]⟩
        · have hd : C.run.sel.dla.isSome = true := by
            by_contra hd
            exact hidle ⟨hm, by simpa using hb, by simpa using hd⟩
          exact ⟨.valueError, ⟨rfl, by simp⟩, by simp [hb, hd, Bind.bind, Except.bind]⟩
      obtain ⟨e, he, hprep⟩ := hprep
      rw [hprep]
      change (peel (mainHandler e)).2 = _
      rw [handler_abort he]
      rfl
  · have hbl : (C.run.blinding cn [] : Prog V (SaverEv (String × D)) (Option Val)) = .raise .valueError := if_neg hm
    rw [hbl]
    rfl

end
/-! ### Concrete cases -/

/-- Input continua of the targets 20 and 30, and true continua. -/
def c118Input : ContSource ℚ := .input (fun t => if t = 30 then 4 else 5)
  (fun p => if p = 4 then some ⟨[99, 30], 1090, 10, [[1, 1, 1, 1, 1], [2, 3, 4, 5, 6]]⟩
    else if p = 5 then some ⟨[20], 1090, 10, [[7, 7, 7, 7, 7]]⟩ else none) argsortStable

def c118Truth : ContSource ℚ := .truth (fun t => (3290, 10, if t = 30 then [2, 3, 4, 5, 6] else [7, 7, 7, 7, 7]))

/-- Input continua without target 30. -/
def c118Missing : ContSource ℚ := .input (fun t => if t = 30 then 4 else 5)
  (fun p => if p = 5 then some ⟨[20], 1090, 10, [[7, 7, 7, 7, 7]]⟩ else none) argsortStable

/-- A run with `m` iterations. -/
def c118Cfg (source : ContSource ℚ) (m : Nat) : FixedCfg Nat ℚ where
  run := { c88Cfg true with niter := m, fit := { c86Cfg with normalize := false } }
  source := source
  fitVar := false

/-- The program of a rank. -/
def c118Run (source : ContSource ℚ) (m size rank : Nat) :
    Prog (StackSums ℚ × Nat × Bool × List (List (Row Nat))) (SaverEv (String × List ℚ)) (WholeOut Nat ℚ) :=
  (c118Cfg source m).runAll c86Var c88Codec.1 c88Codec.2.1 c88Codec.2.2.1 c88Codec.2.2.2 c88Cat "" c86Start size rank

/-- What is seen of a job: the number of iterations, and the targets with the continua. -/
def c118See : Outcome (WholeOut Nat ℚ) → Option (List (Nat × List (Int × List (String × List ℚ))))
  | .done l => l.mapM (fun
      | .ok o => some (o.iterations, o.deltas.map (fun x => (x.row.targetid, x.spec.cont)))
      | .error _ => none)
  | _ => none

set_option synthInstance.maxSize 4000 in
/-- Input continua on one process and on two: the same continua, which are those of the files. Without a continuum in
the files target 30 is left out. -/
example :
    c118See (runJob 0 (c118Run c118Input 4 1)).1 =
      some [(1, [(20, [("b", [7, 7, 7, 7, 7])]), (30, [("b", [3, 91 / 30, 46 / 15, 31 / 10, 47 / 15])])])] ∧
    c118See (runJob 1 (c118Run c118Input 4 2)).1 =
      some [(1, [(20, [("b", [7, 7, 7, 7, 7])])]), (1, [(30, [("b", [3, 91 / 30, 46 / 15, 31 / 10, 47 / 15])])])] ∧
    c118See (runJob 1 (c118Run c118Missing 4 2)).1 = some [(1, [(20, [("b", [7, 7, 7, 7, 7])])]), (1, [])] := by
  decide +kernel

set_option synthInstance.maxSize 4000 in
/-- On three processes with two pixels: true continua are taken, input continua end in `comm.Abort()`. -/
example :
    c118See (runJob 2 (c118Run c118Truth 4 3)).1 =
      some [(1, [(20, [("b", [7, 7, 7, 7, 7])])]), (1, [(30, [("b", [3, 31 / 10, 16 / 5, 33 / 10, 17 / 5])])]), (1, [])] ∧
    (match (runJob 2 (fun r => mainProg (c118Run c118Input 4 3 r))).1 with | .aborted => true | _ => false) = true := by
  decide +kernel

theorem c118_source : SourceOk c118Input ∧ SourceOk c118Truth := by
  refine ⟨⟨fun p F hF => ?_, fun k => argsortStable_isArgsort k⟩, trivial⟩
  dsimp only at hF
  split at hF
  · cases hF; rfl
  · split at hF
    · cases hF; rfl
    · cases hF

/-- The hypotheses. -/
example : ∃ (c : Catalog Nat) (f : Nat → List (ReadSpec ℚ)), PlainRun (c118Cfg c118Input 4).run 8 10 ∧
    ReadsPixels (c118Cfg c118Input 4).run c f ∧ (∀ k, IsArgsort k ((c118Cfg c118Input 4).run.argsort k)) ∧
    SourceOk c118Input ∧ SourceOk c118Truth ∧ (c118Cfg c118Input 4).fitVar = false ∧
    (c118Cfg c118Input 4).run.fit.normalize = false ∧
    readQuasarCatalog exPix (.ok exFile) false (c118Cfg c118Input 4).run.tile (some [1, 2]) 2 3 = .ok c ∧
    FixedIdleOk (c118Cfg c118Input 4) c f (1 + 1) ∧ FixedIdleOk (c118Cfg c118Truth 4) c f (2 + 1) ∧
    (catPixels (c118Cfg c118Input 4).run.tile c).length < 2 + 1 := by
  obtain ⟨c, h, hp⟩ := c88_cat
  have hr := c88_reads true h
  refine ⟨c, _, ⟨(c88_plain true).1, (c88_plain true).2, (c88_plain true).3, (c88_plain true).4, (c88_plain true).5,
    (c88_plain true).6, (c88_plain true).7⟩, ⟨hr.1, hr.2, hr.3, hr.4⟩, fun k => argsortStable_isArgsort k, c118_source.1,
    c118_source.2, rfl, rfl, h, ⟨?_, ?_⟩, .inl ⟨rfl, rfl, rfl⟩, ?_⟩
  · change 2 ≤ (catPixels false c).length
    rw [hp]
    decide
  · have key : ∃ d, c88Cat = .ok d ∧ ∀ p ∈ catPixels false d, ∃ x ∈ (catPixelRows false d p).map
        (fun r => c87Spec (r "TARGETID" : Nat) (if r "TARGETID" = 40 then 1 / 100 else 3)),
        PassesCuts (c88Cfg true).sel x := ⟨_, rfl, by decide +kernel⟩
    obtain ⟨d, e1, e2⟩ := key
    rw [h] at e1
    cases e1
    exact e2
  · change (catPixels false c).length < 3
    rw [hp]
    decide

end Verif.Props
