import Verif.Proofs.FitRun

/-!
# Failures stop all ranks (C65)
-/

namespace Verif.Props
open Verif.Model Verif.Model.Prog Verif.Spec Verif.Proofs

variable {Val S G U V W : Type} [LinearOrder Val]

/-- Which exceptions the stages may raise: what a rank does on its own raises no `QsonicException` and no `SystemExit`;
reading of files raises `Exception`s (`mpi_fnc_bcast` makes `QsonicException` of them). The global computations are
arbitrary. -/
structure MayRaise (F : RunFns Val S G U) : Prop where
  makedirs : ∀ r o e, F.makedirs r o = .error e → Unexpected e
  loc : ∀ st r o g u s e, F.loc st r o g u s = .error e → Unexpected e
  value : ∀ st r o g s e, F.value st r o g s = .error e → Unexpected e
  catalog : ∀ o e, F.catalog o = .error e → e.isException = true
  file : ∀ f r o e, F.file f r o = .error e → e.isException = true

section
variable {F : RunFns Val S G U} (hF : MayRaise F) (C : RunCodecs Val U V) (called : W) (o : FitOpts) (n : Nat)
include hF

theorem ends_loc (st : LocStage) (g : Nat → G) (u : Nat → Option U) (s : Nat → S) :
    Ends n Any (fun r => (F.local' o r st (g r) (u r) (s r) : Prog V W S)) :=
  (ends_local _ (fun r _ e h => hF.loc st r o _ _ _ e h)).mono (fun _ _ => trivial)

theorem ends_allred (st : ValStage) (g : Nat → G) (s : Nat → S) :
    Ends n (Same n) (fun r => (F.allred C o r st (g r) (s r) : Prog V W U)) := by
  refine (ends_local _ (fun r _ e h => hF.value st r o _ _ e h)).bind fun u _ => ?_
  refine .allreduce _ _ _ (fun _ _ => rfl) ?_
  exact ends_ret n _ (fun _ _ => rfl)

theorem ends_fileStage (opt : Bool) (f : FileStage) (st : LocStage) (g : Nat → G) (s : Nat → S) :
    Ends n Any (fun r => F.fileStage C called o r opt f st (g r) (s r)) := by
  unfold RunFns.fileStage
  cases opt with
  | false => exact ends_ret n _ trivial
  | true =>
    refine (ends_bcast n C.file called _ (hF.file f 0 o)).bind fun u _ => ?_
    exact ends_loc hF o n st g _ s

theorem ends_optStage (opt : Bool) (st : LocStage) (g : Nat → G) (s : Nat → S) :
    Ends n Any (fun r => (F.optStage o r opt st (g r) (s r) : Prog V W S)) := by
  unfold RunFns.optStage
  cases opt with
  | false => exact ends_ret n _ trivial
  | true => exact ends_loc hF o n st g _ s

theorem ends_blind (s : Nat → S) : Ends n Any (fun r => (F.blind C o r (s r) : Prog V W S)) := by
  unfold RunFns.blind
  cases o.mock with
  | true => exact ends_loc hF o n _ _ _ s
  | false =>
    exact (ends_allred hF C o n .lastNight _ s).bind fun u _ => ends_loc hF o n _ _ _ s

omit hF in
/-- `BALMask.check_catalog`: a rank without catalog aborts, the others agree. -/
theorem ends_bal (F : RunFns Val S G U) (o : FitOpts) (q : Nat → List (List (Row Val))) :
    Ends n Any (fun r => (ofExcept (F.balStage o (q r)) : Prog V W Unit)) := by
  unfold RunFns.balStage
  cases o.balMask with
  | false => exact (ends_uniform n (fun _ => .ok ()) (fun _ _ => rfl)).mono (fun _ _ => trivial)
  | true =>
    by_cases hq : ∃ r ≤ n, q r = []
    · obtain ⟨r, hr, h⟩ := hq
      exact .crash r hr .indexError ⟨rfl, by simp⟩ (by rw [h]; rfl)
    · push Not at hq
      refine Ends.mono (Q := Same n) ?_ (fun _ _ => trivial)
      have := ends_uniform (V := V) (W := W) n (fun _ => balCheckCatalog (F.cols o)) (fun _ _ => rfl)
      refine .emits (fun _ => []) (fun r hr => ?_) this
      cases hqr : q r with
      | nil => exact absurd hqr (hq r hr)
      | cons a l => rfl

theorem ends_masks (hsky : ∀ r ≤ n, (F.file .sky r o).isOk = (F.file .sky 0 o).isOk)
    (q : Nat → List (List (Row Val))) (s : Nat → S) :
    Ends n Any (fun r => F.readMasks C called o r (q r) (s r)) := by
  unfold RunFns.readMasks
  refine Ends.bind (Q := Any) ?_ fun s _ => (ends_bal n F o q).bind fun _ _ =>
    (ends_optStage hF o n _ _ _ s).bind fun s _ => ends_fileStage hF C called o n _ _ _ _ s
  unfold RunFns.skyStage
  cases o.skyMask with
  | false => exact ends_ret n _ trivial
  | true =>
    exact (ends_noComm n C.file called _ (fun r _ => hF.file .sky r o) hsky).bind fun u _ => ends_loc hF o n _ _ _ s

theorem ends_readSelect (g : Nat → G) (s : Nat → S) :
    Ends n Any (fun r => F.readSelect C called o r (g r) (s r)) := by
  unfold RunFns.readSelect
  refine (ends_loc hF o n _ _ _ s).bind fun s _ => ?_
  refine (ends_local _ (fun r _ e h => hF.value .numSpec r o _ _ e h)).bind fun u _ => ?_
  refine .reduce _ _ _ (fun _ _ => rfl) ?_
  exact (ends_fileStage hF C called o n _ _ _ _ s).bind fun s _ =>
    (ends_fileStage hF C called o n _ _ _ _ s).bind fun s _ => ends_loc hF o n _ _ _ s

theorem ends_fiducial (opt : Bool) (f : FileStage) :
    Ends n (Same n) (fun r => F.fiducial C called o r opt f) := by
  unfold RunFns.fiducial
  cases opt with
  | false => exact ends_ret n _ (fun _ _ => rfl)
  | true =>
    refine (ends_bcast n C.file called _ (hF.file f 0 o)).bind fun u hu => ?_
    exact ends_ret n (fun r => some (u r)) (fun r hr => congrArg some (hu r hr))

theorem ends_initFitter : Ends n (Same n) (fun r => F.initFitter C called o r) := by
  unfold RunFns.initFitter
  refine (ends_uniform n _ (fun _ _ => rfl)).bind fun g hg => ?_
  refine (ends_fiducial hF C called o n _ _).bind fun u hu => ?_
  refine (ends_uniform n _ (fun r hr => by rw [hg r hr, hu r hr])).bind fun g hg => ?_
  refine (ends_fiducial hF C called o n _ _).bind fun u hu => ?_
  refine (ends_uniform n _ (fun r hr => by rw [hg r hr, hu r hr])).bind fun g hg => ?_
  exact ends_ret n _ (fun r hr => by rw [hg r hr])

theorem ends_update (v : ValStage) (st : GlobStage) (g : Nat → G) (hg : Same n g) (s : Nat → S) :
    Ends n (Same n) (fun r => (F.update C o r v st (g r) (s r) : Prog V W (G × Bool))) := by
  unfold RunFns.update
  exact (ends_allred hF C o n v g s).bind fun u hu =>
    ends_uniform n _ (fun r hr => by rw [hg r hr, hu r hr])

theorem ends_varStage (opt : Bool) (g : Nat → G) (hg : Same n g) (s : Nat → S) :
    Ends n (Same n) (fun r => (F.varStage C o r opt (g r) (s r) : Prog V W G)) := by
  unfold RunFns.varStage
  cases opt with
  | false => exact ends_ret n _ hg
  | true =>
    exact (ends_update hF C o n _ _ g hg s).bind fun g hg => ends_ret n _ (fun r hr => by rw [hg r hr])

theorem ends_fitStage (g : Nat → G) (hg : Same n g) (s : Nat → S) :
    Ends n Any (fun r => (F.fitStage C o r (g r) (s r) : Prog V W S)) := by
  unfold RunFns.fitStage
  refine (ends_loc hF o n _ _ _ s).bind fun s _ => ?_
  refine (ends_allred hF C o n _ g s).bind fun u hu => ?_
  refine (ends_allred hF C o n _ g s).bind fun _ _ => ?_
  refine (ends_uniform n _ (fun r hr => by rw [hg r hr, hu r hr])).bind fun _ _ => ?_
  exact ends_ret n _ trivial

/-- The global functions are the same on all ranks. -/
def SameG (n : Nat) (x : Nat → G × S) : Prop := ∀ r ≤ n, (x r).1 = (x 0).1

theorem ends_loop (k : Nat) (g : Nat → G) (hg : Same n g) (s : Nat → S) :
    Ends n (SameG n) (fun r => (F.loop C o r k (g r) (s r) : Prog V W (G × S))) := by
  induction k generalizing g s with
  | zero => exact ends_ret n (fun r => (g r, s r)) hg
  | succ k ih =>
    refine (ends_loc hF o n .save g (fun _ => none) s).bind fun s _ => ?_
    refine (ends_fitStage hF C o n g hg s).bind fun s _ => ?_
    refine (ends_update hF C o n .stack .meanCont g hg s).bind fun m hm => ?_
    refine (ends_varStage hF C o n (!o.fidVarlss) (fun r => (m r).1) (fun r hr => congrArg Prod.fst (hm r hr)) s).bind
      fun g hg => ?_
    by_cases hc : (m 0).2 = true
    · refine .ret (fun r => (g r, s r)) (fun r hr => ?_) hg
      rw [hm r hr, if_pos hc]
    · refine .emits (fun _ => []) (fun r hr => ?_) (ih g hg s)
      rw [hm r hr, if_neg hc]
      rfl

theorem ends_finalStage (g : Nat → G) (hg : Same n g) (s : Nat → S) :
    Ends n (Same n) (fun r => (F.finalStage C o r (g r) (s r) : Prog V W G)) := by
  unfold RunFns.finalStage
  cases o.fidVarlss with
  | false => exact ends_ret n _ hg
  | true =>
    refine (ends_uniform n _ (fun r hr => by rw [hg r hr])).bind fun g hg => ?_
    refine (ends_update hF C o n _ _ _ (fun r hr => by rw [hg r hr]) s).bind fun g hg => ?_
    refine (ends_update hF C o n _ _ _ (fun r hr => by rw [hg r hr]) s).bind fun g hg => ?_
    exact ends_ret n _ (fun r hr => by rw [hg r hr])

theorem ends_iterate (g : Nat → G) (hg : Same n g) (s : Nat → S) :
    Ends n (SameG n) (fun r => (F.iterateF C o r (g r) (s r) : Prog V W (G × S))) := by
  unfold RunFns.iterateF
  refine (ends_loc hF o n _ _ _ s).bind fun s _ => ?_
  refine (ends_loc hF o n _ _ _ s).bind fun s _ => ?_
  refine (ends_loop hF C o n _ g hg s).bind fun x hx => ?_
  refine (ends_loc hF o n _ _ _ _).bind fun s _ => ?_
  refine (ends_loc hF o n _ _ _ s).bind fun s _ => ?_
  refine (ends_finalStage hF C o n (fun r => (x r).1) hx s).bind fun g hg => ?_
  refine (ends_loc hF o n _ _ _ s).bind fun s _ => ?_
  exact ends_ret n (fun r => (g r, s r)) hg

theorem ends_chi2 (g : Nat → G) (s : Nat → S) :
    Ends n Any (fun r => (F.chi2Stage C o r (g r) (s r) : Prog V W S)) := by
  unfold RunFns.chi2Stage
  by_cases h : o.outdir = ""
  · simp only [if_pos h]
    exact ends_ret n _ trivial
  · simp only [if_neg h]
    refine (ends_local _ (fun r _ e h => hF.value .chi2 r o _ _ e h)).bind fun u _ => ?_
    exact .gather _ _ (fun _ _ => rfl) (ends_loc hF o n _ _ _ s)

theorem ends_fitting (s : Nat → S) : Ends n Any (fun r => F.fitting C called o r (s r)) := by
  unfold RunFns.fitting
  refine (ends_initFitter hF C called o n).bind fun g hg => ?_
  refine (ends_iterate hF C o n g hg s).bind fun x _ => ?_
  refine (ends_fileStage hF C called o n _ _ _ _ _).bind fun s _ => ?_
  refine (ends_optStage hF o n _ _ _ s).bind fun s _ => ?_
  refine (ends_chi2 hF C o n _ s).bind fun s _ => ?_
  exact ends_ret n (fun r => ((x r).1, s r)) trivial

theorem ends_exposures (g : Nat → G) (s : Nat → S) :
    Ends n Any (fun r => F.exposures C called o r (g r) (s r)) := by
  unfold RunFns.exposures
  cases o.exposuresAfter with
  | false => exact ends_ret n _ trivial
  | true =>
    refine (ends_loc hF o n _ _ _ s).bind fun s _ => ?_
    exact (ends_readSelect hF C called o n g s).bind fun s _ => ends_loc hF o n _ _ _ s

theorem ends_runOpts (hsky : ∀ r ≤ n, (F.file .sky r o).isOk = (F.file .sky 0 o).isOk) :
    Ends n Any (fun r => F.runOpts C called o r (n + 1)) := by
  unfold RunFns.runOpts
  refine (ends_local _ (fun r _ e h => hF.makedirs r o e h)).bind fun _ _ => ?_
  refine (ends_queue n C.status C.queue (F.catalog o) o.tile (hF.catalog o)).bind fun q _ => ?_
  refine (ends_blind hF C o n _).bind fun s _ => ?_
  refine (ends_masks hF C called o n hsky q s).bind fun s _ => ?_
  refine (ends_readSelect hF C called o n _ s).bind fun s _ => ?_
  refine (ends_optStage hF o n _ _ _ s).bind fun s _ => ?_
  refine (ends_fitting hF C called o n s).bind fun x _ => ?_
  refine (ends_exposures hF C called o n _ _).bind fun s _ => ?_
  refine (ends_loc hF o n _ _ _ s).bind fun s _ => ?_
  refine (ends_loc hF o n _ _ _ s).bind fun s _ => ?_
  exact ends_ret n _ trivial

end

/-- **C65**, the part that holds. Full claim: whatever stage fails on whatever ranks, `qsonic-fit` ends on all of them.
Proved for all numbers of processes, options, and failures: all ranks finish, or all exit with one status, or the job is
aborted, if reading the sky mask, which every rank does on its own, fails on all ranks or on none. Missing: otherwise the
job hangs (`C65_sky_mask_refuted`). -/
theorem C65_partial {F : RunFns Val S G U} (hF : MayRaise F) (C : RunCodecs Val U V) (called : W) (n : Nat)
    (parse : Except Err FitOpts) (logic : FitOpts → Except Err (Bool × FitOpts))
    (hp : parse ≠ .error .qsonic) (hl : ∀ o, logic o ≠ .error .qsonic)
    (hsky : ∀ o, ∀ r ≤ n, (F.file .sky r o).isOk = (F.file .sky 0 o).isOk) :
    CleanEnd n (runJob n (fun r => mainProg (F.runAll C called r parse logic (n + 1)))).1 := by
  refine Ends.clean (Q := Any) ?_
  unfold RunFns.runAll
  refine (ends_parse n C.opts parse logic hp hl).bind fun o ho => ?_
  refine .emits (fun _ => []) (fun r hr => ?_) (ends_runOpts hF C called (o 0) n (hsky (o 0)))
  rw [ho r hr]
  rfl

/-- Options with a sky mask. -/
def skyOpts : FitOpts :=
  { outdir := "", mock := true, tile := false, skyMask := true, balMask := false, dlaMask := false, noiseCal := false,
    fluxCal := false, addVarlss := false, smoothing := false, fidMeanflux := false, fidVarlss := false, niter := 2,
    coaddAfter := false, exposuresAfter := false }

/-- Values exchanged: one component for each kind. -/
abbrev RunVal := Option FitOpts × Bool × List (List (Row Nat)) × Option Nat × Nat

/-- The serialisations into the components. -/
def runCodecs : RunCodecs Nat Nat RunVal where
  opts := ⟨fun x => (x, false, [], none, 0), fun v => v.1, fun _ => rfl⟩
  status := ⟨fun x => (none, x, [], none, 0), fun v => v.2.1, fun _ => rfl⟩
  queue := ⟨fun x => (none, false, x, none, 0), fun v => v.2.2.1, fun _ => rfl⟩
  file := ⟨fun x => (none, false, [], x, 0), fun v => v.2.2.2.1, fun _ => rfl⟩
  val := ⟨fun x => (none, false, [], none, x), fun v => v.2.2.2.2, fun _ => rfl⟩

/-- A run with three quasars in which the ranks in `sky` cannot read the sky mask and those in `fit` fail in the fit. -/
def skyRun (sky fit : List Nat) : RunFns Nat Unit Unit Nat where
  catalog := fun _ => .ok ⟨["TARGETID", "HPXPIXEL"], [fun c => if c = "TARGETID" then 1 else 7,
    fun c => if c = "TARGETID" then 2 else 8, fun c => if c = "TARGETID" then 3 else 8]⟩
  cols := fun _ => ["TARGETID", "HPXPIXEL"]
  makedirs := fun _ _ => .ok ()
  init := fun _ _ => ()
  g0 := ()
  loc := fun st r _ _ _ s => if st = .fit ∧ r ∈ fit then .error .valueError else .ok s
  file := fun f r _ => if f = .sky ∧ r ∈ sky then .error .osError else .ok 0
  value := fun _ _ _ _ _ => .ok 1
  combine := fun _ l => l.sum
  glob := fun _ _ g _ => .ok (g, false)

theorem skyRun_mayRaise (sky fit : List Nat) : MayRaise (skyRun sky fit) where
  makedirs := by intro r o e h; cases h
  loc := by
    intro st r o g u s e h
    change (if st = .fit ∧ r ∈ fit then _ else _) = _ at h
    split at h <;> cases h
    exact ⟨rfl, by simp⟩
  value := by intro st r o g s e h; cases h
  catalog := by intro o e h; cases h
  file := by
    intro f r o e h
    change (if f = .sky ∧ r ∈ sky then _ else _) = _ at h
    split at h <;> cases h
    rfl

/-- **C65** fails if a rank cannot read the sky mask and another can: that rank exits, the other waits for ever. -/
theorem C65_sky_mask_refuted : MayRaise (skyRun [1] []) ∧
    (runJob 1 (fun r => mainProg ((skyRun [1] []).runAll runCodecs () r (.ok skyOpts) (fun o => .ok (true, o)) 2))).1 =
      .deadlock := ⟨skyRun_mayRaise _ _, by decide +kernel⟩

/-- A rank that fails in the fit: the job is aborted. Without failures it ends. Both ranks fail to read the mask: both
exit. -/
example :
    (runJob 1 (fun r => mainProg ((skyRun [] [1]).runAll runCodecs () r (.ok skyOpts) (fun o => .ok (true, o)) 2))).1 =
      .aborted ∧
    (runJob 1 (fun r => mainProg ((skyRun [] []).runAll runCodecs () r (.ok skyOpts) (fun o => .ok (true, o)) 2))).1 =
      .done [.ok (), .ok ()] ∧
    (runJob 1 (fun r => mainProg ((skyRun [0, 1] []).runAll runCodecs () r (.ok skyOpts)
      (fun o => .ok (true, o)) 2))).1 = .done [.error (.systemExit 1), .error (.systemExit 1)] := by
  decide +kernel

example : CleanEnd 3 (runJob 3 (fun r => mainProg ((skyRun [] [2, 3]).runAll runCodecs () r (.ok skyOpts)
    (fun o => .ok (true, o)) 4))).1 :=
  C65_partial (skyRun_mayRaise _ _) _ _ _ _ _ (by simp) (by simp) (fun _ _ _ => rfl)

end Verif.Props
