import Verif.Proofs.FitRun
import Verif.Proofs.CalibEnds
import Verif.Model.CalibRun

/-!
# Failures of `qsonic-calib` stop all ranks (C71)
-/

namespace Verif.Props
open Verif.Model Verif.Model.Prog Verif.Spec Verif.Proofs

variable {S U V W : Type}

section
variable {F : CalibFns S U} (cf : Codec (Option U) V) (cv : Codec U V) (called : W) (o : CalibOpts) (n : Nat)

theorem calib_optFile (opt : Bool) (f : CalibFile) (h : ∀ e, F.file f 0 o = .error e → e.isException = true) :
    Ends n (Same n) (fun r => F.optFile cf called o r opt f) := by
  unfold CalibFns.optFile
  cases opt with
  | false => exact ends_ret n _ (fun _ _ => rfl)
  | true =>
    refine (ends_bcast n cf called _ h).bind fun u hu => ?_
    exact ends_ret n (fun r => [u r]) (fun r hr => congrArg (fun x => [x]) (hu r hr))

theorem calib_allred (st : CalibVal) (s : Nat → S)
    (h : ∀ r s e, F.value st r o s = .error e → Unexpected e) :
    Ends n (Same n) (fun r => (F.allred cv o r st (s r) : Prog V W U)) := by
  refine (ends_local _ (fun r _ e he => h r _ e he)).bind fun u _ => ?_
  refine .allreduce _ _ _ (fun _ _ => rfl) ?_
  exact ends_ret n _ (fun _ _ => rfl)

end

/-- **C71.** Whatever stage of `qsonic-calib` fails on whatever ranks, the job ends: all ranks finish, or all exit with one
status, or the job is aborted; for all numbers of processes and options. What a rank does on its own raises no
`QsonicException`; reading of files raises `Exception`s; the global computations are arbitrary. -/
theorem C71_clean_end (F : CalibFns S U) (co : Codec (Option CalibOpts) V) (cf : Codec (Option U) V) (cv : Codec U V)
    (called : W) (n : Nat) (parse : Except Err CalibOpts) (hp : parse ≠ .error .qsonic)
    (hloc : ∀ st r o u s e, F.loc st r o u s = .error e → Unexpected e)
    (hval : ∀ st r o s e, F.value st r o s = .error e → Unexpected e)
    (hfile : ∀ f o e, F.file f 0 o = .error e → e.isException = true) :
    CleanEnd n (runJob n (fun r => mainProg (F.runAll cf cv called r co parse))).1 := by
  refine Ends.clean (Q := Any) ?_
  unfold CalibFns.runAll
  refine (ends_parse n co parse _ hp (fun o h => by cases h)).bind fun o' ho => ?_
  have main : ∀ o, Ends n Any (fun r => F.runOpts cf cv called o r) := by
    intro o
    unfold CalibFns.runOpts
    refine (ends_local _ (fun r _ e h => hloc _ _ _ _ _ e h)).bind fun s _ => ?_
    refine (ends_uniform n _ (fun _ _ => rfl)).bind fun _ _ => ?_
    refine (calib_optFile cf called o n _ _ (hfile _ o)).bind fun ids hi => ?_
    refine (calib_optFile cf called o n _ _ (hfile _ o)).bind fun cat hc => ?_
    refine (ends_uniform n _ (fun r hr => by rw [hi r hr, hc r hr])).bind fun rem hrem => ?_
    refine (calib_optFile cf called o n _ _ (hfile _ o)).bind fun fs _ => ?_
    refine (ends_local _ (fun r _ e h => hloc _ _ _ _ _ e h)).bind fun s _ => ?_
    refine (calib_allred cv o n _ s (fun r s e h => hval _ r o s e h)).bind fun q hq => ?_
    refine (ends_uniform n _ (fun r hr => by rw [hq r hr])).bind fun fit _ => ?_
    refine (ends_local _ (fun r _ e h => hloc _ _ _ _ _ e h)).bind fun s _ => ?_
    refine (calib_allred cv o n _ s (fun r s e h => hval _ r o s e h)).bind fun fl _ => ?_
    refine (calib_allred cv o n _ s (fun r s e h => hval _ r o s e h)).bind fun we _ => ?_
    refine (ends_local _ (fun r _ e h => hloc _ _ _ _ _ e h)).bind fun s _ => ?_
    exact ends_ret n _ trivial
  refine .emits (fun _ => []) (fun r hr => ?_) (main (o' 0))
  rw [ho r hr]
  rfl

/-! ### A file that cannot be read -/

theorem sync_optFile (F : CalibFns S U) (cf : Codec (Option U) V) (called : W) (o : CalibOpts) (n : Nat) (opt : Bool)
    (f : CalibFile) (hf : ∀ e, F.file f 0 o = .error e → e.isException = true) :
    (∃ M, Sync n (fun r => F.optFile cf called o r opt f) (fun _ => .error .qsonic) M) ∨
    ((opt = true → ∀ e, F.file f 0 o ≠ .error e) ∧
      ∃ u M, Sync n (fun r => F.optFile cf called o r opt f) (fun _ => .ok u) M) := by
  unfold CalibFns.optFile
  cases opt with
  | false => exact .inr ⟨nofun, [], _, sync_ret n _⟩
  | true =>
    simp only [if_true]
    cases hx : F.file f 0 o with
    | error e =>
      exact .inl ⟨_, (sync_fncBcast_error n cf called (fun r => F.file f r o) hx (hf e hx)).bind_error _⟩
    | ok u =>
      exact .inr ⟨fun _ e => nofun, [u], _, (sync_fncBcast n cf called (fun r => F.file f r o) hx).bind (sync_ret n _)⟩

/-- **C71**, a file that cannot be read: the target ids to remove or the catalog, if asked for, or the delta files, which are
always needed. All ranks exit with status one. -/
theorem C71_missing_file (F : CalibFns S U) (co : Codec (Option CalibOpts) V) (cf : Codec (Option U) V) (cv : Codec U V)
    (called : W) (n : Nat) (o : CalibOpts)
    (hmk : ∀ r ≤ n, ∃ s, F.loc .makedirs r o [] (F.s0 r) = .ok s) (hfit : ∃ u, F.glob .fitter o [] = .ok u)
    (hrem : ∀ u e, F.glob .remove o u = .error e → e = .qsonic)
    (hfile : ∀ f e, F.file f 0 o = .error e → e.isException = true)
    (h : (o.removeList = true ∧ ∃ e, F.file .targetids 0 o = .error e) ∨
      (o.catalog = true ∧ ∃ e, F.file .catalog 0 o = .error e) ∨ ∃ e, F.file .deltas 0 o = .error e) :
    (runJob n (fun r => mainProg (F.runAll cf cv called r co (.ok o)))).1 =
      .done (List.replicate (n + 1) (.error (.systemExit 1))) := by
  have : Nonempty S := ⟨F.s0 0⟩
  choose! s hs using hmk
  obtain ⟨u0, hu0⟩ := hfit
  suffices key : ∃ M, Sync n (fun r => F.runAll cf cv called r co (.ok o)) (fun _ => .error .qsonic) M by
    obtain ⟨M, hM⟩ := key
    rw [main_exit hM]
  have hopts : ∃ M, Sync n (fun r => F.runOpts cf cv called o r) (fun _ => .error .qsonic) M := by
    unfold CalibFns.runOpts
    suffices k : ∃ M, Sync n (fun r => (F.optFile cf called o r o.removeList .targetids).bind fun ids =>
        (F.optFile cf called o r o.catalog .catalog).bind fun cat =>
        (ofExcept (F.glob .remove o (ids ++ cat))).bind fun remove =>
        (F.optFile cf called o r true .deltas).bind fun files =>
        (ofExcept (F.loc .read r o (remove :: files) (s r))).bind fun s =>
        (F.allred cv o r .variance s).bind fun q =>
        (ofExcept (F.glob .fit o [q])).bind fun fit =>
        (ofExcept (F.loc .writeVar r o [fit] s)).bind fun s =>
        (F.allred cv o r .stack s).bind fun flux =>
        (F.allred cv o r .weights s).bind fun weights =>
        (ofExcept (F.loc .writeStack r o [flux, weights] s)).bind fun _ => (.ret () : Prog V W Unit))
        (fun _ => .error .qsonic) M by
      obtain ⟨M, hM⟩ := k
      refine ⟨M, hM.congr (fun r hr => ?_) (fun _ _ => rfl) (fun _ _ => rfl)⟩
      rw [hs r hr, hu0]
      rfl
    rcases sync_optFile F cf called o n o.removeList .targetids (hfile _) with ⟨M, h1⟩ | ⟨g1, ids, M1, h1⟩
    · exact ⟨_, h1.bind_error _⟩
    suffices k : ∃ M, Sync n (fun r =>
        (F.optFile cf called o r o.catalog .catalog).bind fun cat =>
        (ofExcept (F.glob .remove o (ids ++ cat))).bind fun remove =>
        (F.optFile cf called o r true .deltas).bind fun files =>
        (ofExcept (F.loc .read r o (remove :: files) (s r))).bind fun s =>
        (F.allred cv o r .variance s).bind fun q =>
        (ofExcept (F.glob .fit o [q])).bind fun fit =>
        (ofExcept (F.loc .writeVar r o [fit] s)).bind fun s =>
        (F.allred cv o r .stack s).bind fun flux =>
        (F.allred cv o r .weights s).bind fun weights =>
        (ofExcept (F.loc .writeStack r o [flux, weights] s)).bind fun _ => (.ret () : Prog V W Unit))
        (fun _ => .error .qsonic) M by
      obtain ⟨M, hM⟩ := k
      exact ⟨_, h1.bind hM⟩
    rcases sync_optFile F cf called o n o.catalog .catalog (hfile _) with ⟨M, h2⟩ | ⟨g2, cat, M2, h2⟩
    · exact ⟨_, h2.bind_error _⟩
    suffices k : ∃ M, Sync n (fun r =>
        (ofExcept (F.glob .remove o (ids ++ cat))).bind fun remove =>
        (F.optFile cf called o r true .deltas).bind fun files =>
        (ofExcept (F.loc .read r o (remove :: files) (s r))).bind fun s =>
        (F.allred cv o r .variance s).bind fun q =>
        (ofExcept (F.glob .fit o [q])).bind fun fit =>
        (ofExcept (F.loc .writeVar r o [fit] s)).bind fun s =>
        (F.allred cv o r .stack s).bind fun flux =>
        (F.allred cv o r .weights s).bind fun weights =>
        (ofExcept (F.loc .writeStack r o [flux, weights] s)).bind fun _ => (.ret () : Prog V W Unit))
        (fun _ => .error .qsonic) M by
      obtain ⟨M, hM⟩ := k
      exact ⟨_, h2.bind hM⟩
    cases hr : F.glob .remove o (ids ++ cat) with
    | error e =>
      cases hrem _ e hr
      exact ⟨_, (sync_raise n _).bind_error _⟩
    | ok remove =>
      rcases sync_optFile F cf called o n true .deltas (hfile _) with ⟨M, h3⟩ | ⟨g3, -, -, -⟩
      · exact ⟨_, h3.bind_error _⟩
      · rcases h with ⟨hb, e, he⟩ | ⟨hb, e, he⟩ | ⟨e, he⟩
        · exact absurd he (g1 hb e)
        · exact absurd he (g2 hb e)
        · exact absurd he (g3 rfl e)
  obtain ⟨M, hM⟩ := hopts
  have hb := sync_bcast (n := n) (W := W) (fun r => co.enc (if r = 0 then some o else none))
    (k := fun _ v => (orRaise (.systemExit 0) (co.dec v) : Prog V W CalibOpts)) (x := fun _ => .ok o) (M := fun _ => [])
    (by
      simp only [if_true, co.dec_enc]
      exact sync_ret n _)
  have hp : Sync n (fun r => (mpiParse co (.ok o) (fun o => .ok (true, o)) r : Prog V W CalibOpts)) (fun _ => .ok o)
      (fun _ => []) := by
    refine hb.congr (fun r _ => ?_) (fun _ _ => rfl) (fun _ _ => rfl)
    by_cases h0 : r = 0
    · subst h0; rfl
    · simp [mpiParse, h0]
  exact ⟨_, hp.bind hM⟩

/-- Rank 2 has no deltas, so that the stack of fluxes fails. -/
def calRun (bad : List Nat) : CalibFns Unit Nat where
  s0 := fun _ => ()
  loc := fun _ _ _ _ s => .ok s
  file := fun _ _ _ => .ok 5
  value := fun st r _ _ => if st = .stack ∧ r ∈ bad then .error .indexError else .ok 1
  combine := fun l => l.sum
  glob := fun _ _ _ => .ok 0

/-- Values exchanged. -/
abbrev CalVal := Option CalibOpts × Option Nat × Nat

example :
    let co : Codec (Option CalibOpts) CalVal := ⟨fun x => (x, none, 0), fun v => v.1, fun _ => rfl⟩
    let cf : Codec (Option Nat) CalVal := ⟨fun x => (none, x, 0), fun v => v.2.1, fun _ => rfl⟩
    let cv : Codec Nat CalVal := ⟨fun x => (none, none, x), fun v => v.2.2, fun _ => rfl⟩
    (∀ st r o u s e, (calRun [2]).loc st r o u s = .error e → Unexpected e) ∧
    (∀ st r o s e, (calRun [2]).value st r o s = .error e → Unexpected e) ∧
    (∀ f o e, (calRun [2]).file f 0 o = .error e → e.isException = true) ∧
    (runJob 2 (fun r => mainProg ((calRun [2]).runAll cf cv () r co (.ok ⟨true, true⟩)))).1 = .aborted ∧
    (runJob 2 (fun r => mainProg ((calRun []).runAll cf cv () r co (.ok ⟨true, true⟩)))).1 =
      .done [.ok (), .ok (), .ok ()] := by
  refine ⟨?_, ?_, ?_, by decide +kernel, by decide +kernel⟩
  · intro st r o u s e h; cases h
  · intro st r o s e h
    change (if st = .stack ∧ r ∈ [2] then _ else _) = _ at h
    split at h <;> cases h
    exact ⟨rfl, by simp⟩
  · intro f o e h; cases h

/-- The same, and the delta files cannot be found. -/
def calRunNone : CalibFns Unit Nat where
  __ := calRun []
  file := fun f _ _ => if f = .deltas then .error .osError else .ok 5

example :
    let co : Codec (Option CalibOpts) CalVal := ⟨fun x => (x, none, 0), fun v => v.1, fun _ => rfl⟩
    let cf : Codec (Option Nat) CalVal := ⟨fun x => (none, x, 0), fun v => v.2.1, fun _ => rfl⟩
    let cv : Codec Nat CalVal := ⟨fun x => (none, none, x), fun v => v.2.2, fun _ => rfl⟩
    (runJob 2 (fun r => mainProg (calRunNone.runAll cf cv () r co (.ok ⟨false, false⟩)))).1 =
      .done [.error (.systemExit 1), .error (.systemExit 1), .error (.systemExit 1)] := by
  intro co cf cv
  refine C71_missing_file calRunNone co cf cv () 2 ⟨false, false⟩ (fun r _ => ⟨(), rfl⟩) ⟨0, rfl⟩ (fun u e h => by cases h)
    (fun f e h => ?_) (.inr (.inr ⟨.osError, rfl⟩))
  change (if f = .deltas then _ else _) = _ at h
  split at h <;> cases h
  rfl

end Verif.Props
