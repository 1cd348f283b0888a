import Verif.Model.MpiCalls
import Verif.Proofs.Mpi

/-!
# C04, C05, C07: functions that run on the root only

A job of `n + 1` processes is `runJob n prog`; the logs list the events per rank.
-/

namespace Verif.Props
open Verif.Model Verif.Model.Prog Verif.Proofs

/-- What every rank of `mpi_fnc_bcast` should end with, given the root's outcome. -/
def bcastResult {β : Type} : Except Err β → Except Err β
  | .ok x => .ok x
  | .error _ => .error .qsonic

/-- **C04.** With a communicator of any size: the job never deadlocks; every rank returns
the root's value, or every rank raises `QsonicException`; only the root calls the function,
once. `fnc r` is what the function would do on rank `r`; the outcome depends only on `fnc 0`.
The function may raise any `Exception`. -/
theorem C04_bcast_uniform {V W β : Type} (c : Codec (Option β) V) (called : W)
    (fnc : Nat → Except Err β) (hexc : ∀ e, fnc 0 = .error e → e.isException = true) (n : Nat) :
    runJob n (fun r => mpiFncBcast c called (fnc r) true r) =
      (.done (List.replicate (n + 1) (bcastResult (fnc 0))),
        [called] :: List.replicate n []) := by
  rw [runJob_eq_runFam]
  have key : runFam n (fun r => mpiFncBcast (W := W) c called (fnc r) true r) (fun _ => []) =
      (.done ((List.range (n + 1)).map (fun _ => bcastResult (fnc 0))),
        logs n (fun r => if r = 0 then [called] else [])) := by
    rw [runFam_peel]
    rw [← runFam_fin (V := V) n (fun _ => bcastResult (fnc 0))
      (fun r => if r = 0 then [called] else [])]
    have hP : ∀ r, peel (mpiFncBcast (W := W) c called (fnc r) true r) =
        (if r = 0 then [called] else [],
          .bcast (c.enc (if r = 0 then (match fnc 0 with | .ok x => some x | .error _ => none)
            else none))
            (fun v => orRaise .qsonic (c.dec v))) := by
      intro r
      by_cases hr : r = 0
      · subst hr
        cases h : fnc 0 with
        | ok x => simp [mpiFncBcast, peel]
        | error e => simp [mpiFncBcast, peel, hexc e h]
      · simp [mpiFncBcast, peel, hr]
    simp only [hP, List.nil_append]
    rw [runFam_bcast]
    refine runFam_congr n ?_ (fun _ _ => rfl)
    intro r _
    simp only [if_true, c.dec_enc]
    cases fnc 0 <;> rfl
  rw [key]
  simp [logs, List.map_const']

/-- **C04.** Without a communicator the function's value is returned or `QsonicException`
raised, for whatever rank number is passed. -/
theorem C04_no_comm {V W β : Type} (c : Codec (Option β) V) (called : W)
    (fnc : Except Err β) (hexc : ∀ e, fnc = .error e → e.isException = true) (rank : Nat) :
    runJob 0 (fun _ => mpiFncBcast c called fnc false rank) =
      (.done [bcastResult fnc], [[called]]) := by
  cases h : fnc with
  | ok x => simp [runJob, mpiFncBcast, orRaise, run, bcastResult]
  | error e => simp [runJob, mpiFncBcast, hexc e h, run, bcastResult, orRaise]

example : runJob 2 (fun r => mpiFncBcast (Codec.refl (Option Nat)) () (.ok (7 + r)) true r) =
    (.done [.ok 7, .ok 7, .ok 7], [[()], [], []]) := by decide

example : runJob 2 (fun r => mpiFncBcast (Codec.refl (Option Nat)) ()
    (if r = 0 then .error .osError else .ok r) true r) =
    (.done [.error .qsonic, .error .qsonic, .error .qsonic], [[()], [], []]) := by decide

/-- What the root's parsing decides: the arguments, or `none` to stop. -/
def parsed {Args : Type} (parse : Except Err Args) (logic : Args → Except Err (Bool × Args)) :
    Option Args :=
  match parse with
  | .error _ => none
  | .ok a => match logic a with
    | .ok (true, a') => some a'
    | _ => none

/-- **C05.** If argument parsing on the root returns or exits (argparse's behaviour), the job
never deadlocks: every rank returns the same checked arguments, or every rank exits. -/
theorem C05_parse_uniform {V W Args : Type} (c : Codec (Option Args) V)
    (parse : Except Err Args) (logic : Args → Except Err (Bool × Args))
    (hp : ∀ e, parse = .error e → ∃ s, e = .systemExit s)
    (hl : ∀ a e, parse = .ok a → logic a = .error e → ∃ s, e = .systemExit s) (n : Nat) :
    (runJob n (fun r => mpiParse (W := W) c parse logic r)).1 =
      .done (List.replicate (n + 1)
        (match parsed parse logic with
          | some a => .ok a
          | none => .error (.systemExit 0))) := by
  rw [runJob_eq_runFam]
  have hP : ∀ r, mpiParse (W := W) c parse logic r =
      .bcast (c.enc (if r = 0 then parsed parse logic else none))
        (fun v => orRaise (.systemExit 0) (c.dec v)) := by
    intro r
    by_cases hr : r = 0
    · subst hr
      unfold mpiParse parsed
      cases h : parse with
      | error e => obtain ⟨s, rfl⟩ := hp e h; simp
      | ok a =>
        cases h' : logic a with
        | error e => obtain ⟨s, rfl⟩ := hl a e h h'; simp [h']
        | ok x =>
          obtain ⟨b, a'⟩ := x
          cases b <;> simp [h']
    · simp [mpiParse, hr]
  simp only [hP]
  rw [runFam_bcast]
  simp only [if_true, c.dec_enc]
  have := runFam_fin (V := V) (W := W) n (fun _ => match parsed parse logic with
          | some a => .ok a
          | none => .error (.systemExit 0)) (fun _ => [])
  rw [runFam_congr n (Q := fun _ => fin (match parsed parse logic with
          | some a => .ok a
          | none => .error (.systemExit 0))) (M := fun _ => []) (by
            intro r _; cases parsed parse logic <;> rfl) (fun _ _ => rfl), this]
  simp [List.map_const']

/-- **C05, limit.** An exception other than `SystemExit` in the root's parsing (for instance
in the logic function) leaves the root while all other ranks wait in the broadcast: on its own
`mpi_parse` deadlocks there. (`main` turns it into `comm.Abort`, see C65.) -/
theorem C05_parse_other_exception_deadlocks {V W Args : Type} (c : Codec (Option Args) V)
    (logic : Args → Except Err (Bool × Args)) (e : Err) (he : ∀ s, e ≠ .systemExit s) (n : Nat) :
    (runJob (n + 1) (fun r => mpiParse (W := W) c (.error e) logic r)).1 = .deadlock := by
  have h0 : mpiParse (W := W) c (.error e) logic 0 = .raise e := by
    cases e <;> first | rfl | exact absurd rfl (he _)
  simp only [runJob, h0, run]
  rw [if_neg]
  · rw [List.range_succ_eq_map]
    simp [mpiParse, result?, peel]
  · rw [Bool.not_eq_true, List.any_eq_false]
    intro p hp
    simp only [List.map_map, List.mem_map, Function.comp_def] at hp
    obtain ⟨i, -, rfl⟩ := hp
    simp [mpiParse, peel, isAbort]

example : (runJob 2 (fun r => mpiParse (W := Unit) (Codec.refl (Option Nat)) (.ok 3)
    (fun a => .ok (true, a + 1)) r)).1 = .done [.ok 4, .ok 4, .ok 4] := by decide
example : (runJob 1 (fun r => mpiParse (W := Unit) (Codec.refl (Option Nat))
    (.error (.systemExit 2)) (fun a => .ok (true, a + 1)) r)).1 =
    .done [.error (.systemExit 0), .error (.systemExit 0)] := by decide

/-- **C07.** Over a whole job in which every rank creates a saver for the same name and makes
the same writes, the events on the file are exactly: created once, written in program order,
closed once, all by the root; nothing happens with an empty file name. -/
theorem C07_saver_root_only {D : Type} (fname : String) (ds : List D) (n : Nat) :
    (List.range (n + 1)).map (fun r => Saver.session fname r ds) =
      (if fname = "" then [] else
        [SaverEv.create fname] ++ ds.map (SaverEv.write fname) ++ [SaverEv.close fname]) ::
      List.replicate n [] := by
  rw [List.range_succ_eq_map, List.map_cons, List.map_map]
  congr 1
  · by_cases h : fname = ""
    · simp [h, Saver.session, Saver.init, Saver.write, Saver.close]
    · have hw : ds.flatMap (Saver.write ⟨some fname⟩) = ds.map (SaverEv.write fname) := by
        induction ds with
        | nil => rfl
        | cons d ds ih => simp [ih, Saver.write]
      simp [h, Saver.session, Saver.init, Saver.close, hw]
  · rw [show (fun r => Saver.session fname r ds) ∘ Nat.succ = fun _ => [] from ?_]
    · simp [List.map_const']
    · funext r
      simp [Saver.session, Saver.init, Saver.write, Saver.close]

/-- **C07.** Even if ranks write different data, no rank but the root touches the file. -/
theorem C07_saver_nonroot_silent {D : Type} (fname : String) (ds : List D) (rank : Nat)
    (h : rank ≠ 0) : Saver.session fname rank ds = [] := by
  simp [Saver.session, Saver.init, Saver.write, Saver.close, h]

example : (List.range 2).map (fun r => Saver.session "a.fits" r [1, 2]) =
    [[.create "a.fits", .write "a.fits" 1, .write "a.fits" 2, .close "a.fits"], []] := by decide

end Verif.Props
