import Verif.Proofs.Sync
import Verif.Model.FitRun
import Verif.Spec.FitRun
import Verif.Proofs.Balance

/-!
# Jobs that end cleanly

`Ends n Q P`: run as the main program, with the handler of `main`, the ranks `0..n` running `P` either all return, with
results that have property `Q`, or all raise the same `QsonicException` or `SystemExit`, or some rank raises another
exception after all have done the same collectives.
-/

namespace Verif.Proofs
open Verif.Model Verif.Model.Prog Verif.Spec

variable {V W A B : Type}

/-- See the head of this file. -/
inductive Ends (n : Nat) (Q : (Nat → A) → Prop) : (Nat → Prog V W A) → Prop
  | ret {P : Nat → Prog V W A} (a : Nat → A) (h : ∀ r ≤ n, P r = .ret (a r)) (hq : Q a) : Ends n Q P
  | exitAll {P : Nat → Prog V W A} (e : Err) (he : ¬ Unexpected e) (h : ∀ r ≤ n, P r = .raise e) : Ends n Q P
  | crash {P : Nat → Prog V W A} (r : Nat) (hr : r ≤ n) (e : Err) (he : Unexpected e) (h : P r = .raise e) : Ends n Q P
  | emits {P P' : Nat → Prog V W A} (ws : Nat → List W) (h : ∀ r ≤ n, P r = .emits (ws r) (P' r)) (hk : Ends n Q P') :
      Ends n Q P
  | bcast {P : Nat → Prog V W A} (v : Nat → V) (k : Nat → V → Prog V W A) (h : ∀ r ≤ n, P r = .bcast (v r) (k r))
      (hk : Ends n Q (fun r => k r (v 0))) : Ends n Q P
  | scatter {P : Nat → Prog V W A} (vs : Nat → Option (List V)) (k : Nat → V → Prog V W A) (xs : Nat → V)
      (h : ∀ r ≤ n, P r = .scatter (vs r) (k r)) (h0 : vs 0 = some ((List.range (n + 1)).map xs))
      (hk : Ends n Q (fun r => k r (xs r))) : Ends n Q P
  | gather {P : Nat → Prog V W A} (v : Nat → V) (k : Nat → Option (List V) → Prog V W A)
      (h : ∀ r ≤ n, P r = .gather (v r) (k r))
      (hk : Ends n Q (fun r => k r (if r = 0 then some ((List.range (n + 1)).map v) else none))) : Ends n Q P
  | reduce {P : Nat → Prog V W A} (op : Nat → List V → V) (v : Nat → V) (k : Nat → Option V → Prog V W A)
      (h : ∀ r ≤ n, P r = .reduce (op r) (v r) (k r))
      (hk : Ends n Q (fun r => k r (if r = 0 then some (op 0 ((List.range (n + 1)).map v)) else none))) : Ends n Q P
  | allreduce {P : Nat → Prog V W A} (op : Nat → List V → V) (v : Nat → V) (k : Nat → V → Prog V W A)
      (h : ∀ r ≤ n, P r = .allreduce (op r) (v r) (k r))
      (hk : Ends n Q (fun r => k r (op 0 ((List.range (n + 1)).map v)))) : Ends n Q P

theorem catch_emits (ws : List W) (p : Prog V W A) (h : Err → Prog V W A) :
    (emits ws p).catch' h = emits ws (p.catch' h) := by
  rw [catch_eq_seqE, seqE_emits, ← catch_eq_seqE]

theorem bind_emits (ws : List W) (p : Prog V W A) (f : A → Prog V W B) :
    (emits ws p).bind f = emits ws (p.bind f) := by
  rw [bind_eq_seqE, seqE_emits, ← bind_eq_seqE]

theorem handler_abort {e : Err} (h : Unexpected e) : (mainHandler e : Prog V W A) = .abort := by
  obtain ⟨h1, h2⟩ := h
  cases e <;> first | rfl | exact absurd rfl h2 | cases h1

theorem handler_exit {e : Err} (h : ¬ Unexpected e) :
    ∃ c, (mainHandler e : Prog V W A) = .raise (.systemExit c) := by
  cases e with
  | qsonic => exact ⟨1, rfl⟩
  | systemExit c => exact ⟨c, rfl⟩
  | _ => exact absurd ⟨rfl, by simp⟩ h

/-- How such a job ends. -/
theorem Ends.run {n : Nat} {Q : (Nat → A) → Prop} {P : Nat → Prog V W A} (h : Ends n Q P) (L : Nat → List W) :
    (∃ a, Q a ∧ (runFam n (fun r => mainProg (P r)) L).1 = .done ((List.range (n + 1)).map (fun r => .ok (a r)))) ∨
    (∃ c : Int, (runFam n (fun r => mainProg (P r)) L).1 = .done (List.replicate (n + 1) (.error (.systemExit c)))) ∨
    (runFam n (fun r => mainProg (P r)) L).1 = .aborted := by
  induction h generalizing L with
  | @ret P a h hq =>
    refine .inl ⟨a, hq, ?_⟩
    rw [runFam_congr n (Q := fun r => fin (.ok (a r))) (M := L)
      (fun r hr => by rw [h r hr]; rfl) (fun _ _ => rfl), runFam_fin]
  | @exitAll P e he h =>
    obtain ⟨c, hc⟩ := handler_exit (V := V) (W := W) (A := A) he
    refine .inr (.inl ⟨c, ?_⟩)
    rw [runFam_congr n (Q := fun _ => fin (.error (.systemExit c))) (M := L)
      (fun r hr => by rw [h r hr]; exact hc) (fun _ _ => rfl), runFam_fin]
    simp [List.map_const']
  | @crash P r hr e he h =>
    refine .inr (.inr ?_)
    refine (runFam_abort n _ L ⟨r, hr, ?_⟩)
    rw [h]
    change (peel (mainHandler e)).2 = _
    rw [handler_abort he]
    rfl
  | @emits P P' ws h hk ih =>
    have := ih (fun r => L r ++ ws r)
    rw [← runFam_emits n ws (fun r => mainProg (P' r)) L] at this
    rw [runFam_congr n (Q := fun r => Prog.emits (ws r) (mainProg (P' r))) (M := L)
      (fun r hr => by rw [h r hr]; exact catch_emits _ _ _) (fun _ _ => rfl)]
    exact this
  | @bcast P v k h hk ih =>
    rw [runFam_congr n (Q := fun r => .bcast (v r) (fun x => mainProg (k r x))) (M := L)
      (fun r hr => by rw [h r hr]; rfl) (fun _ _ => rfl), runFam_bcast]
    exact ih L
  | @scatter P vs k xs h h0 hk ih =>
    rw [runFam_congr n (Q := fun r => .scatter (vs r) (fun x => mainProg (k r x))) (M := L)
      (fun r hr => by rw [h r hr]; rfl) (fun _ _ => rfl), runFam_scatter n vs _ L xs h0]
    exact ih L
  | @gather P v k h hk ih =>
    rw [runFam_congr n (Q := fun r => .gather (v r) (fun x => mainProg (k r x))) (M := L)
      (fun r hr => by rw [h r hr]; rfl) (fun _ _ => rfl), runFam_gather]
    exact ih L
  | @reduce P op v k h hk ih =>
    rw [runFam_congr n (Q := fun r => .reduce (op r) (v r) (fun x => mainProg (k r x))) (M := L)
      (fun r hr => by rw [h r hr]; rfl) (fun _ _ => rfl), runFam_reduce]
    exact ih L
  | @allreduce P op v k h hk ih =>
    rw [runFam_congr n (Q := fun r => .allreduce (op r) (v r) (fun x => mainProg (k r x))) (M := L)
      (fun r hr => by rw [h r hr]; rfl) (fun _ _ => rfl), runFam_allreduce]
    exact ih L

theorem Ends.clean {n : Nat} {Q : (Nat → A) → Prop} {P : Nat → Prog V W A} (h : Ends n Q P) :
    CleanEnd n (runJob n (fun r => mainProg (P r))).1 := by
  rw [runJob_eq_runFam]
  rcases h.run (fun _ => []) with ⟨a, -, ha⟩ | h | h
  exacts [.inl ⟨a, ha⟩, .inr (.inl h), .inr (.inr h)]

/-! ### Composition -/

theorem Ends.bind {n : Nat} {Q : (Nat → A) → Prop} {R : (Nat → B) → Prop} {P : Nat → Prog V W A}
    {f : Nat → A → Prog V W B} (h : Ends n Q P) (hf : ∀ a, Q a → Ends n R (fun r => f r (a r))) :
    Ends n R (fun r => (P r).bind (f r)) := by
  induction h with
  | @ret P a h hq =>
    refine Ends.emits (fun _ => []) (P' := fun r => f r (a r)) (fun r hr => ?_) (hf a hq)
    rw [h r hr]
    rfl
  | @exitAll P e he h => exact .exitAll e he (fun r hr => by rw [h r hr]; rfl)
  | @crash P r hr e he h => exact .crash r hr e he (by rw [h]; rfl)
  | @emits P P' ws h hk ih => exact .emits ws (fun r hr => by rw [h r hr, bind_emits]) ih
  | @bcast P v k h hk ih => exact .bcast v (fun r x => (k r x).bind (f r)) (fun r hr => by rw [h r hr]; rfl) ih
  | @scatter P vs k xs h h0 hk ih =>
    exact .scatter vs (fun r x => (k r x).bind (f r)) xs (fun r hr => by rw [h r hr]; rfl) h0 ih
  | @gather P v k h hk ih => exact .gather v (fun r x => (k r x).bind (f r)) (fun r hr => by rw [h r hr]; rfl) ih
  | @reduce P op v k h hk ih =>
    exact .reduce op v (fun r x => (k r x).bind (f r)) (fun r hr => by rw [h r hr]; rfl) ih
  | @allreduce P op v k h hk ih =>
    exact .allreduce op v (fun r x => (k r x).bind (f r)) (fun r hr => by rw [h r hr]; rfl) ih

theorem Ends.mono {n : Nat} {Q R : (Nat → A) → Prop} {P : Nat → Prog V W A} (h : Ends n Q P)
    (hr : ∀ a, Q a → R a) : Ends n R P := by
  induction h with
  | ret a h hq => exact .ret a h (hr a hq)
  | exitAll e he h => exact .exitAll e he h
  | crash r hr e he h => exact .crash r hr e he h
  | emits ws h hk ih => exact .emits ws h ih
  | bcast v k h hk ih => exact .bcast v k h ih
  | scatter vs k xs h h0 hk ih => exact .scatter vs k xs h h0 ih
  | gather v k h hk ih => exact .gather v k h ih
  | reduce op v k h hk ih => exact .reduce op v k h ih
  | allreduce op v k h hk ih => exact .allreduce op v k h ih

/-- No property of the results. -/
def Any (_ : Nat → A) : Prop := True

/-- All ranks have the same result. -/
def Same (n : Nat) (a : Nat → A) : Prop := ∀ r ≤ n, a r = a 0

theorem ends_ret (n : Nat) {Q : (Nat → A) → Prop} (a : Nat → A) (hq : Q a) :
    Ends n Q (fun r => (.ret (a r) : Prog V W A)) := .ret a (fun _ _ => rfl) hq

/-- A local stage which raises unexpected exceptions only, on any ranks. -/
theorem ends_local {n : Nat} (x : Nat → Except Err A) (h : ∀ r ≤ n, ∀ e, x r = .error e → Unexpected e) :
    Ends n (fun a => ∀ r ≤ n, x r = .ok (a r)) (fun r => (ofExcept (x r) : Prog V W A)) := by
  by_cases hx : ∀ r ≤ n, ∃ a, x r = .ok a
  · obtain ⟨a0, -⟩ := hx 0 (Nat.zero_le n)
    have : ∃ a : Nat → A, ∀ r ≤ n, x r = .ok (a r) := by
      refine ⟨fun r => (x r).toOption.getD a0, fun r hr => ?_⟩
      obtain ⟨a, ha⟩ := hx r hr
      dsimp only
      rw [ha]
      rfl
    obtain ⟨a, ha⟩ := this
    exact .ret a (fun r hr => by rw [ha r hr]; rfl) ha
  · push Not at hx
    obtain ⟨r, hr, hn⟩ := hx
    cases hxr : x r with
    | ok a => exact absurd hxr (hn a)
    | error e => exact .crash r hr e (h r hr e hxr) (by rw [hxr]; rfl)

/-- A computation which is the same on all ranks. -/
theorem ends_uniform (n : Nat) (x : Nat → Except Err A) (hx : ∀ r ≤ n, x r = x 0) :
    Ends n (Same n) (fun r => (ofExcept (x r) : Prog V W A)) := by
  cases h0 : x 0 with
  | ok a => exact .ret (fun _ => a) (fun r hr => by rw [hx r hr, h0]; rfl) (fun _ _ => rfl)
  | error e =>
    by_cases he : Unexpected e
    · exact .crash 0 (Nat.zero_le n) e he (by rw [h0]; rfl)
    · exact .exitAll e he (fun r hr => by rw [hx r hr, h0]; rfl)

/-- `mpi_fnc_bcast` with a communicator. -/
theorem ends_bcast {U : Type} (n : Nat) (c : Codec (Option U) V) (called : W) (x : Nat → Except Err U)
    (hx : ∀ e, x 0 = .error e → e.isException = true) :
    Ends n (Same n) (fun r => mpiFncBcast c called (x r) true r) := by
  refine Ends.emits (fun r => if r = 0 then [called] else [])
    (P' := fun r => .bcast (c.enc (if r = 0 then (x 0).toOption else none)) (fun v => orRaise .qsonic (c.dec v)))
    (fun r _ => ?_) ?_
  · by_cases hr : r = 0
    · subst hr
      unfold mpiFncBcast
      simp only [true_or, if_true]
      change _ = Prog.emit called _
      congr 1
      cases h0 : x 0 with
      | ok u => rfl
      | error e =>
        dsimp only
        rw [if_pos (hx e h0)]
        rfl
    · unfold mpiFncBcast
      rw [if_neg (by simp [hr]), if_neg hr, if_neg hr]
      rfl
  · refine .bcast _ _ (fun r _ => rfl) ?_
    rw [if_pos rfl]
    simp only [c.dec_enc]
    cases x 0 with
    | ok u => exact .ret (fun _ => u) (fun _ _ => rfl) (fun _ _ => rfl)
    | error e => exact .exitAll .qsonic (fun h => h.2 rfl) (fun _ _ => rfl)

/-- `mpi_fnc_bcast` without a communicator, if it fails on all ranks or on none. -/
theorem ends_noComm {U : Type} (n : Nat) (c : Codec (Option U) V) (called : W) (x : Nat → Except Err U)
    (hx : ∀ r ≤ n, ∀ e, x r = .error e → e.isException = true) (hu : ∀ r ≤ n, (x r).isOk = (x 0).isOk) :
    Ends n Any (fun r => mpiFncBcast c called (x r) false r) := by
  refine Ends.emits (fun _ => [called]) (P' := fun r => orRaise .qsonic (x r).toOption) (fun r hr => ?_) ?_
  · unfold mpiFncBcast
    rw [if_pos (.inr rfl)]
    change Prog.emit called _ = Prog.emit called _
    congr 1
    cases h0 : x r with
    | ok u => rfl
    | error e =>
      dsimp only
      rw [if_pos (hx r hr e h0)]
      rfl
  · cases h0 : x 0 with
    | error e =>
      refine .exitAll .qsonic (fun h => h.2 rfl) (fun r hr => ?_)
      have := hu r hr
      rw [h0] at this
      cases hxr : x r with
      | ok u => rw [hxr] at this; cases this
      | error e => rfl
    | ok u0 =>
      refine .ret (fun r => (x r).toOption.getD u0) (fun r hr => ?_) trivial
      have := hu r hr
      rw [h0] at this
      cases hxr : x r with
      | ok u => rfl
      | error e => rw [hxr] at this; cases this

/-- `mpi_parse`: errors other than `SystemExit` must be unexpected. -/
theorem ends_parse {O : Type} (n : Nat) (c : Codec (Option O) V) (parse : Except Err O)
    (logic : O → Except Err (Bool × O)) (hp : parse ≠ .error .qsonic) (hl : ∀ o, logic o ≠ .error .qsonic) :
    Ends n (Same n) (fun r => (mpiParse c parse logic r : Prog V W O)) := by
  have key : ∀ x : Option O, (∀ r ≤ n, mpiParse c parse logic r =
      (.bcast (c.enc (if r = 0 then x else none)) (fun v => orRaise (.systemExit 0) (c.dec v)) : Prog V W O)) →
      Ends n (Same n) (fun r => (mpiParse c parse logic r : Prog V W O)) := by
    intro x hx
    refine .bcast _ _ hx ?_
    rw [if_pos rfl]
    simp only [c.dec_enc]
    cases x with
    | some u => exact .ret (fun _ => u) (fun _ _ => rfl) (fun _ _ => rfl)
    | none => exact .exitAll (.systemExit 0) (fun h => by cases h.1) (fun _ _ => rfl)
  have crash : ∀ e : Err, Unexpected e → mpiParse (W := W) c parse logic 0 = .raise e →
      Ends n (Same n) (fun r => (mpiParse c parse logic r : Prog V W O)) :=
    fun e he h => .crash 0 (Nat.zero_le n) e he h
  have other : ∀ r, r ≠ 0 → mpiParse (W := W) c parse logic r =
      .bcast (c.enc none) (fun v => orRaise (.systemExit 0) (c.dec v)) := by
    intro r hr
    unfold mpiParse
    rw [if_neg hr]
  have hroot : ∀ x : Option O, mpiParse (W := W) c parse logic 0 =
      .bcast (c.enc x) (fun v => orRaise (.systemExit 0) (c.dec v)) →
      Ends n (Same n) (fun r => (mpiParse c parse logic r : Prog V W O)) := by
    intro x h0
    refine key x (fun r _ => ?_)
    by_cases hr : r = 0
    · subst hr; rw [h0, if_pos rfl]
    · rw [other r hr, if_neg hr]
  cases parse with
  | error e =>
    by_cases he : Unexpected e
    · refine crash e he ?_
      obtain ⟨h1, -⟩ := he
      cases e <;> first | rfl | cases h1
    · cases e with
      | systemExit c' => exact hroot none rfl
      | qsonic => exact absurd rfl hp
      | _ => exact absurd ⟨rfl, by simp⟩ he
  | ok a =>
    cases hla : logic a with
    | error e =>
      by_cases he : Unexpected e
      · refine crash e he ?_
        obtain ⟨h1, -⟩ := he
        unfold mpiParse
        rw [if_pos rfl]
        dsimp only
        rw [hla]
        cases e <;> first | rfl | cases h1
      · cases e with
        | systemExit c' =>
          refine hroot none ?_
          unfold mpiParse
          rw [if_pos rfl]
          dsimp only
          rw [hla]
        | qsonic => exact absurd hla (hl a)
        | _ => exact absurd ⟨rfl, by simp⟩ he
    | ok x =>
      obtain ⟨ok, a'⟩ := x
      cases ok with
      | true =>
        refine hroot (some a') ?_
        unfold mpiParse
        rw [if_pos rfl]
        dsimp only
        rw [hla]
        rfl
      | false =>
        refine hroot none ?_
        unfold mpiParse
        rw [if_pos rfl]
        dsimp only
        rw [hla]
        rfl

/-- `mpi_get_local_queue`. -/
theorem ends_queue {Val : Type} [LinearOrder Val] (n : Nat) (cs : Codec Bool V) (cq : Codec (List (List (Row Val))) V)
    (read : Except Err (Catalog Val)) (isTile : Bool) (hr : ∀ e, read = .error e → e.isException = true) :
    Ends n Any (fun r => (mpiGetLocalQueue cs cq read isTile (n + 1) r : Prog V W (List (List (Row Val))))) := by
  have other : ∀ r, r ≠ 0 → mpiGetLocalQueue (W := W) cs cq read isTile (n + 1) r =
      .bcast (cs.enc false) (fun v => if cs.dec v = false then .raise .qsonic
        else .scatter none fun v => .ret (cq.dec v)) := by
    intro r hr
    unfold mpiGetLocalQueue
    rw [if_neg hr]
  cases read with
  | error e =>
    refine .bcast (fun _ => cs.enc false) (fun _ v => if cs.dec v = false then .raise .qsonic
        else .scatter none fun v => .ret (cq.dec v)) (fun r _ => ?_) ?_
    · by_cases h0 : r = 0
      · unfold mpiGetLocalQueue
        rw [if_pos h0]
        dsimp only
        rw [if_pos (hr e rfl)]
      · exact other r h0
    · rw [cs.dec_enc]
      exact .exitAll .qsonic (fun h => h.2 rfl) (fun _ _ => rfl)
  | ok cat =>
    obtain ⟨q, hq, hlen⟩ : ∃ q, makeQueues cat isTile (n + 1) = .ok q ∧ q.length = n + 1 := by
      unfold makeQueues
      dsimp only
      unfold balanceLoad
      obtain ⟨st, h1, h2⟩ := balanceLoop_ok (Nat.succ_pos n) (sortBySizeDesc
        (Np.splitByKey (fun r : Row Val => r (if isTile = true then "TILEID" else "HPXPIXEL")) cat.rows))
        (BInv.init (n + 1))
      rw [h1]
      exact ⟨st.2, rfl, h2.1.len⟩
    have h0 : mpiGetLocalQueue (W := W) cs cq (.ok cat) isTile (n + 1) 0 =
        .bcast (cs.enc true) (fun v => if cs.dec v = false then .raise .qsonic
          else .scatter (some (q.map cq.enc)) fun v => .ret (cq.dec v)) := by
      unfold mpiGetLocalQueue
      rw [if_pos rfl]
      dsimp only
      rw [hq]
    refine .bcast (fun r => cs.enc (decide (r = 0))) (fun r v => if cs.dec v = false then .raise .qsonic
        else .scatter (if r = 0 then some (q.map cq.enc) else none) fun v => .ret (cq.dec v)) (fun r _ => ?_) ?_
    · by_cases hr0 : r = 0
      · subst hr0
        simpa using h0
      · rw [other r hr0]
        simp [hr0]
    · simp only [cs.dec_enc, decide_true, Bool.true_eq_false, if_false]
      refine .scatter (fun r => if r = 0 then some (q.map cq.enc) else none) _
        (fun r => cq.enc (q.getD r [])) (fun _ _ => rfl) ?_ ?_
      · rw [if_pos rfl]
        congr 1
        apply List.ext_getElem
        · simp [hlen]
        · intro i h1 h2
          simp [List.getD_eq_getElem?_getD, List.getElem?_eq_getElem (show i < q.length by simpa using h1)]
      · simp only [cq.dec_enc]
        exact .ret _ (fun _ _ => rfl) trivial

end Verif.Proofs
