import Verif.Proofs.Mpi

/-!
# Composition of MPI programs that keep in step

`Sync n P x M`: in whatever program the family `P` is a part, the ranks `0..n` run through it together, rank `r` ends
it with `x r` and has emitted `M r`.
-/

namespace Verif.Proofs
open Verif.Model Verif.Model.Prog

variable {V W A B : Type}

/-- What follows a program, whether it returned or raised. -/
def seqE : Prog V W A → (Except Err A → Prog V W B) → Prog V W B
  | .ret a, f => f (.ok a)
  | .raise e, f => f (.error e)
  | .abort, _ => .abort
  | .emit w k, f => .emit w (seqE k f)
  | .bcast v k, f => .bcast v (fun x => seqE (k x) f)
  | .scatter vs k, f => .scatter vs (fun x => seqE (k x) f)
  | .gather v k, f => .gather v (fun x => seqE (k x) f)
  | .reduce op v k, f => .reduce op v (fun x => seqE (k x) f)
  | .allreduce op v k, f => .allreduce op v (fun x => seqE (k x) f)

/-- `bind` after an end. -/
def onOk (f : A → Prog V W B) : Except Err A → Prog V W B
  | .ok a => f a
  | .error e => .raise e

/-- `catch'` after an end. -/
def onErr (h : Err → Prog V W A) : Except Err A → Prog V W A
  | .ok a => .ret a
  | .error e => h e

theorem bind_eq_seqE (p : Prog V W A) (f : A → Prog V W B) : p.bind f = seqE p (onOk f) := by
  induction p with
  | ret a => rfl
  | raise e => rfl
  | abort => rfl
  | emit w k ih => exact congrArg _ ih
  | bcast v k ih => exact congrArg _ (funext ih)
  | scatter vs k ih => exact congrArg _ (funext ih)
  | gather v k ih => exact congrArg _ (funext ih)
  | reduce op v k ih => exact congrArg _ (funext ih)
  | allreduce op v k ih => exact congrArg _ (funext ih)

theorem catch_eq_seqE (p : Prog V W A) (h : Err → Prog V W A) : p.catch' h = seqE p (onErr h) := by
  induction p with
  | ret a => rfl
  | raise e => rfl
  | abort => rfl
  | emit w k ih => exact congrArg _ ih
  | bcast v k ih => exact congrArg _ (funext ih)
  | scatter vs k ih => exact congrArg _ (funext ih)
  | gather v k ih => exact congrArg _ (funext ih)
  | reduce op v k ih => exact congrArg _ (funext ih)
  | allreduce op v k ih => exact congrArg _ (funext ih)

theorem seqE_assoc {C : Type} (p : Prog V W A) (f : Except Err A → Prog V W B) (g : Except Err B → Prog V W C) :
    seqE (seqE p f) g = seqE p (fun x => seqE (f x) g) := by
  induction p with
  | ret a => rfl
  | raise e => rfl
  | abort => rfl
  | emit w k ih => exact congrArg _ ih
  | bcast v k ih => exact congrArg _ (funext ih)
  | scatter vs k ih => exact congrArg _ (funext ih)
  | gather v k ih => exact congrArg _ (funext ih)
  | reduce op v k ih => exact congrArg _ (funext ih)
  | allreduce op v k ih => exact congrArg _ (funext ih)

theorem seqE_fin (x : Except Err A) (f : Except Err A → Prog V W B) : seqE (fin x) f = f x := by
  cases x <;> rfl

theorem seqE_self (p : Prog V W A) : seqE p fin = p := by
  induction p with
  | ret a => rfl
  | raise e => rfl
  | abort => rfl
  | emit w k ih => exact congrArg _ ih
  | bcast v k ih => exact congrArg _ (funext ih)
  | scatter vs k ih => exact congrArg _ (funext ih)
  | gather v k ih => exact congrArg _ (funext ih)
  | reduce op v k ih => exact congrArg _ (funext ih)
  | allreduce op v k ih => exact congrArg _ (funext ih)

theorem seqE_emits (ws : List W) (p : Prog V W A) (f : Except Err A → Prog V W B) :
    seqE (emits ws p) f = emits ws (seqE p f) := by
  induction ws with
  | nil => rfl
  | cons w ws ih => exact congrArg _ ih

theorem peel_emits (ws : List W) (p : Prog V W A) : peel (emits ws p) = (ws ++ (peel p).1, (peel p).2) := by
  induction ws with
  | nil => rfl
  | cons w ws ih =>
    change ((w :: (peel (emits ws p)).1), (peel (emits ws p)).2) = _
    rw [ih]
    rfl

theorem runFam_emits (n : Nat) (ws : Nat → List W) (P : Nat → Prog V W A) (L : Nat → List W) :
    runFam n (fun r => emits (ws r) (P r)) L = runFam n P (fun r => L r ++ ws r) := by
  rw [runFam_peel, runFam_peel (P := P)]
  refine runFam_congr n (fun r _ => ?_) (fun r _ => ?_)
  · rw [peel_emits]
  · rw [peel_emits, List.append_assoc]

/-- See the head of this file. -/
def Sync (n : Nat) (P : Nat → Prog V W A) (x : Nat → Except Err A) (M : Nat → List W) : Prop :=
  ∀ (B : Type) (k : Nat → Except Err A → Prog V W B) (L : Nat → List W),
    runFam n (fun r => seqE (P r) (k r)) L = runFam n (fun r => k r (x r)) (fun r => L r ++ M r)

theorem Sync.job {n : Nat} {P : Nat → Prog V W A} {x : Nat → Except Err A} {M : Nat → List W} (h : Sync n P x M) :
    runJob n P = (.done ((List.range (n + 1)).map x), (List.range (n + 1)).map M) := by
  have h1 := h A (fun _ => fin) (fun _ => [])
  simp only [seqE_self, runFam_fin, List.nil_append] at h1
  rw [runJob_eq_runFam, h1]
  simp [logs, List.range_succ_eq_map, Function.comp_def]

theorem Sync.congr {n : Nat} {P Q : Nat → Prog V W A} {x y : Nat → Except Err A} {M N : Nat → List W}
    (h : Sync n P x M) (hP : ∀ r ≤ n, Q r = P r) (hx : ∀ r ≤ n, y r = x r) (hM : ∀ r ≤ n, N r = M r) :
    Sync n Q y N := by
  intro B k L
  rw [runFam_congr n (Q := fun r => seqE (P r) (k r)) (M := L) (fun r hr => by rw [hP r hr]) (fun _ _ => rfl),
    h B k L]
  exact runFam_congr n (fun r hr => by rw [hx r hr]) (fun r hr => by rw [hM r hr])

theorem sync_fin (n : Nat) (x : Nat → Except Err A) :
    Sync n (fun r => (fin (x r) : Prog V W A)) x (fun _ => []) := by
  intro B k L
  simp only [seqE_fin, List.append_nil]

theorem sync_ret (n : Nat) (a : Nat → A) :
    Sync n (fun r => (.ret (a r) : Prog V W A)) (fun r => .ok (a r)) (fun _ => []) :=
  sync_fin n (fun r => .ok (a r))

theorem sync_raise (n : Nat) (e : Nat → Err) :
    Sync n (fun r => (.raise (e r) : Prog V W A)) (fun r => .error (e r)) (fun _ => []) :=
  sync_fin n (fun r => .error (e r))

theorem sync_emits {n : Nat} (ws : Nat → List W) {P : Nat → Prog V W A} {x : Nat → Except Err A}
    {M : Nat → List W} (h : Sync n P x M) :
    Sync n (fun r => emits (ws r) (P r)) x (fun r => ws r ++ M r) := by
  intro B k L
  simp only [seqE_emits]
  rw [runFam_emits, h]
  simp only [List.append_assoc]

theorem sync_allreduce {n : Nat} (op : Nat → List V → V) (v : Nat → V) {k : Nat → V → Prog V W A}
    {x : Nat → Except Err A} {M : Nat → List W}
    (h : Sync n (fun r => k r (op 0 ((List.range (n + 1)).map v))) x M) :
    Sync n (fun r => .allreduce (op r) (v r) (k r)) x M := by
  intro B f L
  exact (runFam_allreduce n op v (fun r y => seqE (k r y) (f r)) L).trans (h B f L)

theorem sync_bcast {n : Nat} (v : Nat → V) {k : Nat → V → Prog V W A}
    {x : Nat → Except Err A} {M : Nat → List W}
    (h : Sync n (fun r => k r (v 0)) x M) :
    Sync n (fun r => .bcast (v r) (k r)) x M := by
  intro B f L
  exact (runFam_bcast n v (fun r y => seqE (k r y) (f r)) L).trans (h B f L)

theorem sync_gather {n : Nat} (v : Nat → V) {k : Nat → Option (List V) → Prog V W A}
    {x : Nat → Except Err A} {M : Nat → List W}
    (h : Sync n (fun r => k r (if r = 0 then some ((List.range (n + 1)).map v) else none)) x M) :
    Sync n (fun r => .gather (v r) (k r)) x M := by
  intro B f L
  exact (runFam_gather n v (fun r y => seqE (k r y) (f r)) L).trans (h B f L)

theorem sync_reduce {n : Nat} (op : Nat → List V → V) (v : Nat → V) {k : Nat → Option V → Prog V W A}
    {x : Nat → Except Err A} {M : Nat → List W}
    (h : Sync n (fun r => k r (if r = 0 then some (op 0 ((List.range (n + 1)).map v)) else none)) x M) :
    Sync n (fun r => .reduce (op r) (v r) (k r)) x M := by
  intro B f L
  exact (runFam_reduce n op v (fun r y => seqE (k r y) (f r)) L).trans (h B f L)

theorem sync_scatter {n : Nat} (vs : Nat → Option (List V)) {k : Nat → V → Prog V W A} (xs : Nat → V)
    (h0 : vs 0 = some ((List.range (n + 1)).map xs)) {x : Nat → Except Err A} {M : Nat → List W}
    (h : Sync n (fun r => k r (xs r)) x M) :
    Sync n (fun r => .scatter (vs r) (k r)) x M := by
  intro B f L
  exact (runFam_scatter n vs (fun r y => seqE (k r y) (f r)) L xs h0).trans (h B f L)

theorem Sync.bind {n : Nat} {P : Nat → Prog V W A} {a : Nat → A} {M N : Nat → List W}
    {f : Nat → A → Prog V W B} {y : Nat → Except Err B} (h : Sync n P (fun r => .ok (a r)) M)
    (hf : Sync n (fun r => f r (a r)) y N) :
    Sync n (fun r => (P r).bind (f r)) y (fun r => M r ++ N r) := by
  intro C k L
  simp only [bind_eq_seqE, seqE_assoc]
  rw [h C (fun r x => seqE (onOk (f r) x) (k r)) L]
  change runFam n (fun r => seqE (f r (a r)) (k r)) _ = _
  rw [hf]
  simp only [List.append_assoc]

theorem Sync.bind_error {n : Nat} {P : Nat → Prog V W A} {e : Nat → Err} {M : Nat → List W}
    (h : Sync n P (fun r => .error (e r)) M) (f : Nat → A → Prog V W B) :
    Sync n (fun r => (P r).bind (f r)) (fun r => .error (e r)) M := by
  intro C k L
  simp only [bind_eq_seqE, seqE_assoc]
  exact h C (fun r x => seqE (onOk (f r) x) (k r)) L

end Verif.Proofs
