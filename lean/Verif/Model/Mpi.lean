import Verif.Np.Err

/-!
# MPI programs and their global execution

A python process of an MPI job is an interaction tree: it computes locally, emits observable
events (`W`: files written, functions called, ...), and communicates through the collectives
that qsonic uses. All ranks run the same python code but may take different branches.

Collectives used in qsonic (all with root 0): `comm.bcast` (py/qsonic/mpi_utils.py:41,102, py/qsonic/catalog.py:181),
`comm.scatter` (py/qsonic/catalog.py:200), `comm.gather` (py/qsonic/picca_continuum.py:674), `comm.reduce`
(py/qsonic/scripts/qsonic_fit.py:147), `comm.allreduce`/`comm.Allreduce` (py/qsonic/picca_continuum.py:309-310,
939-940, 1330-1334, py/qsonic/mathtools.py:561-562, py/qsonic/scripts/qsonic_fit.py:473,
py/qsonic/scripts/qsonic_calib.py:193-195) and `comm.Abort` (scripts/*.py main).

Simplifications: values travel unchanged (pickling is faithful); collectives synchronise all
ranks; only the kind of a collective is matched between ranks, so two ranks that are at
different source lines with the same kind of collective exchange values, as in MPI.
-/

namespace Verif.Model

/-- Program of one rank. `V`: values exchanged, `W`: observable events, `A`: result.
py/qsonic/scripts/qsonic_fit.py:452-530. -/
inductive Prog (V W A : Type) : Type
  /-- normal end -/
  | ret (a : A)
  /-- python exception leaving the program -/
  | raise (e : Err)
  /-- `comm.Abort()` -/
  | abort
  /-- a local observable event -/
  | emit (w : W) (k : Prog V W A)
  | bcast (v : V) (k : V → Prog V W A)
  /-- the root's argument is used; must have one entry per rank -/
  | scatter (vs : Option (List V)) (k : V → Prog V W A)
  /-- the root receives the values in rank order, the others `None` -/
  | gather (v : V) (k : Option (List V) → Prog V W A)
  /-- the root receives the combination, the others `None` -/
  | reduce (op : List V → V) (v : V) (k : Option V → Prog V W A)
  | allreduce (op : List V → V) (v : V) (k : V → Prog V W A)

namespace Prog

variable {V W A B : Type}

/-- Sequencing: python statements after each other. py/qsonic/scripts/qsonic_fit.py:452-530. -/
def bind : Prog V W A → (A → Prog V W B) → Prog V W B
  | ret a, f => f a
  | raise e, _ => raise e
  | abort, _ => abort
  | emit w k, f => emit w (bind k f)
  | bcast v k, f => bcast v (fun x => bind (k x) f)
  | scatter vs k, f => scatter vs (fun x => bind (k x) f)
  | gather v k, f => gather v (fun x => bind (k x) f)
  | reduce op v k, f => reduce op v (fun x => bind (k x) f)
  | allreduce op v k, f => allreduce op v (fun x => bind (k x) f)

/-- `try: p except ...: h e`. py/qsonic/mpi_utils.py:94-99. -/
def catch' : Prog V W A → (Err → Prog V W A) → Prog V W A
  | ret a, _ => ret a
  | raise e, h => h e
  | abort, _ => abort
  | emit w k, h => emit w (catch' k h)
  | bcast v k, h => bcast v (fun x => catch' (k x) h)
  | scatter vs k, h => scatter vs (fun x => catch' (k x) h)
  | gather v k, h => gather v (fun x => catch' (k x) h)
  | reduce op v k, h => reduce op v (fun x => catch' (k x) h)
  | allreduce op v k, h => allreduce op v (fun x => catch' (k x) h)

/-- Several events, then the program. py/qsonic/mpi_utils.py:158-173. -/
def emits : List W → Prog V W A → Prog V W A
  | [], p => p
  | w :: ws, p => emit w (emits ws p)

/-- A local computation that may raise. py/qsonic/mpi_utils.py:94-99. -/
def ofExcept : Except Err A → Prog V W A
  | .ok a => ret a
  | .error e => raise e

/-- Raises `e` if there is no value. py/qsonic/mpi_utils.py:104-105. -/
def orRaise (e : Err) : Option A → Prog V W A
  | none => raise e
  | some a => ret a

/-- Runs the local part of a rank up to its next blocking point. py/qsonic/scripts/qsonic_fit.py:452-530. -/
def peel : Prog V W A → List W × Prog V W A
  | emit w k => ((w :: (peel k).1), (peel k).2)
  | p => ([], p)

/-- py/qsonic/mpi_utils.py:102. -/
def asBcast? : Prog V W A → Option (V → Prog V W A)
  | bcast _ k => some k
  | _ => none

/-- py/qsonic/catalog.py:200. -/
def asScatter? : Prog V W A → Option (V → Prog V W A)
  | scatter _ k => some k
  | _ => none

/-- py/qsonic/picca_continuum.py:675. -/
def asGather? : Prog V W A → Option (V × (Option (List V) → Prog V W A))
  | gather v k => some (v, k)
  | _ => none

/-- py/qsonic/scripts/qsonic_fit.py:147. -/
def asReduce? : Prog V W A → Option (V × (Option V → Prog V W A))
  | reduce _ v k => some (v, k)
  | _ => none

/-- py/qsonic/picca_continuum.py:309-310. -/
def asAllreduce? : Prog V W A → Option (V × (V → Prog V W A))
  | allreduce _ v k => some (v, k)
  | _ => none

/-- py/qsonic/scripts/qsonic_fit.py:527. -/
def isAbort : Prog V W A → Bool
  | abort => true
  | _ => false

/-- The final result of a process that has ended. py/qsonic/scripts/qsonic_fit.py:506-530. -/
def result? : Prog V W A → Option (Except Err A)
  | ret a => some (.ok a)
  | raise e => some (.error e)
  | _ => none

end Prog

/-- How an MPI job ends. py/qsonic/scripts/qsonic_fit.py:506-530. -/
inductive Outcome (A : Type)
  /-- every process ended by itself; results in rank order -/
  | done (rs : List (Except Err A))
  /-- some process called `comm.Abort()`: the whole job is killed -/
  | aborted
  /-- some processes wait forever -/
  | deadlock
  /-- `comm.scatter` at the root with a list of the wrong length: mpi4py raises on the root
  while the others wait -/
  | badScatter
  deriving DecidableEq, Repr

open Prog

variable {V W A : Type}

/-- Global execution: root's program, the other ranks' programs, and the event logs so far.
The job advances when all ranks are at the same kind of collective. When the job is
aborted the logs contain what the other ranks could do before their next blocking point,
that is, the most that may have been observed. py/qsonic/scripts/qsonic_fit.py:506-530. -/
def run : Prog V W A → List (Prog V W A) → List W → List (List W) →
    Outcome A × List W × List (List W)
  | .emit w k, os, rl, ol => run k os (rl ++ [w]) ol
  | .abort, os, rl, ol => (.aborted, rl, List.zipWith (· ++ ·) ol (os.map (fun p => (peel p).1)))
  | .ret a, os, rl, ol =>
    let ps := os.map (fun p => (peel p).2)
    let ol := List.zipWith (· ++ ·) ol (os.map (fun p => (peel p).1))
    if ps.any isAbort then (.aborted, rl, ol) else
    match ps.mapM result? with
    | some rs => (.done (.ok a :: rs), rl, ol)
    | none => (.deadlock, rl, ol)
  | .raise e, os, rl, ol =>
    let ps := os.map (fun p => (peel p).2)
    let ol := List.zipWith (· ++ ·) ol (os.map (fun p => (peel p).1))
    if ps.any isAbort then (.aborted, rl, ol) else
    match ps.mapM result? with
    | some rs => (.done (.error e :: rs), rl, ol)
    | none => (.deadlock, rl, ol)
  | .bcast v k, os, rl, ol =>
    let ps := os.map (fun p => (peel p).2)
    let ol := List.zipWith (· ++ ·) ol (os.map (fun p => (peel p).1))
    if ps.any isAbort then (.aborted, rl, ol) else
    match ps.mapM asBcast? with
    | some ks => run (k v) (ks.map (· v)) rl ol
    | none => (.deadlock, rl, ol)
  | .scatter vs k, os, rl, ol =>
    let ps := os.map (fun p => (peel p).2)
    let ol := List.zipWith (· ++ ·) ol (os.map (fun p => (peel p).1))
    if ps.any isAbort then (.aborted, rl, ol) else
    match ps.mapM asScatter? with
    | none => (.deadlock, rl, ol)
    | some ks =>
      match vs with
      | some (v :: vs') =>
        if vs'.length = ks.length then run (k v) (List.zipWith (fun f x => f x) ks vs') rl ol
        else (.badScatter, rl, ol)
      | _ => (.badScatter, rl, ol)
  | .gather v k, os, rl, ol =>
    let ps := os.map (fun p => (peel p).2)
    let ol := List.zipWith (· ++ ·) ol (os.map (fun p => (peel p).1))
    if ps.any isAbort then (.aborted, rl, ol) else
    match ps.mapM asGather? with
    | some ks => run (k (some (v :: ks.map (·.1)))) (ks.map (·.2 none)) rl ol
    | none => (.deadlock, rl, ol)
  | .reduce op v k, os, rl, ol =>
    let ps := os.map (fun p => (peel p).2)
    let ol := List.zipWith (· ++ ·) ol (os.map (fun p => (peel p).1))
    if ps.any isAbort then (.aborted, rl, ol) else
    match ps.mapM asReduce? with
    | some ks => run (k (some (op (v :: ks.map (·.1))))) (ks.map (·.2 none)) rl ol
    | none => (.deadlock, rl, ol)
  | .allreduce op v k, os, rl, ol =>
    let ps := os.map (fun p => (peel p).2)
    let ol := List.zipWith (· ++ ·) ol (os.map (fun p => (peel p).1))
    if ps.any isAbort then (.aborted, rl, ol) else
    match ps.mapM asAllreduce? with
    | some ks =>
      let x := op (v :: ks.map (·.1))
      run (k x) (ks.map (·.2 x)) rl ol
    | none => (.deadlock, rl, ol)

/-- An MPI job of `n + 1` processes, each running `prog rank`: outcome and the event logs
per rank. py/qsonic/scripts/qsonic_fit.py:506-530. -/
def runJob (n : Nat) (prog : Nat → Prog V W A) : Outcome A × List (List W) :=
  let r := run (prog 0) ((List.range n).map (fun i => prog (i + 1))) [] (List.replicate n [])
  (r.1, r.2.1 :: r.2.2)

/-- Faithful serialisation of values of type `β` into the exchanged values `V`. py/qsonic/mpi_utils.py:102. -/
structure Codec (β V : Type) where
  enc : β → V
  dec : V → β
  dec_enc : ∀ b, dec (enc b) = b

/-- The trivial serialisation. py/qsonic/mpi_utils.py:102. -/
def Codec.refl (β : Type) : Codec β β := ⟨id, id, fun _ => rfl⟩

end Verif.Model
