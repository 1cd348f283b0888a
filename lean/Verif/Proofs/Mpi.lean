import Verif.Model.Mpi
import Mathlib.Data.List.Basic
import Mathlib.Tactic.Common

/-! Lemmas about the global execution of MPI programs. -/

namespace Verif.Proofs
open Verif.Model Verif.Model.Prog

variable {V W A B : Type}

/-- Execution of a family of programs indexed by the rank, with the logs so far. -/
def runFam (n : Nat) (P : Nat → Prog V W A) (L : Nat → List W) :
    Outcome A × List W × List (List W) :=
  run (P 0) ((List.range n).map (fun i => P (i + 1))) (L 0)
    ((List.range n).map (fun i => L (i + 1)))

/-- Logs of a family as a list. -/
def logs (n : Nat) (L : Nat → List W) : List W × List (List W) :=
  (L 0, (List.range n).map (fun i => L (i + 1)))

theorem runJob_eq_runFam (n : Nat) (P : Nat → Prog V W A) :
    runJob n P = ((runFam n P (fun _ => [])).1,
      (runFam n P (fun _ => [])).2.1 :: (runFam n P (fun _ => [])).2.2) := by
  simp [runJob, runFam, List.map_const']

theorem peel_peel (p : Prog V W A) : peel (peel p).2 = ([], (peel p).2) := by
  induction p with
  | emit w k ih => simpa [peel] using ih
  | _ => rfl

theorem mapM_some_of_forall {α β : Type} (f : α → Option β) (g : α → β) (l : List α)
    (h : ∀ a ∈ l, f a = some (g a)) : l.mapM f = some (l.map g) := by
  induction l with
  | nil => rfl
  | cons a l ih =>
    rw [List.mapM_cons, h a (by simp), ih (fun b hb => h b (by simp [hb]))]
    rfl

theorem zipWith_range_map {α β γ : Type} (f : α → β → γ) (g : Nat → α) (h : Nat → β) (n : Nat) :
    List.zipWith f ((List.range n).map g) ((List.range n).map h) =
      (List.range n).map (fun i => f (g i) (h i)) := by
  rw [List.zipWith_map]
  generalize List.range n = l
  induction l with
  | nil => rfl
  | cons a l ih => simp [ih]

/-- Running the local part of the non-root ranks first does not change the execution. -/
theorem runFam_peel_others (n : Nat) (P : Nat → Prog V W A) (L : Nat → List W) :
    runFam n P L = runFam n (fun r => if r = 0 then P 0 else (peel (P r)).2)
      (fun r => if r = 0 then L 0 else L r ++ (peel (P r)).1) := by
  unfold runFam
  simp only [if_true, Nat.add_one_ne_zero, if_false]
  generalize P 0 = p
  generalize L 0 = rl
  induction p generalizing rl with
  | emit w k ih => simp only [run]; exact ih _
  | _ => simp only [run, List.map_map, Function.comp_def, zipWith_range_map, peel_peel,
      List.append_nil]

theorem peel_of_not_emit {p : Prog V W A} (h : ∀ w k, p ≠ .emit w k) : peel p = ([], p) := by
  cases p with
  | emit w k => exact absurd rfl (h w k)
  | _ => rfl

theorem runFam_root_emit (n : Nat) (P : Nat → Prog V W A) (L : Nat → List W) (w : W)
    (k : Prog V W A) (h : P 0 = .emit w k) :
    runFam n P L = runFam n (fun r => if r = 0 then k else P r)
      (fun r => if r = 0 then L 0 ++ [w] else L r) := by
  simp [runFam, h, run]

/-- Every rank, root included, may first do its local part. -/
theorem runFam_peel (n : Nat) (P : Nat → Prog V W A) (L : Nat → List W) :
    runFam n P L = runFam n (fun r => (peel (P r)).2) (fun r => L r ++ (peel (P r)).1) := by
  suffices h : ∀ p rl, run p ((List.range n).map (fun i => P (i + 1))) rl
      ((List.range n).map (fun i => L (i + 1))) =
      run (peel p).2 ((List.range n).map (fun i => (peel (P (i + 1))).2)) (rl ++ (peel p).1)
      ((List.range n).map (fun i => L (i + 1) ++ (peel (P (i + 1))).1)) from h (P 0) (L 0)
  intro p
  induction p with
  | emit w k ih => intro rl; simp only [run, peel]; rw [ih]; simp
  | _ =>
    intro rl
    simp only [run, List.map_map, Function.comp_def, zipWith_range_map, peel_peel,
      List.append_nil, peel]

/-- A job in which some rank is at `comm.Abort()` is aborted. -/
theorem runFam_abort (n : Nat) (P : Nat → Prog V W A) (L : Nat → List W)
    (h : ∃ r ≤ n, (peel (P r)).2 = .abort) : (runFam n P L).1 = .aborted := by
  obtain ⟨r, hr, h⟩ := h
  cases r with
  | zero =>
    rw [runFam_peel]
    simp [runFam, h, run]
  | succ r =>
    have hany : ((List.range n).map (fun i => (peel (P (i + 1))).2)).any isAbort = true := by
      rw [List.any_eq_true]
      refine ⟨(peel (P (r + 1))).2, ?_, by simp [h, isAbort]⟩
      exact List.mem_map.mpr ⟨r, by simp; omega, rfl⟩
    unfold runFam
    generalize P 0 = p
    generalize L 0 = rl
    induction p generalizing rl with
    | emit w k ih => simp only [run]; exact ih _
    | abort => rfl
    | _ => simp only [run, List.map_map, Function.comp_def, hany, if_true]

/-- All ranks at a broadcast: everybody gets the root's value. -/
theorem runFam_bcast (n : Nat) (v : Nat → V) (k : Nat → V → Prog V W A) (L : Nat → List W) :
    runFam n (fun r => .bcast (v r) (k r)) L = runFam n (fun r => k r (v 0)) L := by
  simp only [runFam, run, List.map_map, Function.comp_def, peel, zipWith_range_map,
    List.append_nil, isAbort]
  rw [if_neg (by simp [List.any_eq_true, isAbort])]
  rw [mapM_some_of_forall _ (fun p => (asBcast? p).getD (fun _ => p))]
  · simp [asBcast?, Function.comp_def]
  · intro a ha
    obtain ⟨i, -, rfl⟩ := List.mem_map.mp ha
    rfl

/-- All ranks at a scatter with one value per rank. -/
theorem runFam_scatter (n : Nat) (vs : Nat → Option (List V)) (k : Nat → V → Prog V W A)
    (L : Nat → List W) (xs : Nat → V) (h : vs 0 = some ((List.range (n + 1)).map xs)) :
    runFam n (fun r => .scatter (vs r) (k r)) L = runFam n (fun r => k r (xs r)) L := by
  simp only [runFam, run, List.map_map, Function.comp_def, peel, zipWith_range_map,
    List.append_nil, isAbort, h, List.range_succ_eq_map, List.map_cons]
  rw [if_neg (by simp [List.any_eq_true, isAbort])]
  rw [mapM_some_of_forall _ (fun p => (asScatter? p).getD (fun _ => p))]
  · simp only [asScatter?, Function.comp_def, List.map_map, List.length_map, List.length_range,
      if_true, Option.getD_some, zipWith_range_map]
  · intro a ha
    obtain ⟨i, -, rfl⟩ := List.mem_map.mp ha
    rfl

/-- All ranks at a gather. -/
theorem runFam_gather (n : Nat) (v : Nat → V) (k : Nat → Option (List V) → Prog V W A)
    (L : Nat → List W) :
    runFam n (fun r => .gather (v r) (k r)) L =
      runFam n (fun r => k r (if r = 0 then some ((List.range (n + 1)).map v) else none)) L := by
  simp only [runFam, run, List.map_map, Function.comp_def, peel, zipWith_range_map,
    List.append_nil, isAbort]
  rw [if_neg (by simp [List.any_eq_true, isAbort])]
  rw [mapM_some_of_forall _ (fun p => (asGather? p).getD (v 0, fun _ => p))]
  · simp [asGather?, Function.comp_def, List.range_succ_eq_map]
  · intro a ha
    obtain ⟨i, -, rfl⟩ := List.mem_map.mp ha
    rfl

/-- All ranks at a reduce. -/
theorem runFam_reduce (n : Nat) (op : Nat → List V → V) (v : Nat → V)
    (k : Nat → Option V → Prog V W A) (L : Nat → List W) :
    runFam n (fun r => .reduce (op r) (v r) (k r)) L =
      runFam n (fun r => k r (if r = 0 then some (op 0 ((List.range (n + 1)).map v)) else none)) L := by
  simp only [runFam, run, List.map_map, Function.comp_def, peel, zipWith_range_map,
    List.append_nil, isAbort]
  rw [if_neg (by simp [List.any_eq_true, isAbort])]
  rw [mapM_some_of_forall _ (fun p => (asReduce? p).getD (v 0, fun _ => p))]
  · simp [asReduce?, Function.comp_def, List.range_succ_eq_map]
  · intro a ha
    obtain ⟨i, -, rfl⟩ := List.mem_map.mp ha
    rfl

/-- All ranks at an allreduce. -/
theorem runFam_allreduce (n : Nat) (op : Nat → List V → V) (v : Nat → V)
    (k : Nat → V → Prog V W A) (L : Nat → List W) :
    runFam n (fun r => .allreduce (op r) (v r) (k r)) L =
      runFam n (fun r => k r (op 0 ((List.range (n + 1)).map v))) L := by
  simp only [runFam, run, List.map_map, Function.comp_def, peel, zipWith_range_map,
    List.append_nil, isAbort]
  rw [if_neg (by simp [List.any_eq_true, isAbort])]
  rw [mapM_some_of_forall _ (fun p => (asAllreduce? p).getD (v 0, fun _ => p))]
  · simp [asAllreduce?, Function.comp_def, List.range_succ_eq_map]
  · intro a ha
    obtain ⟨i, -, rfl⟩ := List.mem_map.mp ha
    rfl

/-- The process end that an `Except` value describes. -/
def fin : Except Err A → Prog V W A
  | .ok a => .ret a
  | .error e => .raise e

/-- All ranks have ended. -/
theorem runFam_fin (n : Nat) (x : Nat → Except Err A) (L : Nat → List W) :
    runFam n (fun r => (fin (x r) : Prog V W A)) L =
      (.done ((List.range (n + 1)).map x), logs n L) := by
  have hp : ∀ y : Except Err A, peel (fin y : Prog V W A) = ([], fin y) := by
    intro y; cases y <;> rfl
  have ha : ∀ y : Except Err A, (fin y : Prog V W A).isAbort = false := by
    intro y; cases y <;> rfl
  have hr : ∀ y : Except Err A, (fin y : Prog V W A).result? = some y := by
    intro y; cases y <;> rfl
  have hm : ((List.range n).map (fun i => (fin (x (i + 1)) : Prog V W A))).mapM
      result? = some ((List.range n).map (fun i => x (i + 1))) := by
    rw [mapM_some_of_forall _ (fun p => (result? p).getD (x 0))]
    · simp [Function.comp_def, hp, hr]
    · intro a h
      obtain ⟨i, -, rfl⟩ := List.mem_map.mp h
      simp [hp, hr]
  have hany : ((List.range n).map (fun i => (fin (x (i + 1)) : Prog V W A))).any
      isAbort = false := by
    rw [List.any_eq_false]
    intro y h
    obtain ⟨i, -, rfl⟩ := List.mem_map.mp h
    simp [hp, ha]
  unfold runFam
  cases h0 : x 0 with
  | ok a =>
    have h0' : (fin (x 0) : Prog V W A) = .ret a := by rw [h0]; rfl
    simp only [h0']
    simp only [run, List.map_map, Function.comp_def, zipWith_range_map, hp, hm, hany]
    simp [h0, logs, List.range_succ_eq_map, Function.comp_def]
  | error e =>
    have h0' : (fin (x 0) : Prog V W A) = .raise e := by rw [h0]; rfl
    simp only [h0']
    simp only [run, List.map_map, Function.comp_def, zipWith_range_map, hp, hm, hany]
    simp [h0, logs, List.range_succ_eq_map, Function.comp_def]

theorem runFam_congr (n : Nat) {P Q : Nat → Prog V W A} {L M : Nat → List W}
    (h : ∀ r ≤ n, P r = Q r) (hL : ∀ r ≤ n, L r = M r) : runFam n P L = runFam n Q M := by
  unfold runFam
  rw [h 0 (Nat.zero_le _), hL 0 (Nat.zero_le _)]
  congr 1
  · refine List.map_congr_left ?_
    intro i hi; exact h _ (by simp at hi; omega)
  · refine List.map_congr_left ?_
    intro i hi; exact hL _ (by simp at hi; omega)

end Verif.Proofs
