import Verif.Model.Mpi

/-!
# Specification of the end of a job
-/

namespace Verif.Spec
open Verif.Model

/-- An exception which `main` answers with `comm.Abort()`. -/
def Unexpected (e : Err) : Prop := e.isException = true ∧ e ≠ .qsonic

/-- A job of `n + 1` processes ends cleanly: all ranks finish, or all exit with one status, or the job is aborted. -/
def CleanEnd {A : Type} (n : Nat) (x : Outcome A) : Prop :=
  (∃ a : Nat → A, x = .done ((List.range (n + 1)).map (fun r => .ok (a r)))) ∨
  (∃ c : Int, x = .done (List.replicate (n + 1) (.error (.systemExit c)))) ∨
  x = .aborted

end Verif.Spec
