import Verif.Model.Mpi
import Mathlib.Data.List.Forall2

/-!
# Jobs that end in the same way
-/

namespace Verif.Spec
open Verif.Model

variable {A B : Type}

/-- Two processes end in the same way: with the same exception, or with results in the relation `R`. -/
def SameResult (R : A → B → Prop) : Except Err A → Except Err B → Prop
  | .ok a, .ok b => R a b
  | .error e, .error e' => e = e'
  | _, _ => False

/-- Two jobs end in the same way: rank by rank if all processes end. -/
def SameOutcome (R : A → B → Prop) : Outcome A → Outcome B → Prop
  | .done l, .done l' => List.Forall₂ (SameResult R) l l'
  | .aborted, .aborted => True
  | .deadlock, .deadlock => True
  | .badScatter, .badScatter => True
  | _, _ => False

/-- The results of the ranks that ended without exception. -/
def resultsOf {A : Type} : Outcome A → List A
  | .done l => l.filterMap Except.toOption
  | _ => []

end Verif.Spec
