import Verif.Model.Attributes
import Verif.Spec.SameJob
import Verif.Spec.Fitter

/-!
# Specification: the file that a run leaves
-/

namespace Verif.Spec
open Verif Verif.Model

/-- The extensions that a rank wrote, in their order. -/
def writtenExts {D : Type} (log : List (SaverEv D)) : List D :=
  log.filterMap (fun e => match e with | .write _ d => some d | _ => none)

end Verif.Spec
