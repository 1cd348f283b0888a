import Verif.Model.CoaddFl

/-!
# Specification: the good pixels of a cell
-/

namespace Verif.Spec
open Verif.Np Verif.Model

variable {K : Type} [Field K] [LinearOrder K]

/-- Flux and inverse variance of a pixel that is not masked, if both are numbers and the inverse variance is positive. -/
def goodPix (p : FilePix K) : Option (K × K) :=
  match p.flux, p.ivar with
  | .fin f, .fin v => if p.mask = 0 ∧ 0 < v then some (f, v) else none
  | _, _ => none

end Verif.Spec
