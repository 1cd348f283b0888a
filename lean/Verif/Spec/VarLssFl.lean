import Verif.Model.VarLssFl
import Verif.Spec.VarLss

/-!
# Specification: the pixels that count in the variance statistics
-/

namespace Verif.Spec
open Verif.Np Verif.Model

variable {K : Type} [Field K] [LinearOrder K]

/-- Wavelength, delta and inverse variance of delta of a pixel, if flux, inverse variance and continuum are numbers, the
continuum is not zero and the inverse variance is positive. -/
def goodDelta (p : FlPix K) : Option (VPix K) :=
  match p.flux, p.ivar, p.cont with
  | .fin f, .fin v, .fin c => if c ≠ 0 ∧ 0 < v then some ⟨p.wave, f / c - 1, v * c ^ 2⟩ else none
  | _, _, _ => none

end Verif.Spec
