import Verif.Spec.CoaddLoop

/-!
# Specification vocabulary for coadding before or after the whole fit
-/

namespace Verif.Spec
open Verif.Model

variable {K : Type}

/-- Both spectra have the one arm `brz` with the same wavelengths, flux, inverse variance and continuum. -/
def SameForest (s t : Spectrum K) : Prop :=
  s.valid = t.valid ∧ s.z = t.z ∧ s.fwave.keys = ["brz"] ∧ s.fwave = t.fwave ∧ s.fflux.arr "brz" = t.fflux.arr "brz" ∧
    s.fivar.arr "brz" = t.fivar.arr "brz" ∧ s.cont.arr "brz" = t.cont.arr "brz"

end Verif.Spec
