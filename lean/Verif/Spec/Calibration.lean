import Verif.Model.Spectrum

/-!
# Specification vocabulary for calibration
-/

namespace Verif.Spec
open Verif.Np Verif.Model

/-- `s'` is `s` with other ivar and nothing else changed: the arms and lengths are the same, and `R` relates
arm, index, wavelength, old and new ivar of every pixel. -/
structure IvarChange {K : Type} (R : String → Nat → K → K → K → Prop) (s s' : Spectrum K) : Prop where
  rest : s' = { s with fivar := s'.fivar }
  keys : s'.fivar.keys = s.fivar.keys
  length : ∀ arm w, s.fwave.lookup arm = some w → (s'.fivar.arr arm).length = w.length
  pixel : ∀ arm w, s.fwave.lookup arm = some w → ∀ (i : Nat) (x v v' : K), w[i]? = some x →
    (s.fivar.arr arm)[i]? = some v → (s'.fivar.arr arm)[i]? = some v' → R arm i x v v'

/-- Every arm of the forest has a continuum of its length. -/
def HasCont {K : Type} (s : Spectrum K) : Prop :=
  ∀ arm w, s.fwave.lookup arm = some w →
    arm ∈ s.cont.keys ∧ (s.cont.arr arm).length = w.length

end Verif.Spec
