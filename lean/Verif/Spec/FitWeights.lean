import Verif.Model.Spectrum

/-! Specification of the weights of a fitted spectrum. -/

namespace Verif.Spec
open Verif.Np Verif.Model

variable {K : Type} [Field K]

/-- The weight of every pixel of the forest is that of the functions `varlss` and `eta`, computed from its (smoothed) ivar and
its continuum. -/
def WeightsOf (varlss eta : K → K) (s : Spectrum K) : Prop :=
  ∀ arm w, s.fwave.lookup arm = some w → ∀ (i : Nat) (x c v p : K), w[i]? = some x → (s.cont.arr arm)[i]? = some c →
    (s.fivarSm.arr arm)[i]? = some v → (s.fweight.arr arm)[i]? = some p → p = v / (eta x + v * (varlss x * c ^ 2))

/-- The weighted sum of squares of the difference to the continuum. -/
def chi2Of (s : Spectrum K) : K :=
  (s.fwave.map (fun a => (List.zipWith (fun p fc => p * (fc.1 - fc.2) ^ 2) (s.fweight.arr a.1)
    ((s.fflux.arr a.1).zip (s.cont.arr a.1))).sum)).sum

end Verif.Spec
