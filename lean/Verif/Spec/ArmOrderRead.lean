import Verif.Model.Io

/-!
# Spectra read with the arms in another order
-/

namespace Verif.Spec
open Verif.Model

variable {Val Wv Im Re Co : Type}

/-- The same spectrum with its arms in another order. -/
def RawOrder (x x' : RawSpectrum Val Wv Im Re Co) : Prop := x.catrow = x'.catrow ∧ x.cont = x'.cont ∧ x.arms.Perm x'.arms

/-- Both readers succeed with the same spectra, up to the order of the arms, or both raise. -/
def ReadsSame (a a' : Except Err (List (RawSpectrum Val Wv Im Re Co))) : Prop :=
  (∀ l, a = .ok l → ∃ l', a' = .ok l' ∧ List.Forall₂ RawOrder l l') ∧
    ∀ l', a' = .ok l' → ∃ l, a = .ok l ∧ List.Forall₂ RawOrder l l'

end Verif.Spec
