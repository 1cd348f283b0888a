import Verif.Model.VarSmooth

/-!
# Specification of the smoothed variance
-/

namespace Verif.Spec
open Verif.Model

variable {K : Type} [Field K] [LinearOrder K]

/-- The bins, in order, in which the fit succeeded with a positive `var_lss`, with the fitted values and errors. `res`
is the result of the fit of a bin. -/
structure FittedBins (nw : Nat) (res : Nat → Option (List K × List K)) (good : List (Nat × List K × List K)) : Prop where
  sorted : good.Pairwise (fun a b => a.1 < b.1)
  mem : ∀ k p q, (k, p, q) ∈ good ↔ k < nw ∧ res k = some (p, q) ∧ 0 < p.headD 0

/-- A spline that stays between bounds of the values that it goes through. -/
def KeepsBounds (spline : List K → List K → List K → K → K) : Prop :=
  ∀ xs ys ws x lo hi, ys ≠ [] → (∀ y ∈ ys, lo ≤ y ∧ y ≤ hi) → lo ≤ spline xs ys ws x ∧ spline xs ys ws x ≤ hi

end Verif.Spec
