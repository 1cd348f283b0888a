import Verif.Model.FitParams
import Mathlib.Algebra.BigOperators.Group.Finset.Basic

/-!
# Specification: a continuum from its parameters
-/

namespace Verif.Spec
open Verif.Model

variable {K : Type} [Field K]

/-- The continuum at the observed wavelength `w` of a quasar at redshift `z` with the coefficients `a`: the mean
continuum in the rest frame times the polynomial times the mean flux. The variable of the polynomial goes from -1 at
`first` to 1 at `last`, in the logarithm of the rest-frame wavelength. -/
def contFrom (log mean flux : K → K) (first last z : K) (a : List K) (w : K) : K :=
  mean (w / (1 + z)) *
    (∑ k ∈ Finset.range a.length, a.getD k 0 * (2 * (log (w / (1 + z) / first) / log (last / first)) - 1) ^ k) * flux w

/-- A matrix of `n` rows and `n` columns. -/
def SquareMat (n : Nat) (m : List (List K)) : Prop := m.length = n ∧ ∀ row ∈ m, row.length = n

/-- A minimizer returns as many parameters as it starts with, and their covariance. -/
structure Shapes (C : FullCfg K) (cov : (List K → K) → List K → List (List K)) : Prop where
  x : ∀ f x0, (C.minimize f x0).2.length = x0.length
  xcov : ∀ f x0, SquareMat x0.length (cov f x0)

end Verif.Spec
