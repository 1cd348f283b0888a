import Verif.Spec.Fitter

/-!
# Specification: spectra whose fit fails
-/

namespace Verif.Spec
open Verif.Model

variable {G Sp R Q D : Type}

/-- The spectrum `x` after `i` iterations with the functions `g 0`, `g 1`, ... -/
def afterFits (F : FitterFns G Sp R Q D) (g : Nat → G) : Nat → Sp → Sp
  | 0, x => x
  | i + 1, x => F.fitOne (g i) (afterFits F g i x)

/-- Iteration `i` is done: there are so many, and none before converged or was left without a valid spectrum. -/
def Performed (F : FitterFns G Sp R Q D) (n niter : Nat) (sp : Nat → Nat → List Sp) (conv : Nat → Bool) (i : Nat) :
    Prop :=
  0 < i ∧ i ≤ niter ∧ ∀ l, 0 < l → l < i → conv l = false ∧ SomeValid F n (sp l)

end Verif.Spec
