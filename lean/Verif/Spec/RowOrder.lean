import Verif.Model.Io
import Verif.Model.Masks
import Mathlib.Algebra.Group.End

/-!
# Specification vocabulary for the order of rows in files
-/

namespace Verif.Spec
open Verif.Model

variable {Val Wv Im Re Co : Type}

/-- The `i`-th element of `l'` is the element number `σ i` of `l`, and there are no others. -/
def Moved {α : Type} (σ : Equiv.Perm Nat) (l l' : List α) : Prop := ∀ i : Nat, l'[i]? = l[σ i]?

/-- The HDUs of one arm: all tables of `k` are those of `h` with the rows moved in the same way. -/
structure ArmMoved (σ : Equiv.Perm Nat) (h k : ArmHdus Wv Im Re) : Prop where
  wave : k.wave = h.wave
  flux : Moved σ h.flux k.flux
  ivar : Moved σ h.ivar k.ivar
  mask : Moved σ h.mask k.mask
  reso : Option.Rel (Moved σ) h.reso k.reso

/-- The same file with its rows (FIBERMAP and all images) in another order. -/
def SameFile (f g : SpecFile Val Wv Im Re) : Prop :=
  ∃ σ : Equiv.Perm Nat, Moved σ f.fibermap g.fibermap ∧ ∀ arm, Option.Rel (ArmMoved σ) (f.arms arm) (g.arms arm)

/-- The same truth file with its rows in another order. -/
def SameTruth (t u : TruthFile Val Re Co) : Prop :=
  u.reso = t.reso ∧ ∃ σ : Equiv.Perm Nat, Moved σ t.contIds u.contIds ∧ Moved σ t.cont u.cont

end Verif.Spec
