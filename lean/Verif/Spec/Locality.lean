import Verif.Spec.Spectrum
import Verif.Model.Created

/-!
# Specification vocabulary: data that agree in some pixels
-/

namespace Verif.Spec
open Verif Verif.Np Verif.Model Spectrum

variable {K α : Type} [Field K] [LinearOrder K]

/-- The two arrays have the same values in the pixels whose wavelength satisfies `p`. -/
def AgreeAt (p : K → Prop) (wave : List K) (a b : List α) : Prop :=
  ∀ (i : Nat) (w : K), wave[i]? = some w → p w → a[i]? = b[i]?

/-- So do the arrays of all arms. -/
def ArmsAgree (p : K → Prop) (wave : Dict (List K)) (a b : Dict (List α)) : Prop :=
  ∀ x ∈ wave, AgreeAt p x.2 (a.arr x.1) (b.arr x.1)

/-- So do all rows of the resolution matrices, of which there are as many. -/
def ResoAgree (p : K → Prop) (wave : Dict (List K)) (a b : Dict (List (List α))) : Prop :=
  (a = [] ↔ b = []) ∧ ∀ x ∈ wave, List.Forall₂ (AgreeAt p x.2) (a.arr x.1) (b.arr x.1)

section
variable {K : Type} [Field K] [LinearOrder K] [FloorRing K]

/-- Two spectra created from data which agree in the pixels of the forest, and from Lya on in flux and ivar. -/
inductive LikeSpec (C : SelectCfg K) (lya : K) : ReadSpec K → ReadSpec K → Prop
  | mk {row : MaskRow K} {z dwave : K} {wave f v f' v' : Dict (List K)} {r r' : Dict (List (List K))}
    (data : DataOk (blank z dwave wave f v r)) (data' : DataOk (blank z dwave wave f' v' r'))
    (flux : ArmsAgree (InForest z C.wave1 C.wave2 C.forestW1 C.forestW2) wave f' f)
    (ivar : ArmsAgree (InForest z C.wave1 C.wave2 C.forestW1 C.forestW2) wave v' v)
    (reso : ResoAgree (InForest z C.wave1 C.wave2 C.forestW1 C.forestW2) wave r' r)
    (redFlux : ArmsAgree (fun w => (1 + z) * lya ≤ w) wave f' f)
    (redIvar : ArmsAgree (fun w => (1 + z) * lya ≤ w) wave v' v) :
    LikeSpec C lya (createdSpec C.sqrt C.eps lya row z dwave wave f v r)
      (createdSpec C.sqrt C.eps lya row z dwave wave f' v' r')

/-- Two files from which such spectra are read, or which raise the same error. -/
inductive LikeFile (C : SelectCfg K) (lya : K) : Except Err (List (ReadSpec K)) → Except Err (List (ReadSpec K)) → Prop
  | error (e : Err) : LikeFile C lya (.error e) (.error e)
  | ok {l l' : List (ReadSpec K)} (h : List.Forall₂ (LikeSpec C lya) l l') : LikeFile C lya (.ok l) (.ok l')

end

end Verif.Spec
