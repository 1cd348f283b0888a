import Verif.Model.Io

/-!
# Specification vocabulary for the arrays read from images
-/

namespace Verif.Spec
open Verif.Model

variable {α Val : Type}

/-- `o` is the row of the file with `n` elements, all of them written; a row of one element is
repeated. -/
def CopyOf (n : Nat) (row : List α) (o : List (Option α)) : Prop :=
  (row.length = n ∧ o = row.map some) ∨ (∃ x, row = [x] ∧ o = List.replicate n (some x))

/-- `o` is the matrix of the file with `nd` rows of `n` elements; a single row is repeated. -/
def CopyMat (nd n : Nat) (m : List (List α)) (o : List (List (Option α))) : Prop :=
  ∃ o', List.Forall₂ (CopyOf n) m o' ∧
    ((o'.length = nd ∧ o = o') ∨ ∃ r, o' = [r] ∧ o = List.replicate nd r)

/-- All rows have `n` elements and none of them is left as `np.empty` made it. -/
def Filled (n : Nat) (out : List (List (Option α))) : Prop :=
  ∀ o ∈ out, o.length = n ∧ none ∉ o

/-- The rows of `out` are the rows `J` of the image, related by `R`. -/
def RowsAre {ρ σ : Type} (R : ρ → σ → Prop) (J : List Nat) (image : List ρ) (out : List σ) : Prop :=
  out.length = J.length ∧
  ∀ k i : Nat, J[k]? = some i → ∃ row o, image[i]? = some row ∧ out[k]? = some o ∧ R row o

/-- The image has the width of the wavelength array. -/
def Width (n : Nat) (image : List (List α)) : Prop := ∀ row ∈ image, row.length = n

/-- All images of the arms have the width of their wavelength array, and the matrices of an arm one
number of diagonals. -/
def ShapesOk (file : SpecFile Val (List α) (List α) (List (List α))) (arms : List String) : Prop :=
  ∀ arm ∈ arms, ∀ h, file.arms arm = some h →
    Width h.wave.length h.flux ∧ Width h.wave.length h.ivar ∧ Width h.wave.length h.mask ∧
    ∀ r, h.reso = some r → ∃ nd, ∀ m ∈ r, m.length = nd ∧ Width h.wave.length m

/-- Data whose elements have all been written. -/
def written (d : ArmData (List α) (List α) (List (List α))) :
    ArmData (List α) (List (Option α)) (List (List (Option α))) :=
  { arm := d.arm, wave := d.wave, flux := d.flux.map (·.map some), ivar := d.ivar.map (·.map some)
    mask := d.mask.map (·.map some)
    reso := d.reso.map fun r => match r with
      | .rows l => .rows (l.map (·.map (·.map some)))
      | .common m => .common (m.map (·.map some)) }

end Verif.Spec
