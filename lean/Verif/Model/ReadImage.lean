import Verif.Model.Io

/-!
# Model of `_read_imagehdu` and `_read_resoimage` in `py/qsonic/io.py`

`Verif.Model.readArm` only chooses rows. Here the rows are arrays with a width, and they are copied
into arrays made by `np.empty`. An element that has not been written is `none`. Number formats are
not modelled: the new array has the format of the image.
-/

namespace Verif.Model
open Verif.Np

variable {α : Type}

/-- `data[k, :] = row` for a row of `n` elements: numpy copies a row of the same width, repeats a row
of one element, and raises `ValueError` otherwise. py/qsonic/io.py:294. -/
def assignRow (n : Nat) (row : List α) : Except Err (List (Option α)) :=
  if row.length = n then .ok (row.map some)
  else match row with
    | [x] => .ok (List.replicate n (some x))
    | _ => .error .valueError

/-- `data[k, :, :] = m` for a matrix of `nd` rows of `n` elements, with the rule of `assignRow` in
both dimensions. py/qsonic/io.py:285. -/
def assignMat (nd n : Nat) (m : List (List α)) : Except Err (List (List (Option α))) := do
  let rows ← m.mapM (assignRow n)
  if rows.length = nd then .ok rows
  else match rows with
    | [r] => .ok (List.replicate nd r)
    | _ => .error .valueError

/-- py/qsonic/io.py:284-285 and 293-294: `for idata, iqso in enumerate(quasar_indices)`, from
`idata = k` on. A row outside of the image is `indexError`. -/
def fillRows {ρ σ : Type} (assign : ρ → Except Err σ) (image : List ρ) :
    List Nat → Nat → List σ → Except Err (List σ)
  | [], _, data => .ok data
  | i :: is, k, data => do
    let row ← getIdx image i
    let r ← assign row
    fillRows assign image is (k + 1) (data.set k r)

/-- py/qsonic/io.py:290-296 `_read_imagehdu`. -/
def readImageHdu (image : List (List α)) (idx : List Nat) (nwave : Nat) :
    Except Err (List (List (Option α))) :=
  fillRows (assignRow nwave) image idx 0
    (List.replicate idx.length (List.replicate nwave none))

/-- py/qsonic/io.py:278-287 `_read_resoimage`. `imhdu.get_dims()[1]` is taken from the first matrix;
an image without matrices has no diagonals, which no result depends on. -/
def readResoImage (image : List (List (List α))) (idx : List Nat) (nwave : Nat) :
    Except Err (List (List (List (Option α)))) :=
  let ndiags := (image.headD []).length
  fillRows (assignMat ndiags nwave) image idx 0
    (List.replicate idx.length (List.replicate ndiags (List.replicate nwave none)))

variable {Val : Type} [LinearOrder Val]

/-- py/qsonic/io.py:428-432: the resolution of one arm, if it is read. -/
def readArmReso (skipResomat : Bool) (reso : Option (List (List (List α)))) (idx : List Nat)
    (nwave : Nat) : Except Err (Option (ResoData (List (List (Option α))))) :=
  match skipResomat, reso with
  | false, some r => (readResoImage r idx nwave).map (fun l => some (ResoData.rows l))
  | _, _ => .ok none

/-- py/qsonic/io.py:417-432: one arm of the loop in `_read_onehealpix_file`, with widths. -/
def readArmShaped (file : SpecFile Val (List α) (List α) (List (List α))) (idx : List Nat)
    (skipResomat : Bool) (arm : String) :
    Except Err (ArmData (List α) (List (Option α)) (List (List (Option α)))) :=
  match file.arms arm with
  | none => .error .osError
  | some h => do
    let flux ← readImageHdu h.flux idx h.wave.length
    let ivar ← readImageHdu h.ivar idx h.wave.length
    let mask ← readImageHdu h.mask idx h.wave.length
    let reso ← readArmReso skipResomat h.reso idx h.wave.length
    pure ⟨arm, h.wave, flux, ivar, mask, reso⟩

/-- py/qsonic/io.py:354-437 `_read_onehealpix_file`, with widths. -/
def readHealpixShaped (argsort : List Val → List Nat) (targetids : List Val)
    (file : Option (SpecFile Val (List α) (List α) (List (List α)))) (arms : List String)
    (skipResomat : Bool) :
    Except Err (List (ArmData (List α) (List (Option α)) (List (List (Option α)))) × List Nat ×
      List (Row Val)) :=
  match file with
  | none => .error .osError
  | some file => do
    let fbrIds := file.fibermap.map (· "TARGETID")
    let idxCat := intersectIdx₂ fbrIds targetids
    let idxFbr := isinIdx fbrIds targetids
    let idsFbr ← fancy fbrIds idxFbr
    let idxFbr ← fancy idxFbr (argsort idsFbr)
    let data ← arms.mapM (readArmShaped file idxFbr skipResomat)
    let fbr ← fancy file.fibermap idxFbr
    pure (data, idxCat, fbr)

end Verif.Model
