import Verif.Model.Io
import Verif.Np.Dict

/-!
# Model of `save_deltas`, `get_spectra_reader_function` and the resolution-only reader
(`py/qsonic/io.py`)
-/

namespace Verif.Model
open Verif.Np

/-- What `save_deltas` uses of a spectrum: the pixel (`spec.hpix`, the column HPXPIXEL of its
catalog row, py/qsonic/spectrum.py:785-787) and `cont_params['valid']`. `data` stands for the rest. -/
structure SavedSpec (κ S : Type) where
  hpix : κ
  valid : Bool
  data : S

/-- The file `{outdir}/delta-{name}.fits`, where the name is a pixel or a rank. py/qsonic/io.py:226-275. -/
inductive DeltaName (κ : Type) where
  | pix (p : κ)
  | rank (r : Nat)
  deriving DecidableEq

/-- py/qsonic/spectrum.py:49-51 `valid_spectra`. -/
def validSpectra {κ S : Type} (l : List (SavedSpec κ S)) : List (SavedSpec κ S) :=
  l.filter (·.valid)

/-- py/qsonic/io.py:226-275 `save_deltas`: the files created, in order, each with the spectra
written to it. A file that exists is replaced (`clobber=True`). Simplification: the names of pixels
and of ranks are different here; in the code both are numbers (a run uses one of them). -/
def saveDeltas {κ S : Type} [LinearOrder κ] (argsort : List κ → List Nat) (blindingSet : Bool)
    (spectra : List (SavedSpec κ S)) (outdir : Bool) (saveByHpx : Bool) (mpiRank : Option Nat) :
    Except Err (List (DeltaName κ × List (SavedSpec κ S))) :=
  if outdir = false then .ok []                                     -- lines 250-251
  else if saveByHpx then do                                         -- lines 253-258
    let pixnos := spectra.map (·.hpix)
    let idx := argsort pixnos
    let sorted ← fancy spectra idx
    let pieces := splitByKey (·.hpix) sorted
    if blindingSet = false then .error .qsonic                      -- lines 265-266
    else .ok (((uniqueVals (sorted.map (·.hpix))).zip pieces).map
      (fun x => (.pix x.1, validSpectra x.2)))                      -- lines 268-275
  else match mpiRank with
    | none => .error .qsonic                                        -- line 263
    | some r =>                                                     -- lines 259-261
      if blindingSet = false then .error .qsonic
      else .ok [(.rank r, validSpectra spectra)]

/-- The readers of io.py. py/qsonic/io.py:77-149. -/
inductive Reader where
  | mock | tile | uncoadd | coadd
  deriving DecidableEq, Repr

/-- A reader with the keyword arguments bound by `functools.partial`. py/qsonic/io.py:77-149. -/
structure BoundReader where
  reader : Reader
  inputDir : String
  arms : List String
  skipResomat : Bool
  trueContinuum : Option Bool
  program : Option String
  deriving DecidableEq, Repr

/-- py/qsonic/io.py:77-149 `get_spectra_reader_function`. -/
def getSpectraReaderFunction (inputDir : String) (arms : List String)
    (mock skipResomat trueContinuum isTile exposures : Bool) (program : String) : BoundReader :=
  if mock then ⟨.mock, inputDir, arms, skipResomat, some trueContinuum, none⟩
  else if isTile then ⟨.tile, inputDir, arms, skipResomat, none, none⟩
  else if exposures then ⟨.uncoadd, inputDir, arms, skipResomat, none, some program⟩
  else ⟨.coadd, inputDir, arms, skipResomat, none, some program⟩

/-! ### Resolution matrices only -/

/-- What the resolution-only reader uses of a spectrum: arms with data (`wave.keys()`), arms of the
forest with their pixel range (`_f1`, `_f2`), and the forest resolution it sets. py/qsonic/io.py:440-496. -/
structure ResoSpec (Val Re : Type) where
  targetid : Val
  waveArms : List String
  forest : List (String × Nat × Nat)
  forestreso : List (String × Re)

variable {Val Wv Im Re : Type} [LinearOrder Val]

/-- py/qsonic/io.py:484-492: one spectrum and arm of the inner loop; `cut f1 f2` are the columns
`f1:f2` of a resolution image row. -/
def setReso (cut : Nat → Nat → Re → Re) (hdu : List Re) (arm : String) (jj : Nat)
    (spec : ResoSpec Val Re) : Except Err (ResoSpec Val Re) :=
  match spec.forest.lookup arm with
  | none => .ok spec
  | some (f1, f2) =>
    match hdu[jj]? with
    | none => .error .indexError
    | some m => .ok { spec with forestreso := dictSet spec.forestreso arm (cut f1 f2 m) }

/-- The inner loop over `zip(idx_fbr, spectra_list)`: spectra beyond the shorter list are left as
they are. py/qsonic/io.py:484-492. -/
def setResoAll (cut : Nat → Nat → Re → Re) (hdu : List Re) (arm : String) :
    List Nat → List (ResoSpec Val Re) → Except Err (List (ResoSpec Val Re))
  | jj :: js, s :: ss => do
    let s ← setReso cut hdu arm jj s
    let ss ← setResoAll cut hdu arm js ss
    pure (s :: ss)
  | _, ss => .ok ss

/-- The resolution HDU of an arm. py/qsonic/io.py:482. -/
def resoHdu (file : SpecFile Val Wv Im Re) (arm : String) : Except Err (List Re) :=
  match (file.arms arm).bind (·.reso) with
  | none => .error .osError
  | some h => .ok h

/-- The loop over arms in `_read_onehealpix_file_onlyreso`. py/qsonic/io.py:481-492. -/
def onlyResoArms (cut : Nat → Nat → Re → Re) (file : SpecFile Val Wv Im Re) (idx : List Nat) :
    List String → List (ResoSpec Val Re) → Except Err (List (ResoSpec Val Re))
  | [], ss => .ok ss
  | arm :: arms, ss => do
    let hdu ← resoHdu file arm
    let ss ← setResoAll cut hdu arm idx ss
    onlyResoArms cut file idx arms ss

/-- py/qsonic/io.py:440-496 `_read_onehealpix_file_onlyreso`. Simplification: with
`assume_unique=True` the intersection is the ordinary one if both inputs are free of duplicates. -/
def readOnlyReso (cut : Nat → Nat → Re → Re) (targetids : List Val)
    (file : Option (SpecFile Val Wv Im Re)) (arms : List String) (ss : List (ResoSpec Val Re)) :
    Except Err (List (ResoSpec Val Re)) :=
  match file with
  | none => .error .osError
  | some f =>
    onlyResoArms cut f (intersectIdx₁ (f.fibermap.map (· "TARGETID")) targetids) arms ss

/-- `l[i:j] = new` for a list. py/qsonic/io.py:196. -/
def setSlice {α : Type} (l : List α) (i j : Nat) (new : List α) : List α :=
  l.take i ++ new ++ l.drop (max i j)

/-- The loop of `read_resolution_matrices_onehealpix_data` over the groups with their bounds.
py/qsonic/io.py:187-197. -/
def resoGroups (cut : Nat → Nat → Re → Re) (files : Val → Val → Option (SpecFile Val Wv Im Re))
    (arms : List String) : List (List (Row Val)) → List Nat → List (ResoSpec Val Re) →
    Except Err (List (ResoSpec Val Re))
  | g :: gs, i1 :: i2 :: is, ss => do
    let r ← firstRow g
    let new ← readOnlyReso cut (g.map (· "TARGETID")) (files (r "SURVEY") (r "HPXPIXEL")) arms
      (slice ss i1 i2)
    resoGroups cut files arms gs (i2 :: is) (setSlice ss i1 i2 new)
  | _, _, ss => .ok ss

/-- py/qsonic/io.py:152-199 `read_resolution_matrices_onehealpix_data`. -/
def readResolutionMatrices (cut : Nat → Nat → Re → Re)
    (files : Val → Val → Option (SpecFile Val Wv Im Re)) (cat : List (Row Val))
    (ss : List (ResoSpec Val Re)) : Except Err (List (ResoSpec Val Re)) := do
  let s2 := uniqueIdx (cat.map (· "SURVEY"))
  let groups := splitByKey (· "SURVEY") cat
  let first ← getIdx ss 0
  resoGroups cut files first.waveArms groups (s2 ++ [ss.length]) ss

end Verif.Model
