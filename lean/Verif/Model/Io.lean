import Verif.Model.Catalog

/-!
# Model of the readers in `py/qsonic/io.py`

FITS files are values; opening a file that does not exist is `osError`. Rows of the image HDUs
are opaque (`Im`, and `Re` for resolution matrices): the readers only choose rows.
`argsort` is numpy's `argsort`; theorems quantify over every function that sorts.
-/

namespace Verif.Model
open Verif.Np

/-- The HDUs of one arm: wavelength, and one image row per fiber. `reso` is `none` if the file has
no RESOLUTION HDU for this arm. py/qsonic/io.py:278-296, 354-437. -/
structure ArmHdus (Wv Im Re : Type) where
  wave : Wv
  flux : List Im
  ivar : List Im
  mask : List Im
  reso : Option (List Re)

/-- A spectra file: FIBERMAP rows, and the HDUs per arm (`none` if absent). py/qsonic/io.py:354-437. -/
structure SpecFile (Val Wv Im Re : Type) where
  fibermap : List (Row Val)
  arms : String → Option (ArmHdus Wv Im Re)

/-- Resolution data of one arm: an image row per spectrum (three dimensions) or one matrix for all
(two dimensions). py/qsonic/spectrum.py:230-235. -/
inductive ResoData (Re : Type) where
  | rows (l : List Re)
  | common (m : Re)

/-- The entries of the dictionary `data` for one arm. `reso` is `none` if `data['reso']` does not
have the arm. py/qsonic/io.py:354-437. -/
structure ArmData (Wv Im Re : Type) where
  arm : String
  wave : Wv
  flux : List Im
  ivar : List Im
  mask : List Im
  reso : Option (ResoData Re)

/-- One arm of a spectrum just created. py/qsonic/spectrum.py:222-235. -/
structure RawArm (Wv Im Re : Type) where
  arm : String
  wave : Wv
  flux : Im
  ivar : Im
  mask : Im
  reso : Option Re

/-- A spectrum just created: catalog row, data per arm, and the row of true continuum.
py/qsonic/spectrum.py:175-245. -/
structure RawSpectrum (Val Wv Im Re Co : Type) where
  catrow : Row Val
  arms : List (RawArm Wv Im Re)
  cont : Option Co

/-- `l[i]` of an array. py/qsonic/spectrum.py:223-224. -/
def getIdx {α : Type} (l : List α) (i : Nat) : Except Err α :=
  match l[i]? with
  | some x => .ok x
  | none => .error .indexError

variable {Val Wv Im Re Co : Type} [LinearOrder Val]

/-- py/qsonic/io.py:410-430: one arm of the loop in `_read_onehealpix_file`. `_read_imagehdu`
and `_read_resoimage` (278-296) read the rows `idx` one by one; the widths are in Model/ReadImage (C103). -/
def readArm (file : SpecFile Val Wv Im Re) (idx : List Nat) (skipResomat : Bool) (arm : String) :
    Except Err (ArmData Wv Im Re) :=
  match file.arms arm with
  | none => .error .osError
  | some h => do
    let flux ← fancy h.flux idx
    let ivar ← fancy h.ivar idx
    let mask ← fancy h.mask idx
    let reso ← match skipResomat, h.reso with
      | false, some r => do let r ← fancy r idx; pure (some (ResoData.rows r))
      | _, _ => pure none
    pure ⟨arm, h.wave, flux, ivar, mask, reso⟩

/-- py/qsonic/io.py:354-437 `_read_onehealpix_file`: the data, the indices of the catalog rows
found, and the FIBERMAP rows read. The warning has no effect on the result. -/
def readOneHealpixFile (argsort : List Val → List Nat) (targetids : List Val)
    (file : Option (SpecFile Val Wv Im Re)) (arms : List String) (skipResomat : Bool) :
    Except Err (List (ArmData Wv Im Re) × List Nat × List (Row Val)) :=
  match file with
  | none => .error .osError
  | some file => do
    let fbrIds := file.fibermap.map (· "TARGETID")
    let idxCat := intersectIdx₂ fbrIds targetids                   -- lines 393-394
    let idxFbr := isinIdx fbrIds targetids                         -- line 402
    let idsFbr ← fancy fbrIds idxFbr                               -- line 403
    let idxFbr ← fancy idxFbr (argsort idsFbr)                     -- line 404
    let data ← arms.mapM (readArm file idxFbr skipResomat)
    let fbr ← fancy file.fibermap idxFbr
    pure (data, idxCat, fbr)

/-- One arm of `Spectrum.__init__` (py/qsonic/spectrum.py:220-236), the choice of the rows.
`noReso` is `not reso`. The masking of bad pixels is modelled elsewhere (C21). Simplification: the
arms are those of `data`; the code takes those of the first spectrum ever created in the process,
which in a run are the same. -/
def initArm (noReso : Bool) (idx : Nat) (a : ArmData Wv Im Re) : Except Err (RawArm Wv Im Re) := do
  let flux ← getIdx a.flux idx
  let ivar ← getIdx a.ivar idx
  let mask ← getIdx a.mask idx
  let reso ← if noReso then pure none else match a.reso with
    | none => .error .keyError
    | some (.common m) => pure (some m)
    | some (.rows l) => do let m ← getIdx l idx; pure (some m)
  pure ⟨a.arm, a.wave, flux, ivar, mask, reso⟩

/-- py/qsonic/spectrum.py:174-198 `Spectrum.from_dictionary`; `cont` is `data['cont']['data']`. -/
def fromDictionary (catrow : Row Val) (data : List (ArmData Wv Im Re)) (cont : Option (List Co))
    (idx : Nat) : Except Err (RawSpectrum Val Wv Im Re Co) := do
  let arms ← data.mapM (initArm (data.all (fun a => a.reso.isNone)) idx)
  let c ← match cont with
    | none => pure none
    | some l => do let x ← getIdx l idx; pure (some x)
  pure ⟨catrow, arms, c⟩

/-- Loop of `generate_spectra_list_from_data` from index `idx` on. py/qsonic/spectrum.py:42-46. -/
def generateFrom (data : List (ArmData Wv Im Re)) (cont : Option (List Co)) :
    Nat → List (Row Val) → Except Err (List (RawSpectrum Val Wv Im Re Co))
  | _, [] => .ok []
  | idx, r :: rs => do
    let s ← fromDictionary r data cont idx
    let ss ← generateFrom data cont (idx + 1) rs
    pure (s :: ss)

/-- py/qsonic/spectrum.py:42-46 `generate_spectra_list_from_data`. -/
def generateSpectraList (cat : List (Row Val)) (data : List (ArmData Wv Im Re))
    (cont : Option (List Co)) : Except Err (List (RawSpectrum Val Wv Im Re Co)) :=
  generateFrom data cont 0 cat

/-- `if idx_cat.size != cat.size: cat = cat[idx_cat]` (py/qsonic/io.py:541-542, 592-593, 650-651,
695-696). -/
def selectCat (cat : List (Row Val)) (idxCat : List Nat) : Except Err (List (Row Val)) :=
  if idxCat.length ≠ cat.length then fancy cat idxCat else .ok cat

/-- py/qsonic/io.py:534-547: the loop body of `read_onehealpix_file_data_coadd`, also 645-656 of
`read_onetile_coaddfile_data`, once the file is known. -/
def readGroup (argsort : List Val → List Nat) (file : Option (SpecFile Val Wv Im Re))
    (arms : List String) (skipResomat : Bool) (cat : List (Row Val)) :
    Except Err (List (RawSpectrum Val Wv Im Re Co)) := do
  let (data, idxCat, _) ← readOneHealpixFile argsort (cat.map (· "TARGETID")) file arms skipResomat
  let cat ← selectCat cat idxCat
  generateSpectraList cat data none

/-- First element of an array, `a[0]`. py/qsonic/io.py:188-189, 492. -/
def firstRow (cat : List (Row Val)) : Except Err (Row Val) := getIdx cat 0

/-- py/qsonic/io.py:499-549 `read_onehealpix_file_data_coadd`. `files survey pixnum` is the file
`{input_dir}/{survey}/{program}/{pixnum//100}/{pixnum}/coadd-{survey}-{program}-{pixnum}.fits`. -/
def readHealpixCoadd (argsort : List Val → List Nat)
    (files : Val → Val → Option (SpecFile Val Wv Im Re)) (arms : List String) (skipResomat : Bool)
    (cat : List (Row Val)) : Except Err (List (RawSpectrum Val Wv Im Re Co)) := do
  let groups := splitByKey (· "SURVEY") cat
  let first ← firstRow cat
  let specs ← groups.mapM fun g => do
    let r ← firstRow g
    readGroup argsort (files (r "SURVEY") (first "HPXPIXEL")) arms skipResomat g
  pure specs.flatten

/-- Columns read from the FIBERMAP of uncoadded files besides TARGETID (py/qsonic/io.py:590). -/
def fbrColumns : List String := ["PETAL_LOC", "FIBER", "NIGHT", "EXPID", "TILEID"]

/-- `merge_arrays((cat, fbrmap without TARGETID), flatten=True)`, row by row: fibermap columns are
added. py/qsonic/io.py:596-599. -/
def mergeRow (r fbr : Row Val) : Row Val := fun c => if c ∈ fbrColumns then fbr c else r c

/-- py/qsonic/io.py:586-603: the loop body of `read_onehealpix_file_data_uncoadd`. `cols` are the
catalog columns: a column in both arrays makes `merge_arrays` raise `ValueError`. -/
def readGroupUncoadd (argsort : List Val → List Nat) (cols : List String)
    (file : Option (SpecFile Val Wv Im Re)) (arms : List String) (skipResomat : Bool)
    (cat : List (Row Val)) : Except Err (List (RawSpectrum Val Wv Im Re Co)) := do
  let (data, idxCat, fbr) ←
    readOneHealpixFile argsort (cat.map (· "TARGETID")) file arms skipResomat
  let cat ← selectCat cat idxCat
  let ids := cat.map (· "TARGETID")
  let newCat ← fancy cat (fbr.map (fun f => searchsorted ids (f "TARGETID")))
  if fbrColumns.any (· ∈ cols) then .error .valueError
  else generateSpectraList (List.zipWith mergeRow newCat fbr) data none

/-- py/qsonic/io.py:552-605 `read_onehealpix_file_data_uncoadd`; files are `spectra-...fits`. -/
def readHealpixUncoadd (argsort : List Val → List Nat) (cols : List String)
    (files : Val → Val → Option (SpecFile Val Wv Im Re)) (arms : List String) (skipResomat : Bool)
    (cat : List (Row Val)) : Except Err (List (RawSpectrum Val Wv Im Re Co)) := do
  let groups := splitByKey (· "SURVEY") cat
  let first ← firstRow cat
  let specs ← groups.mapM fun g => do
    let r ← firstRow g
    readGroupUncoadd argsort cols (files (r "SURVEY") (first "HPXPIXEL")) arms skipResomat g
  pure specs.flatten

/-- py/qsonic/io.py:608-658 `read_onetile_coaddfile_data`; `files tileid lastnight petal` is the
file `{input_dir}/{tileid}/{lastnight}/coadd-{petal}-{tileid}-thru{lastnight}.fits`. -/
def readTile (argsort : List Val → List Nat)
    (files : Val → Val → Val → Option (SpecFile Val Wv Im Re)) (arms : List String)
    (skipResomat : Bool) (cat : List (Row Val)) :
    Except Err (List (RawSpectrum Val Wv Im Re Co)) := do
  let first ← firstRow cat
  let groups := splitByKey (· "PETAL_LOC") cat
  let specs ← groups.mapM fun g => do
    let r ← firstRow g
    readGroup argsort (files (first "TILEID") (first "LASTNIGHT") (r "PETAL_LOC")) arms skipResomat g
  pure specs.flatten

/-- A truth file of mocks: continuum rows with TARGETID, and a resolution matrix per arm.
py/qsonic/io.py:306-351, 661-711. -/
structure TruthFile (Val Re Co : Type) where
  contIds : List Val
  cont : List Co
  reso : String → Option Re

/-- py/qsonic/io.py:306-351 `_read_true_continuum`, the choice of rows. Simplification:
`intersect1d(..., assume_unique=True)` is the ordinary intersection, which is so for targets without
duplicates. -/
def readTrueContinuum (targetids : List Val) (truth : Option (TruthFile Val Re Co)) :
    Except Err (List Co) :=
  match truth with
  | none => .error .osError
  | some t =>
    if (intersectVals t.contIds targetids).length ≠ targetids.length then .error .runtimeError
    else fancy t.cont (intersectIdx₁ t.contIds targetids)

/-- py/qsonic/io.py:699-700: `data['cont']`, read only if asked for. -/
def mockContinuum (trueContinuum : Bool) (targetids : List Val)
    (truth : Option (TruthFile Val Re Co)) : Except Err (Option (List Co)) :=
  if trueContinuum then (readTrueContinuum targetids truth).map some else .ok none

/-- py/qsonic/io.py:705-709: the resolution matrix of each arm is taken from the truth file. -/
def setMockReso (t : TruthFile Val Re Co) (a : ArmData Wv Im Re) :
    Except Err (ArmData Wv Im Re) :=
  match t.reso a.arm with
  | none => .error .osError
  | some m => .ok { a with reso := some (.common m) }

/-- py/qsonic/io.py:661-711 `read_onehealpix_file_mock`; `files pixnum` is the spectra file and
`truths pixnum` the truth file of the pixel. -/
def readMock (argsort : List Val → List Nat) (files : Val → Option (SpecFile Val Wv Im Re))
    (truths : Val → Option (TruthFile Val Re Co)) (arms : List String)
    (skipResomat trueContinuum : Bool) (cat : List (Row Val)) :
    Except Err (List (RawSpectrum Val Wv Im Re Co)) := do
  let first ← firstRow cat
  let (data, idxCat, _) ← readOneHealpixFile argsort (cat.map (· "TARGETID"))
    (files (first "HPXPIXEL")) arms skipResomat
  let cat ← selectCat cat idxCat
  let cont ← mockContinuum trueContinuum (cat.map (· "TARGETID")) (truths (first "HPXPIXEL"))
  if skipResomat then generateSpectraList cat data cont
  else match truths (first "HPXPIXEL") with
    | none => .error .osError
    | some t => do
      let data ← data.mapM (setMockReso t)
      generateSpectraList cat data cont

end Verif.Model
