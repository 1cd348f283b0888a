import Verif.Model.Delta

/-!
# Model of `py/qsonic/scripts/qsonic_coadd_deltas.py`

Not modelled: the pools of processes (`pool.map` and `starmap` give the results in order).
-/

namespace Verif.Model
open Verif.Np

variable {K : Type} [Field K] [LinearOrder K] [FloorRing K]

/-- py/qsonic/scripts/qsonic_coadd_deltas.py:73-77: one delta. `coadd y x` is `y` after `y.coadd(x)`. -/
def addToForests (coadd : Delta K → Delta K → Except Err (Delta K)) (d : List (HVal K × Delta K)) (x : Delta K) :
    Except Err (List (HVal K × Delta K)) :=
  match d.lookup x.targetid with
  | some y => do
    let z ← coadd y x
    .ok (dictSet d x.targetid z)
  | none => .ok (dictSet d x.targetid x)

/-- py/qsonic/scripts/qsonic_coadd_deltas.py:42-79 `read_dirs_to_dict`. `glob` is
`glob.glob(f"{directory}/delta-*.fits")`, `read`
is `qsonic.io.read_deltas`. -/
def readDirsToDict (glob : String → List String) (read : String → Except Err (List (Delta K)))
    (coadd : Delta K → Delta K → Except Err (Delta K)) (directories : List String) :
    Except Err (List (HVal K × Delta K)) :=
  if (directories.flatMap glob).isEmpty then .error .exception
  else do
    let deltas ← (directories.flatMap glob).mapM read
    deltas.flatten.foldlM (addToForests coadd) []

/-- A number in the header of a delta. Simplified: a string or an integer raises `TypeError` (an integer would be
converted). py/qsonic/spectrum.py:1044-1052. -/
def headerNum (d : Delta K) (key : String) : Except Err K :=
  match d.header.lookup key with
  | some (.num x) => .ok x
  | some _ => .error .typeError
  | none => .error .keyError

/-- py/qsonic/scripts/qsonic_coadd_deltas.py:113-115: `ang2pix` is `healpy.ang2pix` of the angles in radians of the
header. -/
def deltaPixel (ang2pix : K → K → Nat) (d : Delta K) : Except Err Nat := do
  let ra ← headerNum d "RA"
  let dec ← headerNum d "DEC"
  .ok (ang2pix ra dec)

/-- `forest_by_hpx[hpx].append(delta)` of a `defaultdict(list)`. py/qsonic/scripts/qsonic_coadd_deltas.py:116. -/
def appendTo {D : Type} (g : List (Nat × List D)) (hpx : Nat) (d : D) : List (Nat × List D) :=
  dictSet g hpx ((g.lookup hpx).getD [] ++ [d])

/-- py/qsonic/scripts/qsonic_coadd_deltas.py:112-116. -/
def groupByPixel (pixel : Delta K → Except Err Nat) (forests : List (HVal K × Delta K)) :
    Except Err (List (Nat × List (Delta K))) :=
  forests.foldlM (fun g x => do
    let p ← pixel x.2
    .ok (appendTo g p x.2)) []

/-- py/qsonic/scripts/qsonic_coadd_deltas.py:82-98 `write_one_hpx`: name and HDUs of the file, which is new
(`clobber`). -/
def writeOneHpx (name : HVal K → String) (outputDir : String) (x : Nat × List (Delta K)) :
    Except Err (String × List (Hdu K)) := do
  let hdus ← x.2.mapM (Delta.write name)
  .ok (outputDir ++ "/delta-" ++ Nat.repr x.1 ++ ".fits", hdus)

/-- py/qsonic/scripts/qsonic_coadd_deltas.py:101-124 `main`: the files written. -/
def coaddDeltasMain (glob : String → List String) (read : String → Except Err (List (Delta K)))
    (coadd : Delta K → Delta K → Except Err (Delta K)) (ang2pix : K → K → Nat) (name : HVal K → String)
    (directories : List String) (outputDir : String) : Except Err (List (String × List (Hdu K))) := do
  let forests ← readDirsToDict glob read coadd directories
  let groups ← groupByPixel (deltaPixel ang2pix) forests
  groups.mapM (writeOneHpx name outputDir)

end Verif.Model
