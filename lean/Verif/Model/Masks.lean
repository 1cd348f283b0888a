import Verif.Model.Spectrum
import Verif.Np.Err
import Mathlib.Algebra.BigOperators.Group.List.Basic

/-!
# Model of the masks (`py/qsonic/masks.py`) and of `apply_masks`

The forest arrays are changed in place; they are copies of the arrays of the full spectrum
(py/qsonic/spectrum.py:332-336), which stay as they are. Not modelled: reading the files.
-/

namespace Verif.Model
open Verif.Np

variable {K : Type} [Field K] [LinearOrder K]

/-- `w[idx1:idx2] = 1`. py/qsonic/masks.py:102, 196. -/
def markRange (w : List Bool) (r : Nat × Nat) : List Bool :=
  w.mapIdx (fun i b => b || (decide (r.1 ≤ i) && decide (i < r.2)))

/-- py/qsonic/masks.py:87, 101-102: the mask of an arm of `n` pixels from index ranges. -/
def markRanges (n : Nat) (rs : List (Nat × Nat)) : List Bool :=
  rs.foldl markRange (List.replicate n false)

/-- `a[w] = 0` (arrays of the same length). py/qsonic/masks.py:104-105, 198-199, 459-460. -/
def zeroWhere (w : List Bool) (a : List K) : List K :=
  List.zipWith (fun b x => if b then 0 else x) w a

/-- py/qsonic/masks.py:104-105, 198-199: flux and ivar of the masked pixels of an arm. -/
def zeroArm (s : Spectrum K) (arm : String) (w : List Bool) : Spectrum K :=
  { s with
    fflux := s.fflux.set arm (zeroWhere w (s.fflux.arr arm))
    fivar := s.fivar.set arm (zeroWhere w (s.fivar.arr arm)) }

/-- A line of a sky mask file: minimum and maximum wavelength and frame. py/qsonic/masks.py:67-106. -/
structure SkyLine (K : Type) where
  wmin : K
  wmax : K
  frame : String

/-- py/qsonic/masks.py:66-105 `SkyMask.__init__` and one arm of `SkyMask.apply`: the index ranges to
mask. -/
def skyRanges (lines : List (SkyLine K)) (z : K) (wave : List K) : List (Nat × Nat) :=
  (lines.filter (fun l => decide (l.frame = "OBS"))).map
    (fun l => (searchsorted wave l.wmin, searchsorted wave l.wmax)) ++
  (lines.filter (fun l => decide (l.frame = "RF"))).map
    (fun l => (searchsorted (wave.map (fun w => w / (1 + z))) l.wmin,
      searchsorted (wave.map (fun w => w / (1 + z))) l.wmax))

/-- py/qsonic/masks.py:76-105 `SkyMask.apply`. -/
def skyApply (lines : List (SkyLine K)) (s : Spectrum K) : Spectrum K :=
  s.fwave.foldl (fun t x => zeroArm t x.1 (markRanges x.2.length (skyRanges lines s.z x.2))) s

/-- py/qsonic/masks.py:114-132 `BALMask.lines`. -/
def balLines : List K :=
  [1549, 1403, 1394, 124081 / 100, 12161 / 10, 1175, 1128, 1117, 1074, 1062, 1031, 1037, 1039,
    10257 / 10, 9725 / 10, 977, 9899 / 10, 9497 / 10]

/-- py/qsonic/masks.py:13 `LIGHT_SPEED`. -/
def lightSpeed : K := 299792458 / 1000

/-- The entries of a catalog row that the masks use. py/qsonic/masks.py:165-168. -/
structure MaskRow (K : Type) where
  targetid : Int
  vmin450 : List K
  vmin2000 : List K
  vmax450 : List K
  vmax2000 : List K

/-- py/qsonic/masks.py:164-171: pairs of velocities that are both positive. -/
def balVelocities (row : MaskRow K) : List (K × K) :=
  ((row.vmin450 ++ row.vmin2000).zip (row.vmax450 ++ row.vmax2000)).filter
    (fun p => decide (0 < p.1) && decide (0 < p.2))

/-- py/qsonic/masks.py:176-183: wavelength ranges, one for each line and velocity pair. -/
def balRanges (row : MaskRow K) (z : K) : List (K × K) :=
  balLines.flatMap (fun l => (balVelocities row).map
    (fun p => (l * (1 + z) * (1 - p.2 / lightSpeed), l * (1 + z) * (1 - p.1 / lightSpeed))))

/-- py/qsonic/masks.py:188-194: index ranges of an arm, first index first. -/
def balIdx (wave : List K) (r : K × K) : Nat × Nat :=
  (min (searchsorted wave r.1) (searchsorted wave r.2),
    max (searchsorted wave r.1) (searchsorted wave r.2))

/-- py/qsonic/masks.py:155-199 `BALMask.apply`. -/
def balApply (row : MaskRow K) (s : Spectrum K) : Spectrum K :=
  if balVelocities row = [] then s
  else s.fwave.foldl (fun t x => zeroArm t x.1
    (markRanges x.2.length ((balRanges row s.z).map (balIdx x.2)))) s

/-- py/qsonic/masks.py:134-138, 142-153 `BALMask.check_catalog`. -/
def balCheckCatalog (cols : List String) : Except Err Unit :=
  if ["VMIN_CIV_450", "VMAX_CIV_450", "VMIN_CIV_2000", "VMAX_CIV_2000"].all
      (fun c => decide (c ∈ cols)) then .ok ()
  else .error .qsonic

/-- A row of the DLA catalog. py/qsonic/masks.py:376-433. -/
structure DlaRow (K : Type) where
  targetid : Int
  z : K
  nhi : K
  deriving DecidableEq

/-- py/qsonic/masks.py:394-408 `DLAMask._read_catalog`: the column of the redshift. `pick` is the
element that `set.pop()` takes. -/
def dlaZColumn (pick : List String → Option String) (cols : List String) : Except Err String :=
  match pick (["Z_DLA", "Z"].filter (fun c => decide (c ∈ cols))) with
  | some c => .ok c
  | none => .error .valueError

/-- `DLAMask`: the unique TARGETIDs with their rows of the catalog, and the limit. py/qsonic/masks.py:414-433. -/
structure DlaMask (K : Type) where
  groups : List (Int × List (DlaRow K))
  limit : K

/-- py/qsonic/masks.py:418-438 `DLAMask.__init__`. Simplification: the sort is by TARGETID alone
(numpy breaks ties by the other columns). -/
def dlaInit (cat : List (DlaRow K)) (localIds : Option (List Int)) (limit : K) : DlaMask K :=
  let cat := match localIds with
    | none => cat
    | some ids => cat.filter (fun r => decide (r.targetid ∈ ids))
  let cat := cat.insertionSort (fun a b => a.targetid ≤ b.targetid)
  { groups := (uniqueVals (cat.map DlaRow.targetid)).zip (splitByKey DlaRow.targetid cat)
    limit := limit }

/-- py/qsonic/masks.py:208, 230: `wave_lya_A`. -/
def lyaA : K := 121567 / 100

/-- py/qsonic/masks.py:357-376 `get_all_dlas`; `dlaFlux w z nhi` is `get_dla_flux` at one wavelength. -/
def allDlas (dlaFlux : K → K → K → K) (wave : List K) (dlas : List (DlaRow K)) : List K :=
  dlas.foldl (fun t r => List.zipWith (fun w x => x * dlaFlux w r.z r.nhi) wave t)
    (List.replicate wave.length 1)

/-- py/qsonic/masks.py:452-456: transmission of an arm, one from Lya on. -/
def dlaTransmission (dlaFlux : K → K → K → K) (z : K) (wave : List K) (dlas : List (DlaRow K)) :
    List K :=
  let t := allDlas dlaFlux wave dlas
  let i := searchsorted wave ((1 + z) * lyaA)
  t.take i ++ List.replicate (t.length - i) 1

/-- py/qsonic/masks.py:457-462: one arm. -/
def dlaArm (limit : K) (s : Spectrum K) (arm : String) (t : List K) : Spectrum K :=
  let w := t.map (fun x => decide (x < limit))
  let t := t.map (fun x => if x < limit then 1 else x)
  { s with
    fivar := s.fivar.set arm (List.zipWith (fun v x => v * x ^ 2) (zeroWhere w (s.fivar.arr arm)) t)
    fflux := s.fflux.set arm (List.zipWith (fun f x => f / x) (zeroWhere w (s.fflux.arr arm)) t) }

/-- py/qsonic/masks.py:440-462 `DLAMask.apply`. -/
def dlaApply (dlaFlux : K → K → K → K) (m : DlaMask K) (row : MaskRow K) (s : Spectrum K) :
    Spectrum K :=
  match List.lookup row.targetid m.groups with
  | none => s
  | some dlas =>
    s.fwave.foldl (fun t x => dlaArm m.limit t x.1 (dlaTransmission dlaFlux s.z x.2 dlas)) s

/-- The mask objects. py/qsonic/scripts/qsonic_fit.py:169-220. -/
inductive Masker (K : Type)
  | sky (lines : List (SkyLine K))
  | bal
  | dla (m : DlaMask K)

/-- `masker.apply(spec)`. py/qsonic/scripts/qsonic_fit.py:249. -/
def Masker.apply (dlaFlux : K → K → K → K) (row : MaskRow K) (s : Spectrum K) :
    Masker K → Spectrum K
  | .sky lines => skyApply lines s
  | .bal => balApply row s
  | .dla m => dlaApply dlaFlux m row s

/-- py/qsonic/scripts/qsonic_fit.py:223-252 `apply_masks` for one spectrum. -/
def applyMasks [FloorRing K] (dlaFlux : K → K → K → K) (row : MaskRow K) (maskers : List (Masker K))
    (s : Spectrum K) : Spectrum K :=
  match maskers with
  | [] => s
  | _ :: _ => (maskers.foldl (fun t m => m.apply dlaFlux row t) s).dropShortArms 0 0 0

end Verif.Model
