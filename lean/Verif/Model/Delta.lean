import Verif.Model.Coadd
import Verif.Model.SpectrumInit

/-!
# Model of blinding, of the delta files and of `Delta` (`py/qsonic/spectrum.py`)

A FITS table is a value: extension name, header and named columns. Number formats are not modelled
(all are `f8` or are converted to it). `sqrt` and `10 ** x` are parameters, as in `Spectrum`.
-/

namespace Verif.Model
open Verif.Np

variable {K : Type} [Field K] [LinearOrder K] [FloorRing K]

/-! ### Blinding -/

/-- The class attributes `_blinding` and `_fits_colnames`. py/qsonic/spectrum.py:54-172. -/
structure ClassState where
  blinding : Option String
  colnames : List String
  deriving DecidableEq, Repr

/-- py/qsonic/spectrum.py:97-101: the values at import. -/
def ClassState.init : ClassState :=
  { blinding := none, colnames := ["LAMBDA", "DELTA", "IVAR", "WEIGHT", "CONT"] }

/-- The options that `set_blinding` uses. py/qsonic/spectrum.py:137-167. -/
structure BlindArgs (K : Type) where
  mockAnalysis : Bool
  forestW1 : K
  skipResomat : Bool

/-- py/qsonic/spectrum.py:150-161: the blinding strategy. -/
def blindingOf (lya : K) (maxlastnight : Nat) (a : BlindArgs K) : String :=
  if a.mockAnalysis ∨ a.forestW1 > lya then "none"
  else if maxlastnight < 20210514 then "none"
  else if maxlastnight < 20210801 then "desi_m2"
  else if maxlastnight < 20220801 then "desi_y1"
  else "desi_y3"

/-- py/qsonic/spectrum.py:136-167 `set_blinding`; `lya` is `WAVE_LYA_A`. -/
def setBlinding (lya : K) (st : ClassState) (maxlastnight : Nat) (a : BlindArgs K) : ClassState :=
  let b := blindingOf lya maxlastnight a
  let names := if b ≠ "none" then st.colnames.set 1 "DELTA_BLIND" else st.colnames
  { blinding := some b, colnames := if a.skipResomat then names else names ++ ["RESOMAT"] }

/-! ### Files -/

/-- A column: numbers, or matrix rows. The matrix of a column `RESOMAT` is stored transposed in the
file and transposed back by the reader; the model keeps it as it is in memory.
py/qsonic/spectrum.py:763-772, 923-944. -/
inductive Col (K : Type) where
  | vec (v : List K)
  | mat (m : List (List K))
  deriving DecidableEq, Repr

/-- A header value. py/qsonic/spectrum.py:729-741, 912. -/
inductive HVal (K : Type) where
  | num (x : K)
  | str (s : String)
  | int (i : Int)
  deriving DecidableEq, Repr

/-- A table HDU. py/qsonic/spectrum.py:769-772, 911-944. -/
structure Hdu (K : Type) where
  extname : String
  header : Dict (HVal K)
  cols : Dict (Col K)
  deriving DecidableEq, Repr

/-- `fts_file.write(cols, names=names, header=..., extname=...)`: fitsio needs a name for every
column. py/qsonic/spectrum.py:769-772, 972-974. -/
def makeHdu (extname : String) (header : Dict (HVal K)) (names : List String) (cols : List (Col K)) :
    Except Err (Hdu K) :=
  if names.length = cols.length then .ok ⟨extname, header, names.zip cols⟩ else .error .valueError

/-- What `write` uses of the catalog row: identity, and the optional columns `TILEID`, `FIBER`,
`PETAL_LOC`, `EXPID`, `NIGHT` that are present (angles in radians). py/qsonic/spectrum.py:729-751. -/
structure Ident (K : Type) where
  targetid : Int
  ra : K
  dec : K
  z : K
  extra : Dict (HVal K)
  expid : Option Int

/-- py/qsonic/spectrum.py:731-747: the header. -/
def deltaHeader (st : ClassState) (id : Ident K) (rsnr dwave smoothing snr : K) :
    Dict (HVal K) :=
  [("LOS_ID", .int id.targetid), ("TARGETID", .int id.targetid), ("RA", .num id.ra),
    ("DEC", .num id.dec), ("Z", .num id.z), ("BLINDING", .str (st.blinding.getD "None")),
    ("WAVE_SOLUTION", .str "lin"), ("MEANSNR", .num snr), ("RSNR", .num rsnr),
    ("DELTA_LAMBDA", .num dwave), ("SMSCALE", .num smoothing)] ++ id.extra

/-- py/qsonic/spectrum.py:749-752, 771-772: `f"{targetid}-{arm}{expid}"`. -/
def extName (id : Ident K) (arm : String) : String :=
  s!"{id.targetid}-{arm}" ++ match id.expid with
    | some e => s!"-{e}"
    | none => ""

/-- py/qsonic/spectrum.py:761, 764. -/
def deltaOf (flux cont ivar : List K) : List K :=
  List.zipWith (fun p v => if v = 0 then 0 else p.1 / p.2 - 1) (flux.zip cont) ivar

/-- py/qsonic/spectrum.py:762-763. -/
def timesContSq (x cont : List K) : List K := List.zipWith (fun a c => a * c ^ 2) x cont

/-- py/qsonic/spectrum.py:760-772: the HDU of one arm. `meanReso` is `mean_resolution`. -/
def armHdu (st : ClassState) (id : Ident K) (meanReso : K) (rsnr : K) (s : Spectrum K) (arm : String)
    (wave : List K) (snr : K) (cont : List K) : Except Err (Hdu K) :=
  let ivar := timesContSq (s.fivar.arr arm) cont
  let weight := timesContSq (s.fweight.arr arm) cont
  let delta := deltaOf (s.fflux.arr arm) cont ivar
  let cols := [Col.vec wave, .vec delta, .vec ivar, .vec weight, .vec cont]
  let hdr := deltaHeader st id rsnr s.dwave s.smoothing snr
  if s.freso = [] then makeHdu (extName id arm) hdr st.colnames cols
  else do
    let r ← dictGet s.freso arm
    makeHdu (extName id arm) (hdr.set "MEANRESO" (.num meanReso)) st.colnames (cols ++ [.mat r])

/-- py/qsonic/spectrum.py:754-759: an arm without signal is not written. -/
def writeArm (st : ClassState) (id : Ident K) (meanReso : String → K) (rsnr : K) (s : Spectrum K)
    (arm : String) (wave : List K) : Except Err (List (Hdu K)) := do
  let snr ← dictGet s.meanSnr arm
  if snr = 0 then pure []
  else do
    let cont ← dictGet s.cont arm
    let h ← armHdu st id (meanReso arm) rsnr s arm wave snr cont
    pure [h]

/-- py/qsonic/spectrum.py:716-772 `write`: the HDUs appended to the file. Simplification: the value
of a header entry `MEANRESO` of the arm before stays in the dictionary if the next arm has no
resolution, which cannot be (all arms have it or none). -/
def Spectrum.write (st : ClassState) (id : Ident K) (meanReso : String → K) (rsnr : K)
    (s : Spectrum K) : Except Err (List (Hdu K)) := do
  let l ← s.fwave.mapM (fun x => writeArm st id meanReso rsnr s x.1 x.2)
  pure l.flatten

/-! ### `Delta` -/

/-- A `Delta` object. py/qsonic/spectrum.py:850-944. -/
structure Delta (K : Type) where
  header : Dict (HVal K)
  targetid : HVal K
  meanSnr : HVal K
  wave : List K
  blinded : Bool
  delta : List K
  ivar : List K
  weight : List K
  cont : List K
  reso : Option (List (List K))
  deriving DecidableEq, Repr

/-- py/qsonic/spectrum.py:900-909 `_check_hdu`: `req.intersection(names)` and `pop()`: `pick` takes one element of a set that is not empty,
unspecified which. -/
def pickKey (pick : List String → Option String) (req names : List String) : Except Err String :=
  match pick (req.filter (fun k => decide (k ∈ names))) with
  | some k => .ok k
  | none => .error .runtimeError

/-- `data[name]` for a column of numbers: a field that is missing raises `ValueError`.
py/qsonic/spectrum.py:926-937. -/
def vecCol (h : Hdu K) (name : String) : Except Err (List K) :=
  match h.cols.lookup name with
  | some (.vec v) => .ok v
  | _ => .error .valueError

/-- `data['RESOMAT']` if there is such a column. py/qsonic/spectrum.py:941-944. -/
def matCol (h : Hdu K) : Except Err (Option (List (List K))) :=
  match h.cols.lookup "RESOMAT" with
  | none => .ok none
  | some (.mat m) => .ok (some m)
  | some (.vec _) => .error .valueError

/-- `delta[ivar == 0] = 0`. py/qsonic/spectrum.py:761, 939. -/
def zeroMasked (delta ivar : List K) : List K :=
  List.zipWith (fun d v => if v = 0 then 0 else d) delta ivar

/-- py/qsonic/spectrum.py:911-944 `Delta.__init__`; `pow10` is `10 ** x`. -/
def Delta.read (pick : List String → Option String) (pow10 : K → K) (h : Hdu K) :
    Except Err (Delta K) := do
  let idKey ← pickKey pick ["MOCKID", "TARGETID", "THING_ID"] h.header.keys
  let targetid ← dictGet h.header idKey
  let snr ← dictGet h.header "MEANSNR"
  let wkey ← pickKey pick ["LAMBDA", "LOGLAM"] h.cols.keys
  let w ← vecCol h wkey
  let wave := if wkey = "LOGLAM" then w.map pow10 else w
  let dkey ← pickKey pick ["DELTA", "DELTA_BLIND"] h.cols.keys
  let delta ← vecCol h dkey
  let ivar ← vecCol h "IVAR"
  let weight ← vecCol h "WEIGHT"
  let cont ← vecCol h "CONT"
  let reso ← matCol h
  pure { header := h.header, targetid := targetid, meanSnr := snr, wave := wave
         blinded := decide (dkey = "DELTA_BLIND"), delta := zeroMasked delta ivar, ivar := ivar
         weight := weight, cont := cont, reso := reso }

/-- `str(x)` of a header value: only used for the extension name. py/qsonic/spectrum.py:974. -/
def HVal.show [ToString K] : HVal K → String
  | .num x => toString x
  | .str s => s
  | .int i => toString i

/-- py/qsonic/spectrum.py:946-974 `Delta.write`; `name` is `f"{self.targetid}"`. -/
def Delta.write (name : HVal K → String) (d : Delta K) : Except Err (Hdu K) :=
  let names := ["LAMBDA", if d.blinded then "DELTA_BLIND" else "DELTA", "IVAR", "WEIGHT", "CONT"]
  let cols := [Col.vec d.wave, .vec d.delta, .vec d.ivar, .vec d.weight, .vec d.cont]
  match d.reso with
  | none => makeHdu (name d.targetid) d.header names cols
  | some r => makeHdu (name d.targetid) d.header (names ++ ["RESOMAT"]) (cols ++ [.mat r])

/-- One pixel of a delta. py/qsonic/spectrum.py:1010-1025. -/
structure DPix (K : Type) where
  delta : K
  ivar : K
  weight : K
  cont : K
  deriving DecidableEq, Repr

/-- The pixels of a delta. Simplification: arrays of different length are cut to the shortest (numpy
raises). py/qsonic/spectrum.py:1010-1025. -/
def Delta.pix (d : Delta K) : List (DPix K) :=
  List.zipWith (fun a b => ⟨a.1, a.2, b.1, b.2⟩) (d.delta.zip d.ivar) (d.weight.zip d.cont)

/-- `a[i0:i0 + v.size] += v`: shapes differ if the slice is not within the array. py/qsonic/spectrum.py:1011-1024. -/
def addSlice (a : List K) (i0 : Nat) (v : List K) : Except Err (List K) :=
  if i0 + v.length ≤ a.length then
    .ok (a.take i0 ++ List.zipWith (· + ·) (slice a i0 (i0 + v.length)) v ++ a.drop (i0 + v.length))
  else .error .valueError

/-- py/qsonic/spectrum.py:1014-1016: the variance of a pixel, 0 if it is masked. -/
def dvar (p : DPix K) : K := if 0 < p.weight ∧ 0 < p.ivar then 1 / p.ivar else 0

/-- The arrays of `coadd`. py/qsonic/spectrum.py:1003-1007. -/
structure DAcc (K : Type) where
  delta : List K
  cont : List K
  ivar : List K
  lss : List K
  norm : List K

/-- py/qsonic/spectrum.py:1009-1022: one object of the loop. -/
def daccStep (minWave dwave : K) (acc : DAcc K) (d : Delta K) : Except Err (DAcc K) := do
  let w0 ← firstElem d.wave
  let i0 := (truncInt ((w0 - minWave) / dwave + 1 / 10)).toNat
  let delta ← addSlice acc.delta i0 (d.pix.map (fun p => p.weight * p.delta))
  let cont ← addSlice acc.cont i0 (d.pix.map (fun p => p.weight * p.cont))
  let ivar ← addSlice acc.ivar i0 (d.pix.map (fun p => p.weight ^ 2 * dvar p))
  let lss ← addSlice acc.lss i0 (d.pix.map (fun p => 1 - p.weight * dvar p))
  let norm ← addSlice acc.norm i0 (d.pix.map (fun p => p.weight))
  pure ⟨delta, cont, ivar, lss, norm⟩

/-- `x[w] /= norm[w]` with `w = norm > 0`. py/qsonic/spectrum.py:1026-1029. -/
def divWhere (x norm : List K) : List K := List.zipWith (fun a n => if 0 < n then a / n else a) x norm

/-- py/qsonic/spectrum.py:981-993: one object of `_coadd_reso`; `eps` is `1e-8`. -/
def resoStep (eps : K) (minWave dwave : K) (maxNdia : Nat) (acc : List (List K) × List K)
    (d : Delta K) (reso : List (List K)) : Except Err (List (List K) × List K) := do
  let w0 ← firstElem d.wave
  let i0 := (truncInt ((w0 - minWave) / dwave + 1 / 10)).toNat
  let weight := d.weight.map (resoWeight eps)
  let rows := padRows ((maxNdia - reso.length) / 2) d.wave.length reso
  sameShape rows.length acc.1.length
  let mat ← (acc.1.zip rows).mapM (fun p => addSlice p.1 i0 (List.zipWith (· * ·) weight p.2))
  let norm ← addSlice acc.2 i0 weight
  pure (mat, norm)

/-- py/qsonic/spectrum.py:976-995 `_coadd_reso`, called if `self.reso` is there. -/
def coaddDeltaReso (nan eps minWave dwave : K) (nwaves : Nat) (d e : Delta K) :
    Except Err (Option (List (List K))) :=
  match d.reso, e.reso with
  | none, _ => .ok none
  | some _, none => .error .attributeError
  | some rd, some re => do
    let m := max rd.length re.length
    let zeros := List.replicate nwaves 0
    let acc ← resoStep eps minWave dwave m (List.replicate m zeros, zeros) d rd
    let acc ← resoStep eps minWave dwave m acc e re
    pure (some (acc.1.map (fun r => divRow nan r acc.2)))

/-- py/qsonic/spectrum.py:1035: `ivar / (1 + ivar * lss)`. -/
def lssWeight (v l : K) : K := v / (1 + v * l)

/-- The signal to noise (py/qsonic/spectrum.py:1038-1039; no good pixel: `0 / 0`). -/
def deltaSnr (sqrt : K → K) (nan : K) (delta ivar : List K) : K :=
  if numGood ivar = 0 then nan
  else dot (ivar.map sqrt) (delta.map (· + 1)) / (numGood ivar : K)

/-- py/qsonic/spectrum.py:997-1040 `Delta.coadd`: the new `self`. What an exception leaves half done
is not modelled. -/
def Delta.coadd (sqrt : K → K) (nan eps dwave : K) (d e : Delta K) : Except Err (Delta K) := do
  let g ← forestGrid dwave [d.wave, e.wave]
  let zeros := List.replicate g.2.2 0
  let acc ← daccStep g.1 dwave ⟨zeros, zeros, zeros, zeros, zeros⟩ d
  let acc ← daccStep g.1 dwave acc e
  let delta := divWhere acc.delta acc.norm
  let cont := divWhere acc.cont acc.norm
  let lss := divWhere acc.lss acc.norm
  let ivar := List.zipWith (fun v n => if 0 < n then n ^ 2 / v else v) acc.ivar acc.norm
  let reso ← coaddDeltaReso nan eps g.1 dwave g.2.2 d e
  let snr := HVal.num (deltaSnr sqrt nan delta ivar)
  pure { d with
    wave := linspace g.1 g.2.1 g.2.2, delta := delta, ivar := ivar
    weight := List.zipWith lssWeight ivar lss
    cont := cont, reso := reso, meanSnr := snr, header := d.header.set "MEANSNR" snr }

end Verif.Model
