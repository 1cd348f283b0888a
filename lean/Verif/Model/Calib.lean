import Verif.Model.MpiCalls
import Verif.Model.Coadd
import Verif.Np.Round

/-!
# Model of `py/qsonic/scripts/qsonic_calib.py`
-/

namespace Verif.Model
open Prog Verif.Np

/-- What is used of a delta. `dwave` is `header['DELTA_LAMBDA']`. py/qsonic/scripts/qsonic_calib.py:176-260. -/
structure CalDelta (K : Type) where
  targetid : Int
  meanSnr : K
  dwave : K
  wave : List K
  delta : List K
  ivar : List K
  weight : List K

/-! ### Reading -/

/-- py/qsonic/scripts/qsonic_calib.py:163-166: the files of a rank; `l[i1:i2]` is empty if `i2 ≤ i1`. -/
def filesThisRank {α : Type} (files : List α) (rank size : Nat) : List α :=
  let n := files.length
  let per := max 1 (n / size)
  let i1 := per * rank
  let i2 := min n (i1 + per)
  (files.drop i1).take (i2 - i1)

/-- py/qsonic/scripts/qsonic_calib.py:148-173 `mpi_read_all_deltas`. `glob` is the outcome of `glob.glob` on this
rank (its
order is arbitrary), `read` is `qsonic.io.read_deltas`. -/
def readAllDeltas {V W D : Type} (c : Codec (Option (List String)) V) (called : W) (glob : Except Err (List String))
    (read : String → Except Err (List D)) (rank size : Nat) : Prog V W (List (List D)) :=
  (mpiFncBcast c called glob true rank).bind fun files =>
  ofExcept ((filesThisRank files rank size).mapM read)

/-! ### Selection -/

/-- What is used of a row of the catalog; the columns of BAL velocities are arrays.
py/qsonic/scripts/qsonic_calib.py:88-145. -/
structure CalRow (K : Type) where
  targetid : Int
  survey : String
  vminCiv450 : List K
  vmaxCiv450 : List K
  vminCiv2000 : List K
  vmaxCiv2000 : List K

/-- py/qsonic/scripts/qsonic_calib.py:130-132: one of the criteria of a row. -/
def anyPositive {K : Type} [Zero K] [LT K] [DecidableLT K] (vmin vmax : List K) : Bool :=
  (List.zipWith (fun a b => decide (0 < a) && decide (0 < b)) vmin vmax).any id

/-- py/qsonic/scripts/qsonic_calib.py:130-133 `sel_bal`. -/
def isBal {K : Type} [Zero K] [LT K] [DecidableLT K] (r : CalRow K) : Bool :=
  anyPositive r.vminCiv450 r.vmaxCiv450 || anyPositive r.vminCiv2000 r.vmaxCiv2000

/-- py/qsonic/scripts/qsonic_calib.py:112-145 `mpi_set_targetid_list_to_remove`, after reading: `listed` are the
targets of
`--remove-targetid-list` (none without it), `catalog` is `none` without `--catalog`, `keepSurveys` is empty if not
given. Not modelled: the check of the BAL columns. -/
def idsToRemove {K : Type} [Zero K] [LT K] [DecidableLT K] (listed : List Int) (catalog : Option (List (CalRow K)))
    (removeBal : Bool) (keepSurveys : List String) : List Int :=
  match catalog with
  | none => listed
  | some rows =>
    listed ++ (if removeBal then (rows.filter isBal).map CalRow.targetid else []) ++
      (if keepSurveys.isEmpty then [] else
        (rows.filter (fun r => !decide (r.survey ∈ keepSurveys))).map CalRow.targetid)

/-- py/qsonic/scripts/qsonic_calib.py:219-224 `_is_kept`. -/
def isKept {K : Type} [LT K] [DecidableLT K] (remove : List Int) (minSnr maxSnr : K) (d : CalDelta K) : Bool :=
  decide (d.targetid ∉ remove) && decide (minSnr < d.meanSnr) && decide (d.meanSnr < maxSnr)

/-- py/qsonic/scripts/qsonic_calib.py:226-228. -/
def keptDeltas {K : Type} [LT K] [DecidableLT K] (remove : List Int) (minSnr maxSnr : K)
    (lists : List (List (CalDelta K))) : List (CalDelta K) :=
  lists.flatten.filter (isKept remove minSnr maxSnr)

/-! ### Stacking -/

section
variable {K : Type} [Field K] [LinearOrder K] [FloorRing K]

/-- numpy's `a[idx] += v`: all right hand sides are taken before any assignment, so that of several equal indices the
last one stays. py/qsonic/scripts/qsonic_calib.py:187-188. -/
def fancyIadd (a : List K) (p : List (Nat × K)) : List K :=
  p.foldl (fun b x => b.set x.1 (a.getD x.1 0 + x.2)) a

/-- Wavelength, delta and weight of the pixels. py/qsonic/scripts/qsonic_calib.py:184-188. -/
def CalDelta.pix (d : CalDelta K) : List (K × K × K) := d.wave.zip (d.delta.zip d.weight)

/-- py/qsonic/scripts/qsonic_calib.py:184-186: indices, flux and weight of the pixels in the range. -/
def selPix (w1 dwave : K) (n : Nat) (d : CalDelta K) : List (Nat × K × K) :=
  ((d.pix.map (fun p => (pyRound ((p.1 - w1) / dwave), 1 + p.2.1, p.2.2))).filter
    (fun p => decide (0 ≤ p.1) && decide (p.1 < (n : Int)))).map (fun p => (p.1.toNat, p.2))

/-- py/qsonic/scripts/qsonic_calib.py:183-188: one delta. -/
def stackOne (w1 dwave : K) (n : Nat) (acc : List K × List K) (d : CalDelta K) : List K × List K :=
  (fancyIadd acc.1 ((selPix w1 dwave n d).map (fun p => (p.1, p.2.1 * p.2.2))),
   fancyIadd acc.2 ((selPix w1 dwave n d).map (fun p => (p.1, p.2.2))))

/-- `comm.Allreduce` of arrays of length `n`: the sum. Not modelled: arrays of different length.
py/qsonic/scripts/qsonic_calib.py:193-195. -/
def vecSum (n : Nat) (l : List (List K)) : List K :=
  l.foldl (fun a b => List.zipWith (· + ·) a b) (List.replicate n 0)

/-- py/qsonic/scripts/qsonic_calib.py:199-201. -/
def stackRatio (flux weights : List K) : List K :=
  List.zipWith (fun f w => if 0 < w then f / w else 0) flux weights

/-- py/qsonic/scripts/qsonic_calib.py:178 `nwaveobs`. -/
def numWave (w1 w2 dwave : K) : Nat := (truncInt ((w2 - w1) / dwave) + 1).toNat

/-- py/qsonic/scripts/qsonic_calib.py:176-203 `mpi_stack_fluxes`. -/
def stackFluxes {V W : Type} (c : Codec (List K) V) (w1 w2 : K) (deltas : List (CalDelta K)) :
    Prog V W (List K × List K) :=
  match deltas with
  | [] => .raise .indexError
  | d :: ds =>
    let n := numWave w1 w2 d.dwave
    let acc := (d :: ds).foldl (stackOne w1 d.dwave n) (List.replicate n 0, List.replicate n 0)
    .allreduce (fun l => c.enc (vecSum n (l.map c.dec))) (c.enc acc.1) fun f =>
    .allreduce (fun l => c.enc (vecSum n (l.map c.dec))) (c.enc acc.2) fun w =>
    .ret (linspace w1 w2 n, stackRatio (c.dec f) (c.dec w))

end

end Verif.Model
