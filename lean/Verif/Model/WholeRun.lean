import Verif.Model.Catalog
import Verif.Model.FullFit
import Verif.Model.Save
import Verif.Model.Select

/-!
# A run of `qsonic-fit` with what it computes (`py/qsonic/scripts/qsonic_fit.py:452-502`)

The parts are put together: queues from the catalog, blinding, selection of the spectra, continuum fit, and delta files.
The control flow with errors in any stage is in `Verif.Model.FitRun`. Here the reader and the files of calibrations,
masks and of the mean flux are parameters. Left out: `--exposures after`, `--coadd-arms after` and
`--varlss-as-additive-noise` (they are in `Verif.Model.FitTail`), the chi square catalog, and logging.
-/

namespace Verif.Model
open Verif Verif.Np Prog

variable {Val K : Type} [LinearOrder Val] [Field K] [LinearOrder K] [FloorRing K]

/-- What is fixed during a run. `tid` is the TARGETID of a row, `pix` the HPXPIXEL of the row of a target
(py/qsonic/spectrum.py:785-787), `cols` the columns of the catalog; `outdir` tells if there is an output directory. -/
structure WholeCfg (Val K : Type) where
  sel : SelectCfg K
  fit : FullCfg K
  mock : Bool
  tile : Bool
  cols : List String
  tid : Row Val → Int
  pix : Int → Val
  reader : List (Row Val) → Except Err (List (ReadSpec K))
  smoothing : K
  argsort : List Val → List Nat
  outdir : Bool
  byHpx : Bool
  niter : Nat

/-- What a rank has at the end. py/qsonic/scripts/qsonic_fit.py:452-503. -/
structure WholeOut (Val K : Type) where
  night : Option Val
  iterations : Nat
  converged : Bool
  deltas : List (ReadSpec K)
  files : List (DeltaName Val × List (SavedSpec Val (ReadSpec K)))

namespace WholeCfg

variable (C : WholeCfg Val K)

/-- py/qsonic/scripts/qsonic_fit.py:472: `np.max([_['LASTNIGHT'].max() for _ in local_queue])`, with no value where
numpy raises
`ValueError`: without rows. -/
def maxNight (q : List (List (Row Val))) : Option Val :=
  (q.mapM (fun c : List (Row Val) => (c.map (· "LASTNIGHT")).max?)).bind List.max?

/-- py/qsonic/scripts/qsonic_fit.py:469-473. -/
def blinding {V W : Type} (cn : Codec Val V) (q : List (List (Row Val))) : Prog V W (Option Val) :=
  if C.mock then .ret none
  else
    match maxNight q with
    | none => .raise .valueError
    | some v => .allreduce (fun l => cn.enc ((List.map cn.dec l).max?.getD v)) (cn.enc v)
        fun m => .ret (some (cn.dec m))

/-- py/qsonic/scripts/qsonic_fit.py:200-205: `local_queue[0]` and the check of the columns. -/
def balStep (q : List (List (Row Val))) : Except Err Unit :=
  if C.sel.bal then
    if q.isEmpty then .error .indexError else balCheckCatalog C.cols
  else .ok ()

/-- py/qsonic/scripts/qsonic_fit.py:207-211: `np.concatenate` of nothing. -/
def dlaStep (q : List (List (Row Val))) : Except Err Unit :=
  if C.sel.dla.isSome && q.isEmpty then .error .valueError else .ok ()

/-- py/qsonic/scripts/qsonic_fit.py:169-220, 477: what can fail in `mpi_read_masks` after the files are read, and the
targets of
this rank. -/
def maskIds (q : List (List (Row Val))) : Except Err (List Int) := do
  C.balStep q
  C.dlaStep q
  pure (q.flatten.map C.tid)

/-- py/qsonic/scripts/qsonic_fit.py:484-486. -/
def smooth (x : ReadSpec K) : ReadSpec K :=
  if 0 < C.smoothing then { x with spec := x.spec.setSmoothForestivar C.sel.smooth C.smoothing } else x

/-- py/qsonic/scripts/qsonic_fit.py:477-486. -/
def prepare (q : List (List (Row Val))) : Except Err (List (ReadSpec K)) := do
  let ids ← C.maskIds q
  let l ← C.sel.select C.reader ids q
  pure (l.map C.smooth)

/-- py/qsonic/scripts/qsonic_fit.py:350 (only valid spectra are kept) and 494-496. -/
def finish (l : List (ReadSpec K)) : List (ReadSpec K) :=
  (l.filter (fun x => x.spec.valid)).map
    (fun x => { x with spec := x.spec.dropShortArms C.sel.forestW1 C.sel.forestW2 C.sel.skip })

/-- py/qsonic/scripts/qsonic_fit.py:500-502; blinding has been set by line 474. -/
def save (rank : Nat) (l : List (ReadSpec K)) :
    Except Err (List (DeltaName Val × List (SavedSpec Val (ReadSpec K)))) :=
  saveDeltas C.argsort true (l.map (fun x => ⟨C.pix x.row.targetid, x.spec.valid, x⟩)) C.outdir C.byHpx (some rank)

/-- py/qsonic/scripts/qsonic_fit.py:452-502 `mpi_run_all`; `read` is the catalog read by the root, `g0` what the
constructor of
the continuum fitter sets up, `P` the variance fitter. -/
def run {Q D V : Type} (P : FitterFns (FullState K) (Spectrum K) (StackSums K) Q D)
    (cs : Codec Bool V) (cq : Codec (List (List (Row Val))) V) (cn : Codec Val V)
    (c : FitterCodecs (StackSums K) Q V) (read : Except Err (Catalog Val)) (fname : String) (g0 : FullState K)
    (size rank : Nat) : Prog V (SaverEv (String × D)) (WholeOut Val K) :=
  (mpiGetLocalQueue cs cq read C.tile size rank).bind fun q =>
  (C.blinding cn q).bind fun night =>
  (ofExcept (C.prepare q)).bind fun l =>
  ((C.fit.fns P).iterate c fname C.niter false rank g0 (l.map (·.spec))).bind fun r =>
  let deltas := C.finish (SelectCfg.setSpecs l r.2.1)
  (ofExcept (C.save rank deltas)).bind fun files =>
  .ret ⟨night, r.2.2.1, r.2.2.2, deltas, files⟩

end WholeCfg
end Verif.Model
