import Verif.Model.WholeRun
import Verif.Model.Exposures

/-!
# A run of `qsonic-fit` with `--exposures after` (`py/qsonic/scripts/qsonic_fit.py:359-502`)

The run of `Verif.Model.WholeRun`, after which the exposures of the fitted quasars are read and get their continua. As
there, `--coadd-arms after` and `--varlss-as-additive-noise` are left out.
-/

namespace Verif.Model
open Verif Verif.Np Prog

variable {Val K : Type} [LinearOrder Val] [Field K] [LinearOrder K] [FloorRing K]

/-- py/qsonic/scripts/qsonic_fit.py:412-442: the continua of the exposures `e` from the fitted spectra `l`. -/
def assignConts (l e : List (ReadSpec K)) : Except Err (List (ReadSpec K)) := do
  let m ← matchExposures (l.map (fun x => (x.row.targetid, x.spec))) (e.map (fun x => (x.row.targetid, x.spec)))
  pure (SelectCfg.setSpecs e (m.map Prod.snd))

/-- What is fixed during a run: the options as without exposures, the reader of exposures
(py/qsonic/scripts/qsonic_fit.py:123-125 with `args.exposures == "before"`) and `spec.catrow` by the target
(py/qsonic/spectrum.py:201). -/
structure ExposureCfg (Val K : Type) where
  run : WholeCfg Val K
  expReader : List (Row Val) → Except Err (List (ReadSpec K))
  catrow : Int → Row Val

namespace ExposureCfg

variable (C : ExposureCfg Val K)

/-- py/qsonic/scripts/qsonic_fit.py:392: the fields of the sort; numpy breaks ties with the remaining ones. -/
def sortFields : List String :=
  ["HPXPIXEL", "TARGETID"] ++ C.run.cols.filter (· ∉ ["HPXPIXEL", "TARGETID"])

/-- py/qsonic/scripts/qsonic_fit.py:389-394: the fitted spectra in the order of the sorted local catalog. `np.hstack`
of an empty
list raises `ValueError`. -/
def sorted (l : List (ReadSpec K)) : Except Err (List (ReadSpec K)) :=
  if l.isEmpty then .error .valueError
  else .ok (l.insertionSort (fun x y =>
    rowLe C.sortFields (C.catrow x.row.targetid) (C.catrow y.row.targetid) = true))

/-- py/qsonic/scripts/qsonic_fit.py:398-401: the local catalog by pixel. -/
def queue (l : List (ReadSpec K)) : List (List (Row Val)) :=
  splitByKey (fun r : Row Val => r "HPXPIXEL") (l.map (fun x => C.catrow x.row.targetid))

/-- py/qsonic/scripts/qsonic_fit.py:359-449 `mpi_read_exposures_after`; `ids` are the targets for which the masks
were read. -/
def exposuresAfter (ids : List Int) (l : List (ReadSpec K)) : Except Err (List (ReadSpec K)) := do
  let s ← C.sorted l
  let e ← C.run.sel.select C.expReader ids (C.queue s)
  assignConts s e

/-- py/qsonic/scripts/qsonic_fit.py:494-496. -/
def clean (l : List (ReadSpec K)) : List (ReadSpec K) :=
  l.map (fun x => { x with spec := x.spec.dropShortArms C.run.sel.forestW1 C.run.sel.forestW2 C.run.sel.skip })

/-- py/qsonic/scripts/qsonic_fit.py:452-502 `mpi_run_all` with `--exposures after`. Simplification: the number of
exposures of all
ranks (`comm.reduce`, line 147), which is only logged, is left out. -/
def runAll {Q D V : Type} (P : FitterFns (FullState K) (Spectrum K) (StackSums K) Q D)
    (cs : Codec Bool V) (cq : Codec (List (List (Row Val))) V) (cn : Codec Val V)
    (c : FitterCodecs (StackSums K) Q V) (read : Except Err (Catalog Val)) (fname : String) (g0 : FullState K)
    (size rank : Nat) : Prog V (SaverEv (String × D)) (WholeOut Val K) :=
  (mpiGetLocalQueue cs cq read C.run.tile size rank).bind fun q =>
  (C.run.blinding cn q).bind fun night =>
  (ofExcept (C.run.prepare q)).bind fun l =>
  ((C.run.fit.fns P).iterate c fname C.run.niter false rank g0 (l.map (·.spec))).bind fun r =>
  (ofExcept (C.exposuresAfter (q.flatten.map C.run.tid)
    ((SelectCfg.setSpecs l r.2.1).filter (fun x => x.spec.valid)))).bind fun e =>
  (ofExcept (C.run.save rank (C.clean e))).bind fun files =>
  .ret ⟨night, r.2.2.1, r.2.2.2, C.clean e, files⟩

end ExposureCfg
end Verif.Model
