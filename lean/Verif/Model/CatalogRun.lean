import Verif.Model.FitParams
import Verif.Model.WholeRun

/-!
# A run of `qsonic-fit` with the chi square catalog (`py/qsonic/scripts/qsonic_fit.py:315-502`)

The run of `Verif.Model.WholeRun`, where every spectrum also carries the parameters of its continuum, and with
`save_contchi2_catalog` after the fit. `--exposures after`, `--coadd-arms after` and `--varlss-as-additive-noise` are
left out.
-/

namespace Verif.Model
open Verif Verif.Np Prog

variable {Val K : Type} [LinearOrder Val] [Field K] [LinearOrder K] [FloorRing K]

/-- What is fixed during a run: the options, the covariance that the minimizer returns, and the number which is stored
for a pixel. py/qsonic/scripts/qsonic_fit.py:315-356, py/qsonic/picca_continuum.py:632-682. -/
structure CatalogCfg (Val K : Type) where
  run : WholeCfg Val K
  cov : (List K → K) → List K → List (List K)
  pixNum : Val → Int

/-- What a rank has at the end, with the table that it writes to `continuum_chi2_catalog.fits`.
py/qsonic/picca_continuum.py:632-682. -/
structure CatalogOut (Val K : Type) where
  out : WholeOut Val K
  table : Option (List (ChiRow K))

/-- py/qsonic/picca_continuum.py:674-681: the root concatenates and writes what it gathered. -/
def chiTable {V : Type} (ck : Codec (List (ChiRow K)) V) : Option (List V) → Option (List (ChiRow K))
  | some l => some (l.map ck.dec).flatten
  | none => none

namespace CatalogCfg

variable (C : CatalogCfg Val K)

/-- py/qsonic/spectrum.py:201-244 and py/qsonic/continuum_models/picca_continuum_model.py:264-271: the parameters of
a spectrum
when the iterations begin. -/
def start (x : ReadSpec K) : FitRec K :=
  FitRec.piccaInit C.run.fit.order
    (FitRec.new x.row.targetid (C.pixNum (C.run.pix x.row.targetid)) x.rsnr x.spec)

/-- py/qsonic/picca_continuum.py:632-681 `save_contchi2_catalog`. The file is a result here (in `saveContchi2` it is an
event). -/
def saveTable {V W : Type} (ck : Codec (List (ChiRow K)) V) (rank : Nat) (l : List (FitRec K)) :
    Prog V W (Option (List (ChiRow K))) :=
  if C.run.outdir then
    (ofExcept (l.mapM (fun s => chiRow (C.run.fit.order + 1) rank s.chi))).bind fun rows =>
      .gather (ck.enc rows) fun o => .ret (chiTable ck o)
  else .ret none

/-- py/qsonic/scripts/qsonic_fit.py:315-356, 488-502: the fit of the spectra `l`, the catalog, and the deltas. -/
def fitSave {Q D V : Type} (P : FitterFns (FullState K) (Spectrum K) (StackSums K) Q D)
    (c : FitterCodecs (StackSums K) Q V) (ck : Codec (List (ChiRow K)) V) (fname : String) (g0 : FullState K)
    (night : Option Val) (rank : Nat) (l : List (ReadSpec K)) :
    Prog V (SaverEv (String × D)) (CatalogOut Val K) :=
  ((C.run.fit.recFns C.cov P).iterate c fname C.run.niter false rank g0 (l.map C.start)).bind fun r =>
  (C.saveTable ck rank r.2.1).bind fun t =>
  let deltas := C.run.finish (SelectCfg.setSpecs l (r.2.1.map (·.spec)))
  (ofExcept (C.run.save rank deltas)).bind fun files =>
  .ret ⟨⟨night, r.2.2.1, r.2.2.2, deltas, files⟩, t⟩

/-- py/qsonic/scripts/qsonic_fit.py:452-502 `mpi_run_all`; see `WholeCfg.run`. -/
def runAll {Q D V : Type} (P : FitterFns (FullState K) (Spectrum K) (StackSums K) Q D)
    (cs : Codec Bool V) (cq : Codec (List (List (Row Val))) V) (cn : Codec Val V)
    (c : FitterCodecs (StackSums K) Q V) (ck : Codec (List (ChiRow K)) V) (read : Except Err (Catalog Val))
    (fname : String) (g0 : FullState K) (size rank : Nat) :
    Prog V (SaverEv (String × D)) (CatalogOut Val K) :=
  (mpiGetLocalQueue cs cq read C.run.tile size rank).bind fun q =>
  (C.run.blinding cn q).bind fun night =>
  (ofExcept (C.run.prepare q)).bind fun l =>
  C.fitSave P c ck fname g0 night rank l

end CatalogCfg
end Verif.Model
