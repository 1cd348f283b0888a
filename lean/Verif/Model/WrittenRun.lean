import Verif.Model.DeltaIo
import Verif.Model.WholeRun

/-!
# A run of `qsonic-fit` with the tables it writes (`py/qsonic/scripts/qsonic_fit.py:452-502`)

As in `Verif.Model.WholeRun`, but the delta files are made of the tables that `Spectrum.write` makes with the blinding
of this run, and the variance may be fitted during the iterations. Left out is what is left out there, and the exception
of the variance fitter for fits that fail in most of the bins (`Verif.Model.FitRun`).
-/

namespace Verif.Model
open Verif Verif.Np Prog

variable {Val K : Type} [LinearOrder Val] [Field K] [LinearOrder K] [FloorRing K]

/-- What is fixed during a run. `lya` is `WAVE_LYA_A`, `night` the number of a value of LASTNIGHT; `ra`, `dec` and
`extra` are from the catalog row of a target (`extra` has the optional columns), `meanReso` is `mean_resolution`,
whose `IndexError` for less than
five rows is not in this model (it is in `Verif.Model.MeanReso`, C82). `fitVar`: there is a variance fitter, that is
no `--fiducial-varlss` (py/qsonic/picca_continuum.py:207-217). -/
structure WrittenCfg (Val K : Type) where
  run : WholeCfg Val K
  lya : K
  skipResomat : Bool
  night : Val → Nat
  ra : Int → K
  dec : Int → K
  extra : Int → Dict (HVal K)
  meanReso : ReadSpec K → String → K
  fitVar : Bool

/-- What a rank has at the end. py/qsonic/scripts/qsonic_fit.py:452-503. -/
structure WrittenOut (Val K : Type) where
  night : Option Val
  deltas : List (ReadSpec K)
  files : List (DeltaName Val × List (Hdu K))

namespace WrittenCfg

variable (C : WrittenCfg Val K)

/-- The arguments which `set_blinding` uses. py/qsonic/spectrum.py:137-167. -/
def args : BlindArgs K := ⟨C.run.mock, C.run.sel.forestW1, C.skipResomat⟩

/-- py/qsonic/scripts/qsonic_fit.py:474: `Spectrum.set_blinding(maxlastnight, args)`; for mocks `maxlastnight` is
`None` and not
used (py/qsonic/spectrum.py:150-151). -/
def state (night : Option Val) : ClassState := setBlinding C.lya ClassState.init ((night.map C.night).getD 0) C.args

/-- What `Spectrum.write` uses of the catalog row (py/qsonic/spectrum.py:731-752). No `EXPID`: single exposures are not
in this model. -/
def ident (x : ReadSpec K) : Ident K :=
  { targetid := x.row.targetid, ra := C.ra x.row.targetid, dec := C.dec x.row.targetid, z := x.spec.z
    extra := C.extra x.row.targetid, expid := none }

/-- A spectrum for `save_deltas`. py/qsonic/io.py:226-275. -/
def toSave (x : ReadSpec K) : SavedSpec Val (FitSpec K) :=
  ⟨C.run.pix x.row.targetid, x.spec.valid, ⟨C.ident x, x.rsnr, C.meanReso x, x.spec⟩⟩

/-- py/qsonic/scripts/qsonic_fit.py:500-502. -/
def save (night : Option Val) (rank : Nat) (l : List (ReadSpec K)) :
    Except Err (List (DeltaName Val × List (Hdu K))) :=
  saveDeltaFiles C.run.argsort (C.state night) (l.map C.toSave) C.run.outdir C.run.byHpx (some rank)

/-- py/qsonic/scripts/qsonic_fit.py:452-502 `mpi_run_all`. -/
def runAll {Q D V : Type} (P : FitterFns (FullState K) (Spectrum K) (StackSums K) Q D)
    (cs : Codec Bool V) (cq : Codec (List (List (Row Val))) V) (cn : Codec Val V)
    (c : FitterCodecs (StackSums K) Q V) (read : Except Err (Catalog Val)) (fname : String) (g0 : FullState K)
    (size rank : Nat) : Prog V (SaverEv (String × D)) (WrittenOut Val K) :=
  (mpiGetLocalQueue cs cq read C.run.tile size rank).bind fun q =>
  (C.run.blinding cn q).bind fun night =>
  (ofExcept (C.run.prepare q)).bind fun l =>
  ((C.run.fit.fns P).iterate c fname C.run.niter C.fitVar rank g0 (l.map (·.spec))).bind fun r =>
  let deltas := C.run.finish (SelectCfg.setSpecs l r.2.1)
  (ofExcept (C.save night rank deltas)).bind fun files =>
  .ret ⟨night, deltas, files⟩

end WrittenCfg
end Verif.Model
