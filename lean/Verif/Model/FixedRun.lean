import Verif.Model.InputCont
import Verif.Model.WholeRun

/-!
# A run of `qsonic-fit` with continua that are not fitted (`--input-continuum-dir`, `--continuum-model true`)

`mpi_run_all` (py/qsonic/scripts/qsonic_fit.py:452-502) with the models of
py/qsonic/continuum_models/input_continuum_model.py and true_continuum_model.py. Left out is what is left out in
`Verif.Model.WholeRun`, and `x`, `xcov` and `dof` of `cont_params`.
-/

namespace Verif.Model
open Verif Verif.Np Prog

variable {Val K : Type} [LinearOrder Val] [Field K] [LinearOrder K] [FloorRing K]

/-- Where the continua are from. `input`: `hpx` is `ang2pix` of the position of a target, `files` are the files of
`--input-continuum-dir` (`none` for a file that cannot be read), `argsort` is numpy's. `truth`: `true_data_w1`,
`true_data_dwave` and `true_data` of a target, which the reader has set (py/qsonic/io.py:306-351, C15). -/
inductive ContSource (K : Type) where
  | input (hpx : Int → Int) (files : Int → Option (ContFile Int K)) (argsort : List (Lex (Int × Int)) → List Nat)
  | truth (data : Int → K × K × List K)

/-- A spectrum with the part of `cont_params` that holds the continuum read.
py/qsonic/continuum_models/input_continuum_model.py:76-170. -/
structure FixedSpec (K : Type) where
  data : Option (K × K × List K)
  spec : Spectrum K

/-- What is fixed during a run. `fitVar`: there is a variance fitter, that is no `--fiducial-varlss`.
py/qsonic/picca_continuum.py:200-282. -/
structure FixedCfg (Val K : Type) where
  run : WholeCfg Val K
  source : ContSource K
  fitVar : Bool

namespace FixedCfg

variable (C : FixedCfg Val K)

/-- py/qsonic/picca_continuum.py:228-245 `_set_continuum_model`: the order is 0; the models do not stack residuals
(py/qsonic/continuum_models/input_continuum_model.py:229-236,
py/qsonic/continuum_models/true_continuum_model.py:68-75). -/
def fit : FullCfg K := { C.run.fit with order := 0, residual := false }

/-- py/qsonic/picca_continuum.py:235: `self.niterations = 1` for the true continuum. -/
def niter : Nat :=
  match C.source with
  | .input _ _ _ => C.run.niter
  | .truth _ => 1

/-- `init_spectra` (py/qsonic/continuum_models/input_continuum_model.py:207-227,
py/qsonic/continuum_models/true_continuum_model.py:48-66). -/
def initSpectra (l : List (ReadSpec K)) : Except Err (List (FixedSpec K)) :=
  match C.source with
  | .input hpx files argsort =>
    (readContinua argsort files (l.map (fun x => ⟨x.row.targetid, hpx x.row.targetid⟩))).map
      (fun st => l.zipIdx.map (fun p => ⟨(st p.2).data, p.1.spec.setCont ((st p.2).valid, [])⟩))
  | .truth data => .ok (l.map (fun x => ⟨some (data x.row.targetid), x.spec.setCont (true, [])⟩))

/-- The spline through what was read, as a function. Zero without data: the models do not use it then.
py/qsonic/continuum_models/input_continuum_model.py:186-188. -/
def interp (x : FixedSpec K) : K → K :=
  match x.data with
  | none => fun _ => 0
  | some d => Spectrum.dataInterp C.run.fit.junk d

/-- `fit_continuum` (py/qsonic/continuum_models/input_continuum_model.py:172-205,
py/qsonic/continuum_models/true_continuum_model.py:25-46). -/
def fitOne (g : FullState K) (x : FixedSpec K) : FixedSpec K :=
  match C.source with
  | .input _ _ _ => { x with spec := Spectrum.inputFit (C.interp x) C.run.fit.meanflux g.varlss g.eta x.spec }
  | .truth _ => { x with spec := Spectrum.trueFit (C.interp x) C.run.fit.meanflux g.varlss x.spec }

/-- The fitter (py/qsonic/picca_continuum.py:284-681) with these models; the variance part is that of `P`. -/
def fns {Q D : Type} (P : FitterFns (FullState K) (Spectrum K) (StackSums K) Q D) :
    FitterFns (FullState K) (FixedSpec K) (StackSums K) Q D where
  fitOne := C.fitOne
  valid := fun x => x.spec.valid
  stack := fun _ l => C.fit.stackRank (l.map (·.spec))
  addR := C.fit.addSums
  meanUpd := C.fit.update
  varAcc := fun r g l => P.varAcc r g (l.map (·.spec))
  addQ := P.addQ
  varUpd := P.varUpd
  newVar := P.newVar
  normalize := fun g x => { x with spec := if C.run.fit.normalize then normSpec g.stack x.spec else x.spec }
  etaCalib := fun g x => { x with spec := if C.run.fit.etaCalib then etaCalibIvar g.eta x.spec else x.spec }
  dataCont := P.dataCont
  dataFlux := P.dataFlux
  dataFluxRf := P.dataFluxRf
  dataVar := P.dataVar
  dataStats := P.dataStats

/-- py/qsonic/scripts/qsonic_fit.py:494-502: the spectra are put back, cleaned and saved. -/
def saveFixed {V W : Type} (night : Option Val) (rank : Nat) (l : List (ReadSpec K)) (s : List (FixedSpec K)) (k : Nat)
    (b : Bool) : Prog V W (WholeOut Val K) :=
  let deltas := C.run.finish (SelectCfg.setSpecs l (s.map (·.spec)))
  (ofExcept (C.run.save rank deltas)).bind fun files =>
  .ret ⟨night, k, b, deltas, files⟩

/-- py/qsonic/scripts/qsonic_fit.py:489: the continuum fit, which begins with `init_spectra`
(py/qsonic/picca_continuum.py:546),
and what follows. -/
def fitFixed {Q D V : Type} (P : FitterFns (FullState K) (Spectrum K) (StackSums K) Q D)
    (c : FitterCodecs (StackSums K) Q V) (fname : String) (g0 : FullState K) (night : Option Val) (rank : Nat)
    (l : List (ReadSpec K)) : Prog V (SaverEv (String × D)) (WholeOut Val K) :=
  (ofExcept (C.initSpectra l)).bind fun s =>
  ((C.fns P).iterate c fname C.niter C.fitVar rank g0 s).bind fun r =>
  C.saveFixed night rank l r.2.1 r.2.2.1 r.2.2.2

/-- py/qsonic/scripts/qsonic_fit.py:452-502 `mpi_run_all`. -/
def runAll {Q D V : Type} (P : FitterFns (FullState K) (Spectrum K) (StackSums K) Q D)
    (cs : Codec Bool V) (cq : Codec (List (List (Row Val))) V) (cn : Codec Val V)
    (c : FitterCodecs (StackSums K) Q V) (read : Except Err (Catalog Val)) (fname : String) (g0 : FullState K)
    (size rank : Nat) : Prog V (SaverEv (String × D)) (WholeOut Val K) :=
  (mpiGetLocalQueue cs cq read C.run.tile size rank).bind fun q =>
  (C.run.blinding cn q).bind fun night =>
  (ofExcept (C.run.prepare q)).bind fun l =>
  C.fitFixed P c fname g0 night rank l

end FixedCfg
end Verif.Model
