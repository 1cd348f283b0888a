import Verif.Model.FullFit
import Verif.Model.Dof

/-!
# Parameters of the continuum fit: `cont_params` without `cont`, `valid` and `chi2`, which are in `Spectrum`
-/

namespace Verif.Model
open Verif Verif.Np

variable {K : Type}

/-- `np.eye(n)`. py/qsonic/continuum_models/picca_continuum_model.py:269, py/qsonic/spectrum.py:241. -/
def eye [Zero K] [One K] (n : Nat) : List (List K) :=
  (List.range n).map (fun i => (List.range n).map (fun j => if i = j then 1 else 0))

/-- A spectrum with the rest of `cont_params` and the columns of the chi square catalog.
py/qsonic/picca_continuum.py:653-674. -/
structure FitRec (K : Type) where
  spec : Spectrum K
  targetid : Int
  hpxpixel : Int
  rsnr : K
  method : String
  x : List K
  xcov : List (List K)
  dof : Int

namespace FitRec

/-- py/qsonic/spectrum.py:237-244: a new spectrum; `x[0]` is changed when the forest is set (266-285). -/
def new [Zero K] [One K] (targetid hpxpixel : Int) (rsnr : K) (s : Spectrum K) : FitRec K :=
  { spec := s, targetid := targetid, hpxpixel := hpxpixel, rsnr := rsnr, method := "", x := [s.x0, 0], xcov := eye 2,
    dof := 0 }

variable [Field K] [LinearOrder K]

/-- py/qsonic/continuum_models/picca_continuum_model.py:264-271 `init_spectra`, one spectrum. Simplification: an empty
`x` (which does not happen) is read as zero. -/
def piccaInit (order : Nat) (r : FitRec K) : FitRec K :=
  { r with method := "picca", x := r.x.headD 0 :: List.replicate order 0, xcov := eye (order + 1)
           dof := r.spec.initDof (order + 1) }

/-- py/qsonic/continuum_models/true_continuum_model.py:60-66 `init_spectra`, one spectrum. -/
def trueInit (r : FitRec K) : FitRec K :=
  { r with spec := { r.spec with valid := true, cont := [] }, method := "true", x := [0], xcov := eye 1
           dof := r.spec.initDof 0 }

/-- py/qsonic/continuum_models/input_continuum_model.py:219-225 `init_spectra`, one spectrum, before the continua are
read. -/
def inputInit (r : FitRec K) : FitRec K :=
  { r with spec := { r.spec with valid := false, cont := [] }, method := "input", x := [0], xcov := eye 1
           dof := r.spec.initDof 0 }

/-- What py/qsonic/picca_continuum.py:657-672 reads for the chi square catalog. -/
def chi (r : FitRec K) : ChiSpec K :=
  { targetid := r.targetid, z := r.spec.z, hpxpixel := r.hpxpixel, meanSnr := r.spec.meanSnr, rsnr := r.rsnr
    valid := r.spec.valid, chi2 := r.spec.chi2, dof := r.dof, x := r.x, xcov := r.xcov.flatten }

end FitRec

namespace FullCfg

variable [Field K] [LinearOrder K] [FloorRing K] (C : FullCfg K)

/-- py/qsonic/continuum_models/picca_continuum_model.py:126-167, 225-251: `fit_continuum` with `x` and `xcov`. The
start of the minimizer has the length of `x`; `x` and `xcov` are changed by a valid fit only. `cov` is the covariance
or the inverse Hessian that the minimizer returns. -/
def fitRec (cov : (List K → K) → List K → List (List K)) (g : FullState K) (r : FitRec K) : FitRec K :=
  let cost := Spectrum.piccaCost C.log (C.meancont g) C.meanflux g.varlss g.eta (C.rfwave.getD 0 0) C.denom r.spec
  let start := startA0 r.spec :: List.replicate (r.x.length - 1) 0
  let s := Spectrum.piccaFit C.log (C.meancont g) C.meanflux g.varlss g.eta (C.rfwave.getD 0 0) C.denom
    (C.minimize cost start) r.spec
  if s.valid then { r with spec := s, x := (C.minimize cost start).2, xcov := cov cost start } else { r with spec := s }

/-- The fitter on spectra with their parameters. py/qsonic/picca_continuum.py:284-320, 522-582. -/
def recFns {Q D : Type} (cov : (List K → K) → List K → List (List K))
    (P : FitterFns (FullState K) (Spectrum K) (StackSums K) Q D) :
    FitterFns (FullState K) (FitRec K) (StackSums K) Q D where
  fitOne := C.fitRec cov
  valid r := r.spec.valid
  stack g l := (C.fns P).stack g (l.map (·.spec))
  addR := (C.fns P).addR
  meanUpd := (C.fns P).meanUpd
  varAcc rank g l := P.varAcc rank g (l.map (·.spec))
  addQ := P.addQ
  varUpd := P.varUpd
  newVar := P.newVar
  normalize g r := { r with spec := (C.fns P).normalize g r.spec }
  etaCalib g r := { r with spec := (C.fns P).etaCalib g r.spec }
  dataCont := P.dataCont
  dataFlux := P.dataFlux
  dataFluxRf := P.dataFluxRf
  dataVar := P.dataVar
  dataStats := P.dataStats

end FullCfg
end Verif.Model
