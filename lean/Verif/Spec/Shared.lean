import Verif.Model.Shared

/-!
# The continuum fitter with functions by value

The same fitter without objects: the fit of a spectrum uses the mean continuum, the variance and eta of the state, and
every update makes new functions.
-/

namespace Verif.Spec
open Verif Verif.Model

variable {K Q : Type} [Field K] [LinearOrder K] [FloorRing K]

/-- The functions of the fitter, the tables they interpolate with errors, and the statistics. -/
structure FitVals (K Q : Type) where
  full : FullState K
  varFp : List K
  varEp : List K
  etaFp : List K
  etaEp : List K
  stats : Q

namespace FitVals

variable (C : FullCfg K) (P : VarPart K Q)

/-- A new cubic interpolator of a table over the grid of the variance fitter. -/
def spline (l : List K) : K → K := Spectrum.dataInterp C.junk (P.x0, P.dx, l)

/-- At the start: mean continuum and stacked flux one, fiducial variance or 0.1, eta one. -/
def new (fiducial : Option (LinInterp K)) (stats : Q) : FitVals K Q :=
  let full : FullState K := { cont := List.replicate C.rf.n 1, contErr := List.replicate C.rf.n 0
                              stack := ⟨C.obs, C.rf, List.replicate C.obs.n 1, List.replicate C.obs.n 0,
                                List.replicate C.rf.n 1, List.replicate C.rf.n 0⟩
                              varlss := fun _ => 0, eta := fun _ => 0 }
  match fiducial with
  | some f =>
    { full := { full with varlss := fun x => (f.eval x).getD 0,
                          eta := Spectrum.dataInterp C.junk (f.xp0, f.dxp, List.replicate f.fp.length 1) }
      varFp := f.fp, varEp := List.replicate f.fp.length 0
      etaFp := List.replicate f.fp.length 1, etaEp := List.replicate f.fp.length 0, stats := stats }
  | none =>
    { full := { full with varlss := spline C P (List.replicate P.n (1 / 10)), eta := spline C P (List.replicate P.n 1) }
      varFp := List.replicate P.n (1 / 10), varEp := List.replicate P.n 0
      etaFp := List.replicate P.n 1, etaEp := List.replicate P.n 0, stats := stats }

/-- The fit of the variance. -/
def varUpd (g : FitVals K Q) (q : Q) : FitVals K Q :=
  let r := P.solve g.varFp g.etaFp q
  if P.fitEta then
    { full := { g.full with varlss := spline C P r.1.1, eta := spline C P r.2.1 }
      varFp := r.1.1, varEp := r.1.2, etaFp := r.2.1, etaEp := r.2.2, stats := q }
  else
    { g with full := { g.full with varlss := spline C P r.1.1 }, varFp := r.1.1, varEp := r.1.2, stats := q }

/-- Variance and eta of a new fitter. -/
def newVar (g : FitVals K Q) : FitVals K Q :=
  { g with
    full := { g.full with varlss := spline C P (List.replicate P.n (1 / 10)), eta := spline C P (List.replicate P.n 1) }
    varFp := List.replicate P.n (1 / 10), varEp := List.replicate P.n 0
    etaFp := List.replicate P.n 1, etaEp := List.replicate P.n 0 }

/-- The fitter. -/
def fns {D : Type} (table : List (List K) → D) (stats : Q → D) :
    FitterFns (FitVals K Q) (Spectrum K) (StackSums K) Q D where
  fitOne g := C.fitOne g.full
  valid s := s.valid
  stack _ l := C.stackRank l
  addR := C.addSums
  meanUpd g t := ({ g with full := (C.update g.full t).1 }, (C.update g.full t).2)
  varAcc rank _ l := P.acc rank l
  addQ := P.add
  varUpd := varUpd C P
  newVar := newVar C P
  normalize g s := if C.normalize then normSpec g.full.stack s else s
  etaCalib g s := if C.etaCalib then etaCalibIvar g.full.eta s else s
  dataCont g := table [g.full.cont, g.full.contErr]
  dataFlux g := table [g.full.stack.fp]
  dataFluxRf g := table [g.full.stack.fpRf, g.full.stack.epRf]
  dataVar g := table [g.varFp, g.varEp, g.etaFp, g.etaEp]
  dataStats g := stats g.stats

end FitVals

/-- The end of `iterate` on objects and by value: the same spectra, number of iterations and convergence, and the
interpolators of the fitter are the functions by value. -/
structure SameFunctions (C : FullCfg K) (x : FitObjs K Q × List (Spectrum K) × Nat × Bool)
    (y : FitVals K Q × List (Spectrum K) × Nat × Bool) : Prop where
  result : x.2 = y.2
  mean : (x.1.obj x.1.fitter.mean).call = C.meancont y.1.full
  var : (x.1.obj x.1.fitter.var).call = y.1.full.varlss
  eta : (x.1.obj x.1.fitter.eta).call = y.1.full.eta

end Verif.Spec
