import Verif.Model.FitTail
import Verif.Model.MeanCont

/-!
# The continuum fitter with its numerical parts (`py/qsonic/picca_continuum.py:246-427, 484-520`)

The parameters of `FitterFns` (`Verif.Model.Fitter`) that concern the continuum are filled in with the models of the
fit of a spectrum, of the flux stack, of the update of the mean continuum and of the steps after the iterations. The
variance fitter stays a parameter.
-/

namespace Verif.Model
open Verif Verif.Np

variable {K : Type} [Field K] [LinearOrder K] [FloorRing K]

/-- py/qsonic/continuum_models/picca_continuum_model.py:217-225 `get_a0`: the weighted mean of the flux. -/
def startA0 (s : Spectrum K) : K :=
  (s.fivarSm.map (fun a => (List.zipWith (· * ·) (s.fflux.arr a.1) a.2).sum)).sum /
    (1 / 1000000 + (s.fivarSm.map (fun a => a.2.sum)).sum)

/-- What is fixed during a run. `minimize` is `Minuit(...).migrad()` or `scipy.optimize.minimize`
(py/qsonic/continuum_models/picca_continuum_model.py:126-167): success and minimum for a cost function and a starting
point; it is assumed to be a function of these. `smooth` is `UnivariateSpline`. -/
structure FullCfg (K : Type) where
  log : K → K
  sqrt : K → K
  smooth : List K → List K → List K
  junk : Nat → K
  minimize : (List K → K) → List K → Bool × List K
  order : Nat
  residual : Bool
  meanflux : K → K
  obs : StackGrid K
  rf : StackGrid K
  normalize : Bool
  etaCalib : Bool

/-- What the iterations change: the arrays of `meancont_interp`, the stack, `varlss_interp` and `eta_interp`.
py/qsonic/picca_continuum.py:246-282. -/
structure FullState (K : Type) where
  cont : List K
  contErr : List K
  stack : Stacker K
  varlss : K → K
  eta : K → K

/-- The four arrays of the stack before the sums over the ranks. py/qsonic/picca_continuum.py:1327-1334. -/
structure StackSums (K : Type) where
  fp : List K
  ep : List K
  fpRf : List K
  epRf : List K
  deriving DecidableEq

namespace FullCfg

variable (C : FullCfg K)

omit [LinearOrder K] [FloorRing K] in
/-- py/qsonic/picca_continuum.py:265: `self.rfwave`. -/
def rfwave : List K := (List.range C.rf.n).map (fun k : Nat => C.rf.x0 + (k : K) * C.rf.dx)

omit [LinearOrder K] [FloorRing K] in
/-- py/qsonic/picca_continuum.py:266: `self._denom`. -/
def denom : K := C.log (C.rfwave.getD (C.rfwave.length - 1) 0 / C.rfwave.getD 0 0)

/-- py/qsonic/picca_continuum.py:268-270: `meancont_interp` as a function. -/
def meancont (g : FullState K) : K → K := Spectrum.dataInterp C.junk (C.rf.x0, C.rf.dx, g.cont)

/-- `self.model.fit_continuum(spec)` (py/qsonic/continuum_models/picca_continuum_model.py:192-251). -/
def fitOne (g : FullState K) (s : Spectrum K) : Spectrum K :=
  Spectrum.piccaFit C.log (C.meancont g) C.meanflux g.varlss g.eta (C.rfwave.getD 0 0) C.denom
    (C.minimize (Spectrum.piccaCost C.log (C.meancont g) C.meanflux g.varlss g.eta (C.rfwave.getD 0 0) C.denom s)
      (startA0 s :: List.replicate C.order 0)) s

/-- py/qsonic/picca_continuum.py:380-382: reset and sums of this rank. Simplification: an exception of `add` (pixels
outside of the forest) is ignored. -/
def stackRank (l : List (Spectrum K)) : StackSums K :=
  let st := (Spectrum.stackSpectra C.residual (Stacker.new C.obs C.rf).reset l).1
  ⟨st.fp, st.ep, st.fpRf, st.epRf⟩

omit [LinearOrder K] [FloorRing K] in
/-- py/qsonic/picca_continuum.py:1331-1334: the four sums over the ranks. -/
def addSums (l : List (StackSums K)) : StackSums K :=
  { fp := Stacker.sumArrays C.obs.n (l.map (·.fp)), ep := Stacker.sumArrays C.obs.n (l.map (·.ep))
    fpRf := Stacker.sumArrays C.rf.n (l.map (·.fpRf)), epRf := Stacker.sumArrays C.rf.n (l.map (·.epRf)) }

/-- py/qsonic/picca_continuum.py:383-427: what `update_mean_cont` does with the sums. -/
def update (g : FullState K) (t : StackSums K) : FullState K × Bool :=
  let st := Stacker.finish C.sqrt { obs := C.obs, rf := C.rf, fp := t.fp, ep := t.ep, fpRf := t.fpRf, epRf := t.epRf }
  let m := meanUpdate C.smooth (contGrid C.log C.rfwave) C.order C.residual g.cont st.fpRf st.epRf
  ({ g with cont := m.fp, contErr := m.ep, stack := st }, m.converged)

/-- The fitter. The variance part is that of `P`, whose other parts are not used.
py/qsonic/picca_continuum.py:284-482. -/
def fns {Q D : Type} (P : FitterFns (FullState K) (Spectrum K) (StackSums K) Q D) :
    FitterFns (FullState K) (Spectrum K) (StackSums K) Q D :=
  { P with
    fitOne := C.fitOne
    valid := fun s => s.valid
    stack := fun _ l => C.stackRank l
    addR := C.addSums
    meanUpd := C.update
    normalize := fun g s => if C.normalize then normSpec g.stack s else s
    etaCalib := fun g s => if C.etaCalib then etaCalibIvar g.eta s else s }

end FullCfg
end Verif.Model
