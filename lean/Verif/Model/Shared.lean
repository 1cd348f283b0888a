import Verif.Model.FullFit
import Verif.Model.Interp

/-!
# The interpolators of the continuum fitter as objects (`py/qsonic/picca_continuum.py:200-282, 359-482, 584-594`)

The fitter and its continuum model hold references to the same interpolator objects, which `reset` changes in place,
and `fit_final_varlss` gives new objects to the fitter. Here the objects are on a heap. The continuum model is that of
picca. Arrays are values: those given to `reset` (409, 461-464) are new ones at every call.
-/

namespace Verif.Model
open Verif Verif.Np

variable {K : Type} [Field K] [LinearOrder K] [FloorRing K]

/-- An object of py/qsonic/mathtools.py:328-436; `natural` is `bc_type`. -/
inductive InterpObj (K : Type)
  | lin (f : LinInterp K) (ep : List K)
  | cubic (natural : Bool) (f : CubicInterp K) (ep : List K)

namespace InterpObj

/-- `fp` (py/qsonic/mathtools.py:355-374). -/
def fp : InterpObj K → List K
  | .lin f _ => f.fp
  | .cubic _ f _ => f.fp

/-- `ep` (py/qsonic/mathtools.py:355-374). -/
def ep : InterpObj K → List K
  | .lin _ ep => ep
  | .cubic _ _ ep => ep

/-- `xp0` and `dxp`. py/qsonic/mathtools.py:355-362. -/
def grid : InterpObj K → K × K
  | .lin f _ => (f.xp0, f.dxp)
  | .cubic _ f _ => (f.xp0, f.dxp)

/-- `__call__` (py/qsonic/mathtools.py:364-365, 421-423). Simplification: 0 where the compiled code reads out of bounds
(fewer than two points). -/
def call (o : InterpObj K) (x : K) : K :=
  match o with
  | .lin f _ => (f.eval x).getD 0
  | .cubic _ f _ => (f.eval x).getD 0

/-- py/qsonic/mathtools.py:411-417, 430-436: the second derivatives; `junk` is what is in new arrays. -/
def secondDer (junk : Nat → K) (natural : Bool) (fp : List K) (dxp : K) : List K :=
  if natural then toArr fp.length (splineNatural junk junk fp.length (fun i => fp.getD i 0) dxp)
  else toArr fp.length (splineNotaknot junk fp.length (fun i => fp.getD i 0) dxp)

/-- py/qsonic/mathtools.py:401-419 `FastCubic1DInterp.__init__`. -/
def newCubic (junk : Nat → K) (natural : Bool) (xp0 dxp : K) (fp ep : List K) : InterpObj K :=
  .cubic natural { xp0 := xp0, dxp := dxp, fp := fp, y2p := secondDer junk natural fp dxp } ep

/-- py/qsonic/mathtools.py:367-373, 425-436 `reset`. -/
def reset (junk : Nat → K) (fp ep : List K) : InterpObj K → InterpObj K
  | .lin f _ => .lin { f with fp := fp } ep
  | .cubic nat f _ => .cubic nat { f with fp := fp, y2p := secondDer junk nat fp f.dxp } ep

end InterpObj

/-- References to `meancont_interp`, `varlss_interp` and `eta_interp`. py/qsonic/picca_continuum.py:200-282. -/
structure FitRefs where
  mean : Nat
  var : Nat
  eta : Nat
  deriving DecidableEq

/-- The objects of a rank: those of the fitter, those of its continuum model, and the statistics of the variance
fitter. py/qsonic/picca_continuum.py:200-282. -/
structure FitObjs (K Q : Type) where
  heap : List (InterpObj K)
  fitter : FitRefs
  model : FitRefs
  stack : Stacker K
  stats : Q

/-- The variance fitter: the grid in wavelength, `--var-fit-eta`, the statistics of a rank and their sum, and the
fit for an initial guess of the two tables: new values and errors (those of eta are used with `fitEta` only).
py/qsonic/picca_continuum.py:429-462. -/
structure VarPart (K Q : Type) where
  x0 : K
  dx : K
  n : Nat
  fitEta : Bool
  acc : Nat → List (Spectrum K) → Q
  add : List Q → Q
  solve : List K → List K → Q → (List K × List K) × (List K × List K)

namespace FitObjs

variable {Q : Type} (C : FullCfg K) (P : VarPart K Q)

/-- The object a reference points to. py/qsonic/mathtools.py:330-374. -/
def obj (w : FitObjs K Q) (r : Nat) : InterpObj K := w.heap.getD r (.lin ⟨0, 0, []⟩ [])

/-- `reset` of an object. py/qsonic/mathtools.py:367-374. -/
def resetAt (w : FitObjs K Q) (r : Nat) (fp ep : List K) : FitObjs K Q :=
  { w with heap := w.heap.modify r (InterpObj.reset C.junk fp ep) }

/-- py/qsonic/picca_continuum.py:860-876 `construct_interp`. -/
def constructInterp (y0 : K) : InterpObj K :=
  .newCubic C.junk false P.x0 P.dx (List.replicate P.n y0) (List.replicate P.n 0)

/-- py/qsonic/picca_continuum.py:268-282 (and 200-226): the interpolators and the references given to the model.
`fiducial` is the table of `--fiducial-varlss`. -/
def new (fiducial : Option (LinInterp K)) (stats : Q) : FitObjs K Q :=
  let var := match fiducial with
    | some f => .lin f (List.replicate f.fp.length 0)
    | none => constructInterp C P (1 / 10)
  { heap := [.newCubic C.junk false C.rf.x0 C.rf.dx (List.replicate C.rf.n 1) (List.replicate C.rf.n 0), var,
      .newCubic C.junk false var.grid.1 var.grid.2 (List.replicate var.fp.length 1) (List.replicate var.fp.length 0)]
    fitter := ⟨0, 1, 2⟩
    model := ⟨0, 1, 2⟩
    stack := Stacker.new C.obs C.rf
    stats := stats }

/-- py/qsonic/continuum_models/picca_continuum_model.py:192-251 `fit_continuum`, with the interpolators of the
model. -/
def fitOne (w : FitObjs K Q) (s : Spectrum K) : Spectrum K :=
  let mean := (w.obj w.model.mean).call
  let var := (w.obj w.model.var).call
  let eta := (w.obj w.model.eta).call
  Spectrum.piccaFit C.log mean C.meanflux var eta (C.rfwave.getD 0 0) C.denom
    (C.minimize (Spectrum.piccaCost C.log mean C.meanflux var eta (C.rfwave.getD 0 0) C.denom s)
      (startA0 s :: List.replicate C.order 0)) s

/-- py/qsonic/picca_continuum.py:383-427: what `update_mean_cont` does with the sums. -/
def meanUpd (w : FitObjs K Q) (t : StackSums K) : FitObjs K Q × Bool :=
  let st := Stacker.finish C.sqrt { obs := C.obs, rf := C.rf, fp := t.fp, ep := t.ep, fpRf := t.fpRf, epRf := t.epRf }
  let m := meanUpdate C.smooth (contGrid C.log C.rfwave) C.order C.residual (w.obj w.fitter.mean).fp st.fpRf st.epRf
  ({ w.resetAt C w.fitter.mean m.fp m.ep with stack := st }, m.converged)

/-- py/qsonic/picca_continuum.py:448-464: what `update_var_lss_eta` does with the sums. -/
def varUpd (w : FitObjs K Q) (q : Q) : FitObjs K Q :=
  let r := P.solve (w.obj w.fitter.var).fp (w.obj w.fitter.eta).fp q
  let w1 := w.resetAt C w.fitter.var r.1.1 r.1.2
  let w2 := if P.fitEta then w1.resetAt C w.fitter.eta r.2.1 r.2.2 else w1
  { w2 with stats := q }

/-- py/qsonic/picca_continuum.py:586-590: new interpolators of the fitter. -/
def newVar (w : FitObjs K Q) : FitObjs K Q :=
  { w with
    heap := w.heap ++ [constructInterp C P (1 / 10), constructInterp C P 1]
    fitter := { w.fitter with var := w.heap.length, eta := w.heap.length + 1 } }

/-- The fitter on its objects. The tables written (596-630) are `fp` and `ep` of the interpolators and of the stack;
`stats` makes the table of the statistics. py/qsonic/picca_continuum.py:284-482. -/
def fns {D : Type} (table : List (List K) → D) (stats : Q → D) :
    FitterFns (FitObjs K Q) (Spectrum K) (StackSums K) Q D where
  fitOne := fitOne C
  valid s := s.valid
  stack _ l := C.stackRank l
  addR := C.addSums
  meanUpd := meanUpd C
  varAcc rank _ l := P.acc rank l
  addQ := P.add
  varUpd := varUpd C P
  newVar := newVar C P
  normalize w s := if C.normalize then normSpec w.stack s else s
  etaCalib w s := if C.etaCalib then etaCalibIvar (w.obj w.fitter.eta).call s else s
  dataCont w := table [(w.obj w.fitter.mean).fp, (w.obj w.fitter.mean).ep]
  dataFlux w := table [w.stack.fp]
  dataFluxRf w := table [w.stack.fpRf, w.stack.epRf]
  dataVar w := table [(w.obj w.fitter.var).fp, (w.obj w.fitter.var).ep, (w.obj w.fitter.eta).fp,
    (w.obj w.fitter.eta).ep]
  dataStats w := stats w.stats

end FitObjs
end Verif.Model
