import Verif.Model.Spectrum
import Verif.Model.Interp
import Verif.Model.InputCont
import Verif.Np.Float

/-!
# Model of `fit_continuum` of the three continuum models (`py/qsonic/continuum_models/`)

The interpolators of mean flux, LSS variance and eta act pixel by pixel and are parameters. The loop over the arms
is generic in the type `C` of the values of a continuum: an ordered field, or `Fl K` where NaN and infinities
matter.
-/

namespace Verif.Model
open Verif Verif.Np

variable {K C : Type}

/-- The loop over the arms of `forestwave` (py/qsonic/continuum_models/picca_continuum_model.py:227-237,
py/qsonic/continuum_models/input_continuum_model.py:191-198,
py/qsonic/continuum_models/true_continuum_model.py:40-43): `reject` is the check after which the loop is
left with an invalid continuum, `est` the estimate for the array of wavelengths, `mul` the product with the mean
flux. -/
def contLoop (reject : List C → Bool) (est : List K → List C) (mul : List K → List C → List C) :
    Dict (List K) → Dict (List C) → Bool × Dict (List C)
  | [], d => (true, d)
  | (arm, w) :: rest, d =>
    if reject (est w) then (false, d)
    else contLoop reject est mul rest (d.set arm (mul w (est w)))

/-- `any(cont_est < 0)` (py/qsonic/continuum_models/picca_continuum_model.py:231). -/
def piccaRejects [Zero K] [LT K] [DecidableLT K] (l : List K) : Bool := l.any (fun c => decide (c < 0))

/-- `any(cont_est <= 0) or any(np.isnan(cont_est))` (py/qsonic/continuum_models/input_continuum_model.py:194) for
numbers. -/
def inputRejects [Zero K] [LE K] [DecidableLE K] (l : List K) : Bool := l.any (fun c => decide (c ≤ 0))

/-- `any(cont_est < 0)` with NaN and infinities: a comparison with NaN is false.
py/qsonic/continuum_models/picca_continuum_model.py:234. -/
def piccaRejectsFl [Zero K] [LT K] [DecidableLT K] (l : List (Fl K)) : Bool := l.any (fun c => c.lt (.fin 0))

/-- `any(cont_est <= 0) or any(np.isnan(cont_est))` with NaN and infinities.
py/qsonic/continuum_models/input_continuum_model.py:193. -/
def inputRejectsFl [DecidableEq K] [Zero K] [LT K] [DecidableLT K] (l : List (Fl K)) : Bool :=
  l.any (fun c => c.lt (.fin 0) || decide (c = .fin 0)) || l.any Fl.isNan

/-- `cont_est * f(wave)` for numbers. py/qsonic/continuum_models/picca_continuum_model.py:238. -/
def mulFlux [Mul K] (f : K → K) (w c : List K) : List K := List.zipWith (fun x y => y * f x) w c

/-- The product of a value with a positive number. py/qsonic/continuum_models/input_continuum_model.py:197. -/
def Fl.scale [Mul K] (m : K) : Fl K → Fl K
  | .fin x => .fin (x * m)
  | v => v

/-- `cont_est * f(wave)` for positive `f`, with NaN and infinities.
py/qsonic/continuum_models/input_continuum_model.py:197. -/
def mulFluxFl [Mul K] (f : K → K) (w : List K) (c : List (Fl K)) : List (Fl K) :=
  List.zipWith (fun x y => Fl.scale (f x) y) w c

variable [Field K] [LinearOrder K]

/-- py/qsonic/mathtools.py:150-169 `mypoly1d`, one point. -/
def mypoly1d (coef : List K) (x : K) : K := (coef.zipIdx.map (fun p => p.1 * x ^ p.2)).sum

/-- py/qsonic/continuum_models/picca_continuum_model.py:103-124 `get_continuum_model`, one pixel; `log` is a
parameter. -/
def piccaModel (log meancont : K → K) (rfwave0 denom : K) (x : List K) (wrf : K) : K :=
  meancont wrf * mypoly1d x (2 * (log (wrf / rfwave0) / denom) - 1)

/-- The term of a pixel in the cost function
(py/qsonic/continuum_models/picca_continuum_model.py:91-99). -/
def pixelCost (log : K → K) (varlss eta flux ivar cont : K) : K :=
  let weight := Spectrum.pixelWeight varlss eta cont ivar
  weight * (flux - cont) ^ 2 - if 0 < weight then log weight else 0

namespace Spectrum

/-- Assignment of `cont_params['valid']` and `cont_params['cont']`.
py/qsonic/continuum_models/input_continuum_model.py:194-198. -/
def setCont (s : Spectrum K) (r : Bool × Dict (List K)) : Spectrum K := { s with valid := r.1, cont := r.2 }

/-- `cont_params['cont'] = None`, `cont_params['chi2'] = -1`: `None` is the empty dictionary here, both are false
in the tests of `set_forest_weight` and `calc_continuum_chi2`.
py/qsonic/continuum_models/input_continuum_model.py:203-205,
py/qsonic/continuum_models/picca_continuum_model.py:249-251. -/
def clearCont (s : Spectrum K) : Spectrum K := { s with cont := [], chi2 := -1 }

/-- The end of `fit_continuum` (py/qsonic/continuum_models/picca_continuum_model.py:239-251,
py/qsonic/continuum_models/input_continuum_model.py:200-205): weights, chi2, and the invalid case. -/
def endFit (varlss eta : K → K) (s : Spectrum K) : Spectrum K :=
  let s' := (s.setForestWeight varlss eta).calcContinuumChi2
  if s'.valid then s' else s'.clearCont

/-- py/qsonic/continuum_models/picca_continuum_model.py:59-101 `_continuum_costfn`. -/
def piccaCost (log meancont meanflux varlss eta : K → K) (rfwave0 denom : K) (s : Spectrum K) (x : List K) : K :=
  (s.fwave.map (fun a =>
    (List.zipWith (fun w p => pixelCost log (varlss w) (eta w) p.1 p.2
      (piccaModel log meancont rfwave0 denom x (w / (1 + s.z)) * meanflux w))
      a.2 ((s.fflux.arr a.1).zip (s.fivarSm.arr a.1))).sum)).sum

/-- py/qsonic/continuum_models/picca_continuum_model.py:192-251 `fit_continuum`; `result` is what the minimizer
returns for this spectrum: success and the coefficients. `x` and `xcov` of `cont_params` are left out. -/
def piccaFit (log meancont meanflux varlss eta : K → K) (rfwave0 denom : K) (result : Bool × List K)
    (s : Spectrum K) : Spectrum K :=
  endFit varlss eta (if result.1 then
    s.setCont (contLoop piccaRejects
      (fun w => w.map (fun x => piccaModel log meancont rfwave0 denom result.2 (x / (1 + s.z))))
      (mulFlux meanflux) s.fwave [])
    else s.setCont (false, s.cont))

/-- py/qsonic/continuum_models/input_continuum_model.py:172-205 `fit_continuum`; `interp` is the cubic spline
through the continuum that was read. -/
def inputFit (interp meanflux varlss eta : K → K) (s : Spectrum K) : Spectrum K :=
  if s.valid then
    endFit varlss eta (s.setCont (contLoop inputRejects (fun w => w.map (fun x => interp (x / (1 + s.z))))
      (mulFlux meanflux) s.fwave s.cont))
  else s.clearCont

/-- `FastCubic1DInterp(input_w1, input_dwave, input_data)` as a function. Simplification: 0 where the compiled
code reads out of bounds (fewer than two points). py/qsonic/continuum_models/input_continuum_model.py:186-188. -/
def dataInterp [FloorRing K] (junk : Nat → K) (d : K × K × List K) (x : K) : K :=
  ((CubicInterp.notaknot junk d.1 d.2.1 d.2.2).eval x).getD 0

/-- `fit_continuum` of the input model after `init_spectra` has set the state `c`.
py/qsonic/continuum_models/input_continuum_model.py:172-227. -/
def inputFitState [FloorRing K] (junk : Nat → K) (meanflux varlss eta : K → K) (c : ContState K) (s : Spectrum K) :
    Spectrum K :=
  match c.data with
  | none => inputFit (fun _ => 0) meanflux varlss eta (s.setCont (c.valid, []))
  | some d => inputFit (dataInterp junk d) meanflux varlss eta (s.setCont (c.valid, []))

/-- py/qsonic/continuum_models/true_continuum_model.py:25-46 `fit_continuum`; `init_spectra` has set `valid`. -/
def trueFit (interp meanflux varlss : K → K) (s : Spectrum K) : Spectrum K :=
  ((s.setCont (s.valid, (contLoop (fun _ => false) (fun w => w.map interp) (mulFlux meanflux) s.fwave s.cont).2)
    ).setForestWeight varlss (fun _ => 1)).calcContinuumChi2

end Spectrum
end Verif.Model
