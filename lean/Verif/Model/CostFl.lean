import Verif.Model.ContFitFl

/-!
# The cost of a continuum with NaN and infinities
-/

namespace Verif.Model
open Verif Verif.Np

variable {K : Type} [Field K] [LinearOrder K]

/-- `np.log` of a positive value; `log` is the logarithm of numbers.
py/qsonic/continuum_models/picca_continuum_model.py:99. -/
def logFl (log : K → K) : Fl K → Fl K
  | .fin x => .fin (log x)
  | .pinf => .pinf
  | _ => .nan

/-- py/qsonic/continuum_models/picca_continuum_model.py:92-99: the cost of an arm, with its continuum. -/
def armCost (log varlss eta : K → K) (a : List (FlPix K)) : Fl K :=
  let w := (a.map (FlPix.wt varlss eta)).filter (fun w => Fl.lt (.fin 0) w)
  Fl.add (Fl.sum (a.map (FlPix.chi2 varlss eta))) (Fl.mul (.fin (-1)) (Fl.sum (w.map (logFl log))))

/-- py/qsonic/continuum_models/picca_continuum_model.py:59-101 `_continuum_costfn` of a spectrum; `model` is the continuum
at an observed wavelength for the coefficients at hand, `meanflux` the mean flux. -/
def costFl (log varlss eta : K → K) (model meanflux : K → Fl K) (arms : List (List (FlRaw K))) : Fl K :=
  Fl.sum (arms.map (fun a => armCost log varlss eta
    (a.map (fun p => FlPix.mk p.wave p.flux p.ivar (Fl.mul (model p.wave) (meanflux p.wave))))))

end Verif.Model
