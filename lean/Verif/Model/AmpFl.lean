import Verif.Model.CoaddFl

/-!
# The initial amplitude of the continuum with NaN and infinities
-/

namespace Verif.Model
open Verif.Np

variable {K : Type} [Field K] [LinearOrder K]

/-- py/qsonic/spectrum.py:271-272: the pixels of an arm with `flux_arm > 0`. -/
def positivePix (arm : List (FilePix K)) : List (FilePix K) :=
  arm.filter (fun p => Fl.lt (.fin 0) p.rFlux)

/-- `cont_params['x'][0]` before the fit, from the pixels of the forest of each arm; `eps` is
`1e-6`. py/qsonic/spectrum.py:263-275, 285. -/
def initialAmp (eps : K) (arms : List (List (FilePix K))) : Fl K :=
  Fl.div
    (Fl.sum (arms.map (fun a => Fl.sum ((positivePix a).map (fun p => Fl.mul p.rFlux p.rIvar)))))
    (Fl.add (.fin eps) (Fl.sum (arms.map (fun a => Fl.sum ((positivePix a).map (fun p => p.rIvar))))))

/-- `get_a0`, the amplitude with which the fit of the continuum begins: a pixel is its flux and its smoothed inverse
variance; `eps` is `1e-6`. py/qsonic/continuum_models/picca_continuum_model.py:216-225. -/
def startAmpFl (eps : K) (arms : List (List (Fl K × Fl K))) : Fl K :=
  Fl.div (Fl.sum (arms.map (fun a => Fl.sum (a.map (fun p => Fl.mul p.1 p.2)))))
    (Fl.add (.fin eps) (Fl.sum (arms.map (fun a => Fl.sum (a.map Prod.snd)))))

end Verif.Model
