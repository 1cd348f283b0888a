import Verif.Model.StackFl

/-!
# `fit_continuum` of the three models with NaN and infinities

The interpolators and the result of the minimizer are parameters.
-/

namespace Verif.Model
open Verif Verif.Np

variable {K : Type} [Field K] [LinearOrder K]

/-- The continuum models. py/qsonic/picca_continuum.py:215-243. -/
inductive ContKind
  | picca
  | input
  | true
  deriving DecidableEq

/-- The test on the continuum before it is multiplied with the mean flux: `any(cont_est < 0)`,
`any(cont_est <= 0) or any(np.isnan(cont_est))`, none. py/qsonic/continuum_models/picca_continuum_model.py:234-236,
py/qsonic/continuum_models/input_continuum_model.py:193-195, py/qsonic/continuum_models/true_continuum_model.py:40-43. -/
def ContKind.rejects : ContKind → Fl K → Bool
  | .picca, v => Fl.lt v (.fin 0)
  | .input, .nan => Bool.true
  | .input, v => !Fl.lt (.fin 0) v
  | .true, _ => false

/-- A forest pixel before the fit: wavelength, flux, `forestivar_sm`.
py/qsonic/continuum_models/picca_continuum_model.py:192-251. -/
structure FlRaw (K : Type) where
  wave : K
  flux : Fl K
  ivar : Fl K

/-- The loop over the arms, which ends at the first arm that is rejected; `model` is the continuum at an observed
wavelength. py/qsonic/continuum_models/picca_continuum_model.py:229-240,
py/qsonic/continuum_models/input_continuum_model.py:190-198. -/
def contLoopFl (kind : ContKind) (model meanflux : K → Fl K) : List (List (FlRaw K)) → Bool × List (List (FlPix K))
  | [] => (Bool.true, [])
  | a :: as =>
    if a.any (fun p => kind.rejects (model p.wave)) then (false, [])
    else
      let r := contLoopFl kind model meanflux as
      (r.1, a.map (fun p => FlPix.mk p.wave p.flux p.ivar (Fl.mul (model p.wave) (meanflux p.wave))) :: r.2)

/-- One term of the chi square: `weight * (flux - cont_est)**2`. py/qsonic/spectrum.py:511-516. -/
def FlPix.chi2 (varlss eta : K → K) (p : FlPix K) : Fl K :=
  let d := Fl.add p.flux (Fl.mul (.fin (-1)) p.cont)
  Fl.mul (p.wt varlss eta) (Fl.mul d d)

/-- `valid`, the pixels with `cont`, and `chi2` after a fit. py/qsonic/spectrum.py:499-520. -/
structure FlFit (K : Type) where
  valid : Bool
  pixels : Option (List (List (FlPix K)))
  chi2 : Fl K

/-- py/qsonic/continuum_models/picca_continuum_model.py:224-251, py/qsonic/continuum_models/input_continuum_model.py:172-205,
py/qsonic/continuum_models/true_continuum_model.py:25-46 `fit_continuum`; `success` is that of the minimizer, or `valid`
before the call. An empty dictionary of continua has chi square -1. -/
def fitFl (kind : ContKind) (model meanflux : K → Fl K) (varlss eta : K → K) (success : Bool)
    (arms : List (List (FlRaw K))) : FlFit K :=
  if success then
    let r := contLoopFl kind model meanflux arms
    if r.1 then
      { valid := true, pixels := some r.2
        chi2 := if r.2.isEmpty then .fin (-1)
          else Fl.sum (r.2.map (fun a => Fl.sum (a.map (FlPix.chi2 varlss eta)))) }
    else { valid := false, pixels := none, chi2 := .fin (-1) }
  else { valid := false, pixels := none, chi2 := .fin (-1) }

end Verif.Model
