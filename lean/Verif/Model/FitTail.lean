import Verif.Model.Fitter
import Verif.Model.Calibration
import Verif.Model.Coadd

/-!
# Model of `mpi_continuum_fitting` (`py/qsonic/scripts/qsonic_fit.py:315-356`)
-/

namespace Verif.Model
open Prog Verif.Np

variable {K : Type} [Field K] [LinearOrder K] [FloorRing K]

/-- The numerical functions used after the iterations. py/qsonic/scripts/qsonic_fit.py:315-356. -/
structure TailFns (K : Type) where
  sqrt : K → K
  smooth : List K → K → List K
  junk : Nat → K
  nan : K
  eps : K

/-- py/qsonic/picca_continuum.py:503-520 `_eta_calibate_ivar`, with `--eta-calib-ivar`: the ivar of one spectrum is
divided in place, which changes the smoothed ivar only if there is no smoothing, and not the weights. -/
def etaCalibIvar (eta : K → K) (s : Spectrum K) : Spectrum K := s.fwave.foldl (etaArm eta) s

/-- py/qsonic/scripts/qsonic_fit.py:337-339: smoothing and weights of a spectrum after the noise calibration. -/
def reweigh (T : TailFns K) (varlss eta : K → K) (s : Spectrum K) : Spectrum K :=
  (s.setSmoothForestivar T.smooth s.smoothing).setForestWeight varlss eta

/-- py/qsonic/scripts/qsonic_fit.py:330-339; the calibrator is given with `--noise-calibration` and
`--varlss-as-additive-noise`. -/
def tailNoise (T : TailFns K) (varlss eta : K → K) (l : List (Spectrum K)) :
    Option (NoiseCal K) → Except Err (List (Spectrum K))
  | none => .ok l
  | some c => (c.apply l).map (fun l' => l'.map (reweigh T varlss eta))

/-- py/qsonic/scripts/qsonic_fit.py:343-345. -/
def tailCoaddOne (T : TailFns K) (varlss eta : K → K) (s : Spectrum K) : Except Err (Spectrum K) :=
  (s.coaddArmsForest T.sqrt T.smooth T.junk T.nan T.eps varlss eta).map Spectrum.calcContinuumChi2

/-- py/qsonic/scripts/qsonic_fit.py:341-345. -/
def tailCoadd (T : TailFns K) (varlss eta : K → K) (l : List (Spectrum K)) (after : Bool) :
    Except Err (List (Spectrum K)) :=
  if after then l.mapM (tailCoaddOne T varlss eta) else .ok l

/-- py/qsonic/scripts/qsonic_fit.py:327-350: what is done with the valid spectra after the iterations. -/
def fitTail (T : TailFns K) (ncal : Option (NoiseCal K)) (after : Bool) (varlss eta : K → K)
    (l : List (Spectrum K)) : Except Err (List (Spectrum K)) := do
  let l1 ← tailNoise T varlss eta l ncal
  tailCoadd T varlss eta l1 after

/-- py/qsonic/scripts/qsonic_fit.py:315-356 `mpi_continuum_fitting`. `interps` gives `qcfit.varlss_interp` and
`qcfit.eta_interp`. Simplification: reading the noise calibration and the chi square catalog (`saveContchi2`) are
left out. -/
def continuumFitting {G R Q D V : Type} (F : FitterFns G (Spectrum K) R Q D) (c : FitterCodecs R Q V)
    (interps : G → (K → K) × (K → K)) (T : TailFns K) (ncal : Option (NoiseCal K)) (after : Bool)
    (fname : String) (niter : Nat) (hasFitter : Bool) (rank : Nat) (g : G) (specs : List (Spectrum K)) :
    Prog V (SaverEv (String × D)) (List (Spectrum K)) :=
  (F.iterate c fname niter hasFitter rank g specs).bind fun r =>
  ofExcept (fitTail T ncal after (interps r.1).1 (interps r.1).2 (r.2.1.filter (fun s => F.valid s)))

end Verif.Model
