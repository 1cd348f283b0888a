import Verif.Model.CoaddFl
import Verif.Np.Unique

/-!
# The signal-to-noise cuts with NaN and infinities

A pixel of an arm is its wavelength and its values in the file.
-/

namespace Verif.Model
open Verif.Np

variable {K : Type} [Field K] [LinearOrder K]

/-- `flux * sqrt(ivar)` of a pixel, one term of the dot products. py/qsonic/spectrum.py:223-228, 257-258, 283. -/
def FilePix.snr (sqrt : K → K) (p : FilePix K) : Fl K := Fl.mul p.rFlux (Fl.sqrtOf sqrt p.rIvar)

/-- py/qsonic/spectrum.py:255-258: the pixels of an arm from the Lyman alpha line of the quasar, here `l`. -/
def redSide (l : K) (arm : List (K × FilePix K)) : List (FilePix K) :=
  (arm.drop (searchsorted (arm.map Prod.fst) l)).map Prod.snd

/-- py/qsonic/spectrum.py:248-261 `_set_rsnr` on special values; `eps` is `1e-6`, `lya` is `WAVE_LYA_A`. -/
def rsnrFl (sqrt : K → K) (eps lya z : K) (arms : List (List (K × FilePix K))) : Fl K :=
  let red := arms.map (redSide ((1 + z) * lya))
  let num := Fl.sum (red.map (fun a => Fl.sum (a.map (FilePix.snr sqrt))))
  let cnt : Nat := (red.map (fun a => a.countP (fun p => Fl.lt (.fin 0) (Fl.sqrtOf sqrt p.rIvar)))).sum
  Fl.div num (.fin (eps + (cnt : K)))

/-- py/qsonic/spectrum.py:278-283: `mean_snr` of an arm, from the pixels of the forest. -/
def meanSnrFl (sqrt : K → K) (arm : List (FilePix K)) : Fl K :=
  let armpix := arm.countP (fun p => Fl.lt (.fin 0) p.rIvar)
  if armpix = 0 then .fin 0 else Fl.div (Fl.sum (arm.map (FilePix.snr sqrt))) (.fin (armpix : K))

/-- py/qsonic/spectrum.py:395-414 `get_effective_meansnr` on special values; `eps` is `1e-8`. -/
def effectiveSnrFl (eps : K) (snrs : List (Fl K)) : Fl K :=
  Fl.div (Fl.sum (snrs.map (fun v => Fl.mul (Fl.mul v v) v)))
    (Fl.add (.fin eps) (Fl.sum (snrs.map (fun v => Fl.mul v v))))

/-- py/qsonic/scripts/qsonic_fit.py:139, 310: `snr >= cut`, false for NaN. -/
def passes (snr : Fl K) (cut : K) : Bool :=
  match snr with
  | .fin x => decide (cut ≤ x)
  | .pinf => true
  | _ => false

end Verif.Model
