import Mathlib.Probability.Distributions.Gaussian.Real
import Verif.Model.Spectrum

/-! Specification of the fit of the continuum of a quasar. -/

namespace Verif.Spec
open Verif Verif.Np Verif.Model ProbabilityTheory

/-- Position of `v` in the logarithm between `first` (`-1`) and `last` (`1`). -/
noncomputable def logPos (first last v : ℝ) : ℝ := 2 * (Real.log (v / first) / Real.log (last / first)) - 1

/-- The continuum of a quasar at redshift `z`, at the observed wavelength `w`: the mean continuum in the rest frame times
a polynomial in `logPos` times the mean flux. -/
noncomputable def quasarCont (mean flux : ℝ → ℝ) (first last z : ℝ) (a : List ℝ) (w : ℝ) : ℝ :=
  mean (w / (1 + z)) * (∑ k ∈ Finset.range a.length, a.getD k 0 * logPos first last (w / (1 + z)) ^ k) * flux w

/-- Density of the flux of a pixel: Gaussian around the continuum, with the variance of the noise, corrected by `eta`,
and of the forest; a pixel without ivar does not count. -/
noncomputable def pixelLike (varlss eta flux ivar cont : ℝ) : ℝ :=
  if 0 < ivar then gaussianPDFReal cont (Real.toNNReal (eta / ivar + varlss * cont ^ 2)) flux else 1

/-- The forest pixels of an arm: wavelength, flux and smoothed ivar. -/
def armPixels (s : Spectrum ℝ) (a : String × List ℝ) : List (ℝ × ℝ × ℝ) :=
  a.2.zip ((s.fflux.arr a.1).zip (s.fivarSm.arr a.1))

/-- Likelihood of a continuum: pixels are independent. -/
noncomputable def likelihood (varlss eta : ℝ → ℝ) (s : Spectrum ℝ) (cont : ℝ → ℝ) : ℝ :=
  (s.fwave.map (fun a => ((armPixels s a).map (fun p =>
    pixelLike (varlss p.1) (eta p.1) p.2.1 p.2.2 (cont p.1))).prod)).prod

/-- Number of pixels that count. -/
noncomputable def goodPixels (s : Spectrum ℝ) : Nat :=
  (s.fwave.map (fun a => ((armPixels s a).filter (fun p => 0 < p.2.2)).length)).sum

end Verif.Spec
