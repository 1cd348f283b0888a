import Verif.Model.SpectrumInit

/-!
# Specification vocabulary for spectra
-/

namespace Verif.Spec
open Verif.Np Verif.Model

variable {K : Type} [Field K] [LinearOrder K]

/-- A wavelength is in the forest: within the observed limits and between the rest-frame limits of a
quasar at redshift `z` (upper limits excluded). -/
def InForest (z w1 w2 lya1 lya2 w : K) : Prop :=
  w1 ≤ w ∧ (1 + z) * lya1 ≤ w ∧ w < w2 ∧ w < (1 + z) * lya2

instance (z w1 w2 lya1 lya2 w : K) : Decidable (InForest z w1 w2 lya1 lya2 w) := by
  unfold InForest; infer_instance

/-- The values `y` of the pixels whose wavelength satisfies `p`, in order. -/
def pixelsWhere {α : Type} (p : K → Prop) [DecidablePred p] (wave : List K) (y : List α) : List α :=
  ((wave.zip y).filter (fun x => decide (p x.1))).map Prod.snd

/-- The arrays of a full spectrum belong together: every arm of the grid has flux and ivar (and
resolution rows, if there is a resolution) of the length of its wavelength array, which increases. -/
structure DataOk (s : Spectrum K) : Prop where
  nodup : s.wave.keys.Nodup
  sorted : ∀ arm w, s.wave.lookup arm = some w → w.Pairwise (· < ·)
  flux : ∀ arm w, s.wave.lookup arm = some w → (s.flux.arr arm).length = w.length
  ivar : ∀ arm w, s.wave.lookup arm = some w → (s.ivar.arr arm).length = w.length
  reso : ∀ arm w, s.wave.lookup arm = some w → ∀ r ∈ s.reso.arr arm, r.length = w.length

/-- No forest has been set. -/
structure Fresh (s : Spectrum K) : Prop where
  fwave : s.fwave = []
  fflux : s.fflux = []
  fivar : s.fivar = []
  freso : s.freso = []

/-- The forest arrays belong together: every arm of the forest has its wavelengths, which increase, and
flux, ivar, smoothed ivar, weights and resolution rows of that length; no dictionary has other arms. -/
structure Aligned (s : Spectrum K) : Prop where
  nodup : s.fwave.keys.Nodup
  fluxKeys : s.fflux.keys = s.fwave.keys
  ivarKeys : s.fivar.keys = s.fwave.keys
  smKeys : s.fivarSm.keys = s.fwave.keys
  weightKeys : s.fweight.keys = s.fwave.keys
  resoKeys : ∀ arm ∈ s.freso.keys, arm ∈ s.fwave.keys
  sorted : ∀ arm w, s.fwave.lookup arm = some w → w.Pairwise (· < ·)
  flux : ∀ arm w, s.fwave.lookup arm = some w → (s.fflux.arr arm).length = w.length
  ivar : ∀ arm w, s.fwave.lookup arm = some w → (s.fivar.arr arm).length = w.length
  sm : ∀ arm w, s.fwave.lookup arm = some w → (s.fivarSm.arr arm).length = w.length
  weight : ∀ arm w, s.fwave.lookup arm = some w → (s.fweight.arr arm).length = w.length
  reso : ∀ arm w, s.fwave.lookup arm = some w → ∀ r ∈ s.freso.arr arm, r.length = w.length

/-- A pixel is good: its ivar is positive. -/
def HasGood (ivar : List K) : Prop := ∃ v ∈ ivar, 0 < v

instance (ivar : List K) : Decidable (HasGood ivar) := by unfold HasGood; infer_instance

/-- The mean signal-to-noise of the good pixels of an arm. -/
def meanSnrOf (sqrt : K → K) (flux ivar : List K) : K :=
  (((flux.zip ivar).filter (fun p => decide (0 < p.2))).map (fun p => sqrt p.2 * p.1)).sum /
    ((ivar.filter (fun v => decide (0 < v))).length : K)

/-- Two flux arrays agree in the good pixels. -/
def AgreeGood (ivar f g : List K) : Prop :=
  f.length = g.length ∧ ∀ (i : Nat) (v : K), ivar[i]? = some v → 0 < v → f[i]? = g[i]?

end Verif.Spec
