import Verif.Model.Select
import Verif.Spec.Masks
import Verif.Spec.Coadd

/-!
# Specification vocabulary for the selection of spectra
-/

namespace Verif.Spec
open Verif.Np Verif.Model

variable {K : Type} [Field K] [LinearOrder K]

/-- Wavelength, flux and ivar of all pixels of some arms, arm after arm. -/
def allPixels (wave flux ivar : Dict (List K)) : List (K × K × K) :=
  wave.flatMap (fun a => a.2.zip ((flux.arr a.1).zip (ivar.arr a.1)))

/-- The good pixels of the forest. -/
def forestGood (s : Spectrum K) : List (K × K × K) :=
  (allPixels s.fwave s.fflux s.fivar).filter (fun p => decide (0 < p.2.2))

/-- The good pixels of a spectrum as it was read that are in the forest. -/
def readGood (C : SelectCfg K) (s : Spectrum K) : List (K × K × K) :=
  (allPixels s.wave s.flux s.ivar).filter (fun p => decide (0 < p.2.2 ∧
    InForest s.z C.wave1 C.wave2 C.forestW1 C.forestW2 p.1))

/-- The DLA transmission at a wavelength (one without DLA mask). -/
def dlaAt (C : SelectCfg K) (x : ReadSpec K) (w : K) : K :=
  match C.dla with
  | some cat => transmission C.dlaFlux cat x.row.targetid x.spec.z w
  | none => 1

/-- A wavelength is in the sky mask, if there is one. -/
def inSky (C : SelectCfg K) (z w : K) : Prop := SkyMasked (C.sky.getD []) z w

instance (C : SelectCfg K) (z w : K) : Decidable (inSky C z w) := by unfold inSky; infer_instance

/-- A wavelength is masked by one of the masks: sky, BAL, or a DLA transmission below 0.8. -/
def IsMasked (C : SelectCfg K) (x : ReadSpec K) (w : K) : Prop :=
  inSky C x.spec.z w ∨ (C.bal = true ∧ BalMasked x.row x.spec.z w) ∨ dlaAt C x w < 8 / 10

instance (C : SelectCfg K) (x : ReadSpec K) (w : K) : Decidable (IsMasked C x w) := by
  unfold IsMasked; infer_instance

/-- Flux and ivar of a pixel after calibrations and DLA correction. -/
def treated (C : SelectCfg K) (x : ReadSpec K) (p : K × K × K) : K × K × K :=
  let eta := (C.eta.getD (fun _ => 1)) p.1
  let st := (C.stack.getD (fun _ => 1)) p.1
  let t := dlaAt C x p.1
  (p.1, p.2.1 / st / t, p.2.2 / eta * st ^ 2 * t ^ 2)

/-- The mean signal-to-noise over the good forest pixels of each arm that has one, as it was read. -/
def armSnrs (C : SelectCfg K) (s : Spectrum K) : List K :=
  let F := InForest s.z C.wave1 C.wave2 C.forestW1 C.forestW2
  (s.wave.filter (fun a => decide (HasGood (pixelsWhere F a.2 (s.ivar.arr a.1))))).map (fun a =>
    meanSnrOf C.sqrt (pixelsWhere F a.2 (s.flux.arr a.1)) (pixelsWhere F a.2 (s.ivar.arr a.1)))

section Coadd
variable [FloorRing K]

/-- The wavelengths of the forest pixels, good or not, of the arms that have a good one. -/
def forestWaves (C : SelectCfg K) (s : Spectrum K) : List K :=
  let F := InForest s.z C.wave1 C.wave2 C.forestW1 C.forestW2
  (s.wave.filter (fun a => decide (HasGood (pixelsWhere F a.2 (s.ivar.arr a.1))))).flatMap (fun a =>
    a.2.filter (fun w => decide (F w)))

/-- The smallest of these wavelengths. -/
def gridLo (C : SelectCfg K) (s : Spectrum K) : K := (forestWaves C s).min?.getD 0

/-- The largest of these wavelengths. -/
def gridHi (C : SelectCfg K) (s : Spectrum K) : K := (forestWaves C s).max?.getD 0

/-- The number of the last cell of the grid. -/
def gridLast (C : SelectCfg K) (s : Spectrum K) : Nat := ⌊(gridHi C s - gridLo C s) / s.dwave + 1 / 10⌋₊

/-- The arms coadded: one pixel for each cell of the grid that has a good pixel. The wavelengths divide the range into
equal steps, the flux is the mean with ivar as weights, the ivar is the sum. -/
def coaddedGood (C : SelectCfg K) (s : Spectrum K) : List (K × K × K) :=
  (List.range (gridLast C s + 1)).filterMap (fun k : Nat =>
    let l := (readGood C s).filter (fun p => decide (InCell (gridLo C s) s.dwave k p.1))
    if l.isEmpty then none
    else some (gridLo C s + (k : K) * ((gridHi C s - gridLo C s) / (gridLast C s : K)),
      (l.map (fun p => p.2.2 * p.2.1)).sum / (l.map (fun p => p.2.2)).sum, (l.map (fun p => p.2.2)).sum))

/-- An arm of the forest of a spectrum that was read: all wavelengths of an arm that are in the forest, good or not. With
`--coadd-arms before` there is one arm, with the wavelengths that divide the range into equal steps. -/
def ForestArm (C : SelectCfg K) (s : Spectrum K) (a : String × List K) : Prop :=
  if C.coaddBefore then a = ("brz", (List.range (gridLast C s + 1)).map (fun k : Nat =>
    gridLo C s + (k : K) * ((gridHi C s - gridLo C s) / (gridLast C s : K))))
  else ∃ w, s.wave.lookup a.1 = some w ∧
    a.2 = w.filter (fun w => decide (InForest s.z C.wave1 C.wave2 C.forestW1 C.forestW2 w))

/-- The good pixels before calibrations and masks: coadded with `--coadd-arms before`. -/
def inputGood (C : SelectCfg K) (s : Spectrum K) : List (K × K × K) :=
  if C.coaddBefore then coaddedGood C s else readGood C s

/-- The mean signal-to-noise of these pixels, arm by arm. -/
def inputSnrs (C : SelectCfg K) (s : Spectrum K) : List K :=
  if C.coaddBefore then
    [((coaddedGood C s).map (fun p => C.sqrt p.2.2 * p.2.1)).sum / ((coaddedGood C s).length : K)]
  else armSnrs C s

/-- The arms of a spectrum that was read can be coadded: ivar is not negative, no arm has two pixels in one cell of the
grid, the numbers of rows of the resolution matrices are all even or all odd, and there is no smoothing and no continuum
yet. -/
structure CoaddReady (C : SelectCfg K) (s : Spectrum K) : Prop where
  dwave : 0 < s.dwave
  ivar : ∀ a ∈ s.wave, ∀ v ∈ s.ivar.arr a.1, 0 ≤ v
  cells : ∀ a ∈ s.wave, (a.2.filter (fun w => decide (InForest s.z C.wave1 C.wave2 C.forestW1 C.forestW2 w))).Pairwise
    (fun v w => ∀ k, InCell (gridLo C s) s.dwave k v → ¬ InCell (gridLo C s) s.dwave k w)
  parity : ∀ a ∈ s.wave, ∀ b ∈ s.wave, (s.reso.arr a.1).length % 2 = (s.reso.arr b.1).length % 2
  smoothing : s.smoothing ≤ 0
  cont : s.cont = []

/-- The cuts: there is a good forest pixel; `rsnr`; more than the fraction `skip` of the expected number of pixels is
good and not masked (no such condition for `skip = 0`); effective signal-to-noise of the forest before calibrations and masks. -/
def PassesCuts (C : SelectCfg K) (x : ReadSpec K) : Prop :=
  readGood C x.spec ≠ [] ∧ C.minRsnr ≤ x.rsnr ∧
  (C.skip ≠ 0 → C.skip * ((1 + x.spec.z) * (C.forestW2 - C.forestW1) / x.spec.dwave) <
    (((inputGood C x.spec).filter (fun p => decide (¬ IsMasked C x p.1))).length : K)) ∧
  C.minSnr ≤ ((inputSnrs C x.spec).map (· ^ 3)).sum / (C.eps8 + ((inputSnrs C x.spec).map (· ^ 2)).sum)

instance (C : SelectCfg K) (x : ReadSpec K) : Decidable (PassesCuts C x) := by
  unfold PassesCuts; infer_instance

end Coadd

end Verif.Spec
