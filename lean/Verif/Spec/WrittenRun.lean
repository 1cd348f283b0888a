import Verif.Model.WrittenRun
import Verif.Spec.WholeRun

/-!
# Specification vocabulary for what a run writes
-/

namespace Verif.Spec
open Verif.Np Verif.Model

variable {Val K : Type}

/-- A spectrum as it is read: not fitted, and with the resolution of all arms, or of none with
`--skip-resomat`. -/
structure NewSpec (skip : Bool) (s : Spectrum K) : Prop where
  valid : s.valid = false
  noReso : skip = true → s.reso = []
  reso : skip = false → ∀ a ∈ s.wave.keys, a ∈ s.reso.keys

/-- The file for a delta of rank `r`: that of the pixel of its target, or that of the rank. -/
def deltaFile (C : WholeCfg Val K) (r : Nat) (x : ReadSpec K) : DeltaName Val :=
  if C.byHpx then .pix (C.pix x.row.targetid) else .rank r

/-- All arms of some spectra that have signal. -/
def signalArms [Zero K] [DecidableEq K] (l : List (ReadSpec K)) : List (ReadSpec K × String × List K) :=
  l.flatMap (fun x => (x.spec.fwave.filter (fun a => decide (x.spec.meanSnr.lookup a.1 ≠ some 0))).map (fun a => (x, a)))

/-- What is written must be blinded: an analysis of data whose forest is not above Lya, with any row of the catalog
observed after May 13, 2021. -/
def RunBlinded [LE K] (C : WrittenCfg Val K) (c : Catalog Val) : Prop :=
  C.run.mock = false ∧ C.run.sel.forestW1 ≤ C.lya ∧ ∃ r ∈ c.rows, 20210514 ≤ C.night (r "LASTNIGHT")

/-- `y` is what a run makes of the spectrum `x` that was read: the same quasar, with all wavelengths of its arms in the
forest, and unless ivar is calibrated with the fitted eta at the end, good pixels that are the good pixels of `x` that are not masked, with
the calibrations and the DLA correction. Only `--skip` removes more, the pixels of short arms. -/
structure FromRead [Field K] [LinearOrder K] [FloorRing K] (C : WholeCfg Val K) (x y : ReadSpec K) : Prop where
  row : y.row = x.row
  rsnr : y.rsnr = x.rsnr
  z : y.spec.z = x.spec.z
  dwave : y.spec.dwave = x.spec.dwave
  arms : ∀ a ∈ y.spec.fwave, ForestArm C.sel x.spec a
  pixels : C.fit.etaCalib = false → (forestGood y.spec).Sublist
    (((inputGood C.sel x.spec).filter (fun p => decide (¬ IsMasked C.sel x p.1))).map (treated C.sel x))
  all : C.fit.etaCalib = false → C.sel.skip = 0 → forestGood y.spec =
    ((inputGood C.sel x.spec).filter (fun p => decide (¬ IsMasked C.sel x p.1))).map (treated C.sel x)

/-- What is read for an arm of a spectrum `x`: its identity and, pixel by pixel on its wavelengths, the continuum, delta,
ivar and weight; nothing is missing. -/
structure Recovered [Field K] [LinearOrder K] (blind : Bool) (ra dec : Int → K) (x : ReadSpec K)
    (a : String × List K) (d : Delta K) : Prop where
  targetid : d.targetid = .int x.row.targetid
  ra : d.header.lookup "RA" = some (.num (ra x.row.targetid))
  dec : d.header.lookup "DEC" = some (.num (dec x.row.targetid))
  z : d.header.lookup "Z" = some (.num x.spec.z)
  dwave : d.header.lookup "DELTA_LAMBDA" = some (.num x.spec.dwave)
  snr : ∃ r, x.spec.meanSnr.lookup a.1 = some r ∧ d.meanSnr = .num r
  blinded : d.blinded = blind
  wave : d.wave = a.2
  cont : x.spec.cont.lookup a.1 = some d.cont
  reso : d.reso = x.spec.freso.lookup a.1
  lengths : d.cont.length = a.2.length ∧ d.delta.length = a.2.length ∧ d.ivar.length = a.2.length ∧
    d.weight.length = a.2.length
  pixel : ∀ i < a.2.length, ∃ f v w c, (x.spec.fflux.arr a.1)[i]? = some f ∧ (x.spec.fivar.arr a.1)[i]? = some v ∧
    (x.spec.fweight.arr a.1)[i]? = some w ∧ d.cont[i]? = some c ∧ d.ivar[i]? = some (v * c ^ 2) ∧
    d.weight[i]? = some (w * c ^ 2) ∧ d.delta[i]? = some (if v * c ^ 2 = 0 then 0 else f / c - 1)

end Verif.Spec
