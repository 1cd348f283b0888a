import Verif.Np.Unique
import Verif.Np.Dict
import Mathlib.Algebra.Order.Field.Basic
import Mathlib.Algebra.Order.Floor.Ring

/-!
# Model of `Spectrum` (`py/qsonic/spectrum.py`)

Numbers are the elements of an ordered field `K`: no rounding, no overflow. The values are those
after the constructor has removed the bad pixels (see `Model/SpectrumInit.lean` for NaN and
infinities). `sqrt` is a parameter.

`_forestivar_sm` and `_forestweight` may be the same dictionary object as `_forestivar` (lines
338-339, 457, 465, 489): a change of one is then a change of the others. The fields `ivarSm` and
`weight` are `none` if they are the object before them (`ivarSm` the object `fivar`, `weight` the
object of the smoothed ivar). No array is shared between two different dictionary objects, since
each is filled with new arrays.
-/

namespace Verif.Model
open Verif.Np

/-- A spectrum. Forest attributes have the prefix `f`; `z` is `catrow['Z']`, `dwave` the class
attribute `_dwave`; `cont`, `valid`, `chi2` and `x0` are entries of `cont_params`. py/qsonic/spectrum.py:200-245. -/
structure Spectrum (K : Type) where
  z : K
  dwave : K
  wave : Dict (List K)
  flux : Dict (List K)
  ivar : Dict (List K)
  reso : Dict (List (List K))
  fwave : Dict (List K)
  fflux : Dict (List K)
  fivar : Dict (List K)
  freso : Dict (List (List K))
  ivarSm : Option (Dict (List K))
  weight : Option (Dict (List K))
  smoothing : K
  meanSnr : Dict K
  cont : Dict (List K)
  valid : Bool
  chi2 : K
  x0 : K

/-- `int(x)`: towards zero. py/qsonic/spectrum.py:364, 611. -/
def truncInt {K : Type} [Field K] [LinearOrder K] [FloorRing K] (x : K) : Int :=
  if 0 ≤ x then ⌊x⌋ else ⌈x⌉

/-- `np.sum(ivar > 0)`. py/qsonic/spectrum.py:279, 391. -/
def numGood {K : Type} [Zero K] [LT K] [DecidableLT K] (ivar : List K) : Nat :=
  ivar.countP (fun x => decide (0 < x))

/-- `np.dot(a, b)`. py/qsonic/spectrum.py:275, 283. -/
def dot {K : Type} [Mul K] [Add K] [Zero K] (a b : List K) : K := (List.zipWith (· * ·) a b).sum

namespace Spectrum

variable {K : Type} [Field K] [LinearOrder K] [FloorRing K]

/-- The dictionary `_forestivar_sm`. py/qsonic/spectrum.py:828-835. -/
def fivarSm (s : Spectrum K) : Dict (List K) := s.ivarSm.getD s.fivar

/-- The dictionary `_forestweight`. py/qsonic/spectrum.py:837-841. -/
def fweight (s : Spectrum K) : Dict (List K) := s.weight.getD s.fivarSm

/-- Change of `_forestivar[arm]` in place, or its replacement: an aliased dictionary shows the same.
py/qsonic/spectrum.py:454-465. -/
def setIvar (s : Spectrum K) (arm : String) (v : List K) : Spectrum K :=
  { s with fivar := s.fivar.set arm v }

/-- The entries which the constructor sets for the forest (py/qsonic/spectrum.py:206-218,
238-245). -/
def blank (z dwave : K) (wave flux ivar : Dict (List K)) (reso : Dict (List (List K))) :
    Spectrum K :=
  { z := z, dwave := dwave, wave := wave, flux := flux, ivar := ivar, reso := reso, fwave := [],
    fflux := [], fivar := [], freso := [], ivarSm := some [], weight := some [], smoothing := 0,
    meanSnr := [], cont := [], valid := false, chi2 := -1, x0 := 1 }

/-- py/qsonic/spectrum.py:270-283: the terms of one arm: `x0` and its weight, and `mean_snr[arm]`. -/
def relatedArm (sqrt : K → K) (s : Spectrum K) (acc : K × K × Dict K) (arm : String)
    (ivar : List K) : K × K × Dict K :=
  let flux := s.fflux.arr arm
  let pos := (flux.zip ivar).filter (fun p => decide (0 < p.1))
  let armpix := numGood ivar
  let snr := if armpix = 0 then 0 else dot (ivar.map sqrt) flux / (armpix : K)
  (acc.1 + (pos.map (fun p => p.1 * p.2)).sum, acc.2.1 + (pos.map Prod.snd).sum,
    acc.2.2.set arm snr)

/-- py/qsonic/spectrum.py:263-285 `_set_forest_related_parameters`; `eps` is `1e-6`. -/
def setForestRelatedParameters (sqrt : K → K) (eps : K) (s : Spectrum K) : Spectrum K :=
  let acc := s.fivar.foldl (fun acc x => relatedArm sqrt s acc x.1 x.2) (0, eps, [])
  { s with x0 := acc.1 / acc.2.1, meanSnr := acc.2.2 }

/-- py/qsonic/spectrum.py:320-336: one arm of the loop in `set_forest_region`. Not modelled: `_f1`,
`_f2`. -/
def regionArm (l1 l2 : K) (s : Spectrum K) (arm : String) (waveArm : List K) : Spectrum K :=
  let ii1 := searchsorted waveArm l1
  let ii2 := searchsorted waveArm l2
  if numGood (slice (s.ivar.arr arm) ii1 ii2) = 0 then s
  else
    { s with
      fwave := s.fwave.set arm (slice waveArm ii1 ii2)
      fflux := s.fflux.set arm (slice (s.flux.arr arm) ii1 ii2)
      fivar := s.fivar.set arm (slice (s.ivar.arr arm) ii1 ii2)
      freso := if s.reso = [] then s.freso
        else s.freso.set arm ((s.reso.arr arm).map (fun r => slice r ii1 ii2)) }

/-- py/qsonic/spectrum.py:304-341 `set_forest_region`. -/
def setForestRegion (sqrt : K → K) (eps : K) (s : Spectrum K) (w1 w2 lya1 lya2 : K) : Spectrum K :=
  let l1 := max w1 ((1 + s.z) * lya1)
  let l2 := min w2 ((1 + s.z) * lya2)
  let s := s.wave.foldl (fun s x => regionArm l1 l2 s x.1 x.2) s
  setForestRelatedParameters sqrt eps { s with ivarSm := none, weight := none }

/-- py/qsonic/spectrum.py:343-350 `drop_arm`. -/
def dropArm (s : Spectrum K) (arm : String) : Spectrum K :=
  { s with
    fwave := s.fwave.pop arm
    fflux := s.fflux.pop arm
    fivar := s.fivar.pop arm
    freso := s.freso.pop arm
    ivarSm := s.ivarSm.map (fun d => d.pop arm)
    weight := s.weight.map (fun d => d.pop arm)
    cont := s.cont.pop arm }

/-- The number of pixels below which an arm is short (py/qsonic/spectrum.py:363-364). -/
def minPixels (s : Spectrum K) (lya1 lya2 skip : K) : Int :=
  truncInt (skip * ((1 + s.z) * (lya2 - lya1) / s.dwave)) + 1

/-- py/qsonic/spectrum.py:352-368 `drop_short_arms`. -/
def dropShortArms (s : Spectrum K) (lya1 lya2 skip : K) : Spectrum K :=
  let short := (s.fivar.filter
    (fun x => decide ((numGood x.2 : Int) < s.minPixels lya1 lya2 skip))).map Prod.fst
  short.foldl dropArm s

/-- py/qsonic/spectrum.py:370-381 `remove_nonforest_pixels`. -/
def removeNonforestPixels (s : Spectrum K) : Spectrum K :=
  { s with wave := [], flux := [], ivar := [], reso := [] }

/-- py/qsonic/spectrum.py:383-393 `get_real_size`. -/
def realSize (s : Spectrum K) : Nat := (s.fivar.map (fun x => numGood x.2)).sum

/-- py/qsonic/spectrum.py:395-414 `get_effective_meansnr`; `eps` is `1e-8`. -/
def effectiveMeansnr (eps : K) (s : Spectrum K) : K :=
  (s.meanSnr.map (fun x => x.2 ^ 3)).sum / (eps + (s.meanSnr.map (fun x => x.2 ^ 2)).sum)

/-- py/qsonic/spectrum.py:416-438 `is_long`. -/
def isLong (s : Spectrum K) (dforest skip : K) : Bool :=
  decide ((s.realSize : K) > skip * ((1 + s.z) * dforest / s.dwave))

/-- py/qsonic/spectrum.py:440-465 `set_smooth_forestivar`; `smooth` is `get_smooth_ivar`. -/
def setSmoothForestivar (smooth : List K → K → List K) (s : Spectrum K) (size : K) : Spectrum K :=
  if size ≤ 0 then { s with smoothing := 0, ivarSm := none, weight := none }
  else { s with
    smoothing := size
    ivarSm := some (s.fivar.mapVals (fun _ v => smooth v (size / s.dwave)))
    weight := none }

/-- The weight of one pixel (py/qsonic/spectrum.py:494-497). -/
def pixelWeight (varlss eta cont ivar : K) : K := ivar / (eta + ivar * (varlss * cont ^ 2))

/-- The weights of one arm, pixel by pixel. Simplification: arrays of different length are cut to
the shorter (numpy raises). py/qsonic/spectrum.py:493-497. -/
def armWeight (varlss eta : K → K) (wave cont ivar : List K) : List K :=
  List.zipWith (fun w p => pixelWeight (varlss w) (eta w) p.1 p.2) wave (cont.zip ivar)

/-- py/qsonic/spectrum.py:467-497 `set_forest_weight`; the interpolators act pixel by pixel. -/
def setForestWeight (s : Spectrum K) (varlss eta : K → K) : Spectrum K :=
  if s.valid = false ∨ s.cont = [] then { s with weight := none }
  else { s with weight := some (s.fwave.mapVals (fun arm wave =>
    armWeight varlss eta wave (s.cont.arr arm) (s.fivarSm.arr arm))) }

/-- The term of one arm in `calc_continuum_chi2`. py/qsonic/spectrum.py:512-516. -/
def armChi2 (weight flux cont : List K) : K :=
  dot weight (List.zipWith (fun f c => (f - c) ^ 2) flux cont)

/-- py/qsonic/spectrum.py:499-520 `calc_continuum_chi2`. -/
def calcContinuumChi2 (s : Spectrum K) : Spectrum K :=
  if s.valid = false ∨ s.cont = [] then { s with chi2 := -1 }
  else { s with chi2 := (s.fwave.map (fun x =>
    armChi2 (s.fweight.arr x.1) (s.fflux.arr x.1) (s.cont.arr x.1))).sum }

/-- `d[arm] = d[arm][i1:i2]`. py/qsonic/spectrum.py:291-295. -/
def sliceDict (d : Dict (List K)) (arm : String) (i1 i2 : Nat) : Dict (List K) :=
  d.set arm (slice (d.arr arm) i1 i2)

/-- Line 291. py/qsonic/spectrum.py:291. -/
def sliceWave (s : Spectrum K) (arm : String) (i1 i2 : Nat) : Spectrum K :=
  { s with fwave := sliceDict s.fwave arm i1 i2 }

/-- Line 292. py/qsonic/spectrum.py:292. -/
def sliceFlux (s : Spectrum K) (arm : String) (i1 i2 : Nat) : Spectrum K :=
  { s with fflux := sliceDict s.fflux arm i1 i2 }

/-- Line 293. py/qsonic/spectrum.py:293. -/
def sliceIvar (s : Spectrum K) (arm : String) (i1 i2 : Nat) : Spectrum K :=
  { s with fivar := sliceDict s.fivar arm i1 i2 }

/-- Lines 294: `_forestivar_sm[arm]` is replaced by its slice. py/qsonic/spectrum.py:294. -/
def sliceSm (s : Spectrum K) (arm : String) (i1 i2 : Nat) : Spectrum K :=
  match s.ivarSm with
  | none => { s with fivar := sliceDict s.fivar arm i1 i2 }
  | some d => { s with ivarSm := some (sliceDict d arm i1 i2) }

/-- Line 295: `_forestweight[arm]` is replaced by its slice. py/qsonic/spectrum.py:295. -/
def sliceWeight (s : Spectrum K) (arm : String) (i1 i2 : Nat) : Spectrum K :=
  match s.weight with
  | none => sliceSm s arm i1 i2
  | some d => { s with weight := some (sliceDict d arm i1 i2) }

/-- Lines 297-298. py/qsonic/spectrum.py:297-298. -/
def sliceReso (s : Spectrum K) (arm : String) (i1 i2 : Nat) : Spectrum K :=
  { s with freso := if arm ∈ s.freso.keys then
      s.freso.set arm ((s.freso.arr arm).map (fun r => slice r i1 i2)) else s.freso }

/-- Lines 300-302. py/qsonic/spectrum.py:300-302. -/
def sliceCont (s : Spectrum K) (arm : String) (i1 i2 : Nat) : Spectrum K :=
  { s with cont := if arm ∈ s.cont.keys then sliceDict s.cont arm i1 i2 else s.cont }

/-- py/qsonic/spectrum.py:287-302 `slice`, for indices that are not negative. -/
def slice' (s : Spectrum K) (arm : String) (i1 i2 : Nat) : Spectrum K :=
  if i1 = 0 ∧ i2 = (s.fwave.arr arm).length then s
  else (((((((s.sliceWave arm i1 i2).sliceFlux arm i1 i2).sliceIvar arm i1 i2).sliceSm arm i1
    i2).sliceWeight arm i1 i2).sliceReso arm i1 i2).sliceCont arm i1 i2)

end Spectrum
end Verif.Model
