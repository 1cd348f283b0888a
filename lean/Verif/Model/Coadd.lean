import Verif.Np.Scatter
import Verif.Model.Spectrum

/-!
# Model of `simple_coadd` and `coadd_arms_forest` (`py/qsonic/spectrum.py`)

Uninitialised memory (`np.empty`) and the result of `0 / 0` are the parameters `junk` and `nan`:
arbitrary numbers.
-/

namespace Verif.Model
open Verif.Np

variable {K : Type} [Field K] [LinearOrder K] [FloorRing K]

/-- One pixel of an arm. py/qsonic/spectrum.py:620-635. -/
structure Pix (K : Type) where
  wave : K
  weight : K
  flux : K
  ivar : K

/-- The pixels of an arm from its arrays. Simplification: arrays of different length are cut to the
shortest (numpy raises). py/qsonic/spectrum.py:620-635. -/
def pixelsOf (wave weight flux ivar : List K) : List (Pix K) :=
  List.zipWith (fun a b => ⟨a.1, a.2, b.1, b.2⟩) (wave.zip weight) (flux.zip ivar)

/-- py/qsonic/spectrum.py:619 and 547: `((wave - min_wave) / dwave + 0.1).astype(int)`. -/
def coaddIdx (minWave dwave w : K) : Int := truncInt ((w - minWave) / dwave + 1 / 10)

/-- py/qsonic/spectrum.py:624-626: variance, 0 for masked pixels. -/
def varOf (ivar : K) : K := if 0 < ivar then 1 / ivar else 0

/-- The arrays `coadd_flux`, `coadd_ivar`, `coadd_norm`. py/qsonic/spectrum.py:613-615. -/
structure CoaddAcc (K : Type) where
  flux : List K
  ivar : List K
  norm : List K

/-- py/qsonic/spectrum.py:618-630 (546-558): one arm. -/
def coaddArm (minWave dwave : K) (acc : CoaddAcc K) (pix : List (Pix K)) :
    Except Err (CoaddAcc K) := do
  let idx := pix.map (fun p => coaddIdx minWave dwave p.wave)
  let flux ← scatterAdd acc.flux idx (pix.map (fun p => p.weight * p.flux))
  let ivar ← scatterAdd acc.ivar idx (pix.map (fun p => p.weight ^ 2 * varOf p.ivar))
  let norm ← scatterAdd acc.norm idx (pix.map (fun p => p.weight))
  pure ⟨flux, ivar, norm⟩

/-- py/qsonic/spectrum.py:632-634 (560-562): the flux where the norm is positive. -/
def normFlux (acc : CoaddAcc K) : List K :=
  List.zipWith (fun f n => if 0 < n then f / n else f) acc.flux acc.norm

/-- py/qsonic/spectrum.py:632-634 (560-562): the ivar where the norm is positive. -/
def normIvar (acc : CoaddAcc K) : List K :=
  List.zipWith (fun v n => if 0 < n then n ^ 2 / v else v) acc.ivar acc.norm

/-- py/qsonic/spectrum.py:613-634 (541-562): coadded flux and ivar of the arms. -/
def coaddArms (minWave dwave : K) (nwaves : Nat) (arms : List (List (Pix K))) :
    Except Err (List K × List K) := do
  let zeros := List.replicate nwaves 0
  let acc ← arms.foldlM (coaddArm minWave dwave) ⟨zeros, zeros, zeros⟩
  pure (normFlux acc, normIvar acc)

/-- `wave[0]`. py/qsonic/spectrum.py:605. -/
def firstElem (l : List K) : Except Err K :=
  match l.head? with
  | some x => .ok x
  | none => .error .indexError

/-- `wave[-1]`. py/qsonic/spectrum.py:606. -/
def lastElem (l : List K) : Except Err K :=
  match l.getLast? with
  | some x => .ok x
  | none => .error .indexError

/-- `np.min(l)`. py/qsonic/spectrum.py:605. -/
def listMin (l : List K) : Except Err K :=
  match l with
  | [] => .error .valueError
  | x :: xs => .ok (xs.foldl min x)

/-- `np.max(l)`. py/qsonic/spectrum.py:606. -/
def listMax (l : List K) : Except Err K :=
  match l with
  | [] => .error .valueError
  | x :: xs => .ok (xs.foldl max x)

/-- `np.linspace(a, b, n)`. py/qsonic/spectrum.py:612. -/
def linspace (a b : K) (n : Nat) : List K :=
  (List.range n).map (fun i : Nat => a + (i : K) * ((b - a) / ((n - 1 : Nat) : K)))

/-- Limits and number of pixels of the grid (py/qsonic/spectrum.py:605-606, 611). -/
def forestGrid (dwave : K) (waves : List (List K)) : Except Err (K × K × Nat) := do
  let firsts ← waves.mapM firstElem
  let minWave ← listMin firsts
  let lasts ← waves.mapM lastElem
  let maxWave ← listMax lasts
  pure (minWave, maxWave, (truncInt ((maxWave - minWave) / dwave + 1 / 10) + 1).toNat)

/-- py/qsonic/spectrum.py:640-647: the coadded continuum; `conts` are the arms in the order of the
loop, wavelengths and continuum. -/
def coaddCont (junk : Nat → K) (minWave dwave : K) (nwaves : Nat)
    (conts : List (List K × List K)) : Except Err (List K) :=
  conts.foldlM (fun a c => scatterSet a (c.1.map (coaddIdx minWave dwave)) c.2)
    ((List.range nwaves).map junk)

/-- `np.pad(reso, ((d, d), (0, 0)))`. py/qsonic/spectrum.py:577, 663. -/
def padRows (d : Nat) (npix : Nat) (rows : List (List K)) : List (List K) :=
  List.replicate d (List.replicate npix 0) ++ rows ++ List.replicate d (List.replicate npix 0)

/-- py/qsonic/spectrum.py:656-657 (570-571): weights of the resolution, `eps` is `1e-8`. -/
def resoWeight (eps : K) (w : K) : K := if w = 0 then eps else w

/-- One arm for the resolution: wavelengths, weights and matrix. py/qsonic/spectrum.py:563-580, 649-666. -/
structure ResoArm (K : Type) where
  wave : List K
  weight : List K
  rows : List (List K)

/-- The sum of two matrices needs the same number of rows (one row would be broadcast: not
modelled). py/qsonic/spectrum.py:579, 665. -/
def sameShape (a b : Nat) : Except Err Unit := if a = b then .ok () else .error .valueError

/-- py/qsonic/spectrum.py:655-666 (569-580): one arm; the accumulator is the matrix and the norm. -/
def coaddResoArm (eps minWave dwave : K) (maxNdia : Nat) (acc : List (List K) × List K)
    (a : ResoArm K) : Except Err (List (List K) × List K) := do
  let weight := a.weight.map (resoWeight eps)
  let rows := padRows ((maxNdia - a.rows.length) / 2) a.wave.length a.rows
  let idx := a.wave.map (coaddIdx minWave dwave)
  sameShape rows.length acc.1.length
  let mat ← (acc.1.zip rows).mapM
    (fun p => scatterAdd p.1 idx (List.zipWith (· * ·) weight p.2))
  let norm ← scatterAdd acc.2 idx weight
  pure (mat, norm)

/-- `coadd_reso /= coadd_norm` for one row. py/qsonic/spectrum.py:582, 668. -/
def divRow (nan : K) (row norm : List K) : List K :=
  List.zipWith (fun x n => if n = 0 then nan else x / n) row norm

/-- py/qsonic/spectrum.py:650-668 (565-582): the coadded resolution. -/
def coaddReso (nan eps minWave dwave : K) (nwaves : Nat) (arms : List (ResoArm K)) :
    Except Err (List (List K)) := do
  let maxNdia := (arms.map (fun a => a.rows.length)).foldl max 0
  let zeros := List.replicate nwaves 0
  let acc ← arms.foldlM (coaddResoArm eps minWave dwave maxNdia)
    (List.replicate maxNdia zeros, zeros)
  pure (acc.1.map (fun r => divRow nan r acc.2))

namespace Spectrum

/-- The forest pixels of an arm. py/qsonic/spectrum.py:618-631. -/
def forestPix (s : Spectrum K) (arm : String) : List (Pix K) :=
  pixelsOf (s.fwave.arr arm) (s.fweight.arr arm) (s.fflux.arr arm) (s.fivar.arr arm)

/-- py/qsonic/spectrum.py:640-647. -/
def newCont (junk : Nat → K) (minWave : K) (nwaves : Nat) (s : Spectrum K) :
    Except Err (Dict (List K)) :=
  if s.cont = [] then .ok [] else do
    let c ← coaddCont junk minWave s.dwave nwaves
      (s.fwave.map (fun x => (x.2, s.cont.arr x.1)))
    pure [("brz", c)]

/-- py/qsonic/spectrum.py:649-669. -/
def newReso (nan eps minWave : K) (nwaves : Nat) (s : Spectrum K) :
    Except Err (Dict (List (List K))) :=
  if s.freso = [] then .ok [] else do
    let r ← coaddReso nan eps minWave s.dwave nwaves
      (s.freso.map (fun x => ⟨s.fwave.arr x.1, s.fweight.arr x.1, x.2⟩))
    pure [("brz", r)]

/-- The forest replaced by the coadded one (py/qsonic/spectrum.py:636-638, 647, 669). -/
def replaceForest (s : Spectrum K) (wave flux ivar : List K) (cont : Dict (List K))
    (reso : Dict (List (List K))) : Spectrum K :=
  { s with
    fwave := [("brz", wave)], fflux := [("brz", flux)], fivar := [("brz", ivar)]
    cont := cont, freso := reso }

/-- py/qsonic/spectrum.py:674-676: the mean signal to noise (no good pixel: `0 / 0`). -/
def coaddSnr (sqrt : K → K) (nan : K) (flux ivar : List K) : K :=
  if numGood ivar = 0 then nan else dot (ivar.map sqrt) flux / (numGood ivar : K)

/-- `set_mean_snr`. py/qsonic/spectrum.py:674-676. -/
def withSnr (s : Spectrum K) (x : K) : Spectrum K := { s with meanSnr := [("brz", x)] }

/-- py/qsonic/spectrum.py:589-676 `coadd_arms_forest`. -/
def coaddArmsForest (sqrt : K → K) (smooth : List K → K → List K) (junk : Nat → K) (nan eps : K)
    (s : Spectrum K) (varlss eta : K → K) : Except Err (Spectrum K) := do
  let g ← forestGrid s.dwave (s.fwave.map Prod.snd)
  let fi ← coaddArms g.1 s.dwave g.2.2 (s.fwave.map (fun x => s.forestPix x.1))
  let cont ← s.newCont junk g.1 g.2.2
  let reso ← s.newReso nan eps g.1 g.2.2
  let t := s.replaceForest (linspace g.1 g.2.1 g.2.2) fi.1 fi.2 cont reso
  pure (((t.setSmoothForestivar smooth s.smoothing).setForestWeight varlss eta).withSnr
    (coaddSnr sqrt nan fi.1 fi.2))

/-- py/qsonic/spectrum.py:121-134 `_set_coadd_wave`: first wavelength and number of pixels of the
grid for all arms; `round` is python's, to the nearest integer (`r`, any rounding function). -/
def coaddWaveGrid (r : K → Int) (dwave : K) (waves : List (List K)) : Except Err (K × Nat) := do
  let firsts ← waves.mapM firstElem
  let minWave ← listMin firsts
  let lasts ← waves.mapM lastElem
  let maxWave ← listMax lasts
  pure (minWave, (r ((maxWave - minWave) / dwave + 1 / 10) + 1).toNat)

/-- The pixels of an arm for `simple_coadd`: the weight is the ivar. py/qsonic/spectrum.py:546-559. -/
def simplePix (s : Spectrum K) (arm : String) : List (Pix K) :=
  pixelsOf (s.wave.arr arm) (s.ivar.arr arm) (s.flux.arr arm) (s.ivar.arr arm)

/-- py/qsonic/spectrum.py:564-583. -/
def simpleReso (nan eps minWave : K) (nwaves : Nat) (s : Spectrum K) :
    Except Err (Dict (List (List K))) :=
  if s.reso = [] then .ok [] else do
    let r ← coaddReso nan eps minWave s.dwave nwaves
      (s.reso.map (fun x => ⟨s.wave.arr x.1, s.ivar.arr x.1, x.2⟩))
    pure [("brz", r)]

/-- py/qsonic/spectrum.py:522-587 `simple_coadd`, with the grid of `_set_coadd_wave`. -/
def simpleCoadd (nan eps minWave : K) (nwaves : Nat) (s : Spectrum K) : Except Err (Spectrum K) := do
  let fi ← coaddArms minWave s.dwave nwaves (s.wave.map (fun x => s.simplePix x.1))
  let reso ← s.simpleReso nan eps minWave nwaves
  pure { s with
    wave := [("brz", (List.range nwaves).map (fun i : Nat => minWave + (i : K) * s.dwave))]
    flux := [("brz", fi.1)], ivar := [("brz", fi.2)], reso := reso }

end Spectrum
end Verif.Model
