import Verif.Model.Interp
import Verif.Model.Spectrum
import Verif.Np.Err

/-!
# Model of `py/qsonic/calibration.py`

Not modelled: reading the FITS tables (the columns are arguments) and the broadcast of the interpolators
(`Verif.Model.Mpi`). An interpolator is used as a function on wavelengths.
Simplification: a division by zero gives 0 here, inf or nan in numpy; the theorems exclude it.
-/

namespace Verif.Model
open Verif.Np

variable {K : Type} [Field K] [LinearOrder K]

/-- py/qsonic/calibration.py:75-82, 169-176: first wavelength and spacing; tables that are not equally
spaced are refused. `rtol`, `atol` are those of `np.allclose`. -/
def readGrid (rtol atol : K) (waves : List K) : Except Err (K × K) :=
  match waves with
  | w0 :: w1 :: _ =>
    if (List.zipWith (fun a b => b - a) waves waves.tail).all
      (fun d => decide (|d - (w1 - w0)| ≤ atol + rtol * |w1 - w0|)) then .ok (w0, w1 - w0)
    else .error .exception
  | _ => .error .indexError

/-- `a[a == 0] = 1`. py/qsonic/calibration.py:88, 179. -/
def zerosToOne (a : List K) : List K := a.map (fun x => if x = 0 then 1 else x)

/-- py/qsonic/calibration.py:71-91 `NoiseCalibrator._read`: interpolators of eta and var_lss; `junk` is
`np.empty`. -/
def noiseRead (junk : Nat → K) (rtol atol : K) (waves varlss eta : List K) :
    Except Err (CubicInterp K × CubicInterp K) := do
  let g ← readGrid rtol atol waves
  pure (CubicInterp.notaknot junk g.1 g.2 (zerosToOne eta), CubicInterp.notaknot junk g.1 g.2 varlss)

/-- py/qsonic/calibration.py:165-181 `FluxCalibrator._read`. -/
def fluxRead (rtol atol : K) (waves stacked : List K) : Except Err (LinInterp K) := do
  let g ← readGrid rtol atol waves
  pure ⟨g.1, g.2, zerosToOne stacked⟩

/-- The interpolator as a function. Simplification: 0 where it would read outside of its table (it does
not with enough nodes, see C41, C42, C43). py/qsonic/mathtools.py:364-365. -/
def asFun (e : K → Option K) (x : K) : K := (e x).getD 0

/-- py/qsonic/calibration.py:42-106 `NoiseCalibrator`: `eta` is the constant 1 with `no_eta`, `varlss` is
`None` without `add_varlss`. -/
structure NoiseCal (K : Type) where
  eta : K → K
  varlss : Option (K → K)

/-- py/qsonic/calibration.py:93-106 `__init__` after reading. -/
def NoiseCal.mk' [FloorRing K] (r : CubicInterp K × CubicInterp K) (addVarlss noEta : Bool) : NoiseCal K :=
  { eta := if noEta then fun _ => 1 else asFun r.1.eval
    varlss := if addVarlss then some (asFun r.2.eval) else none }

/-- py/qsonic/calibration.py:127-129: one pixel with the additive term. -/
def additivePix (eta vlss cont ivar : K) : K :=
  let x := ivar / (eta + ivar * (vlss * cont ^ 2))
  if x < 0 then 0 else x

/-- py/qsonic/calibration.py:123-129: one arm with the additive term. -/
def additiveArm (eta varlss : K → K) (s : Spectrum K) (x : String × List K) :
    Except Err (Spectrum K) := do
  let cont ← (s.cont.lookup x.1).elim (.error .keyError) .ok
  pure (s.setIvar x.1 (List.zipWith (fun w p => additivePix (eta w) (varlss w) p.1 p.2) x.2
    (cont.zip (s.fivar.arr x.1))))

/-- py/qsonic/calibration.py:132-134: one arm without it. -/
def etaArm (eta : K → K) (s : Spectrum K) (x : String × List K) : Spectrum K :=
  s.setIvar x.1 (List.zipWith (fun w v => v / eta w) x.2 (s.fivar.arr x.1))

/-- py/qsonic/calibration.py:108-134 `NoiseCalibrator.apply`. -/
def NoiseCal.apply (c : NoiseCal K) (l : List (Spectrum K)) : Except Err (List (Spectrum K)) :=
  match c.varlss with
  | some varlss =>
    if l.all (fun s => !s.cont.isEmpty) then
      l.mapM (fun s => s.fwave.foldlM (additiveArm c.eta varlss) s)
    else .error .exception
  | none => .ok (l.map (fun s => s.fwave.foldl (etaArm c.eta) s))

/-- py/qsonic/calibration.py:202-204: one arm. -/
def fluxArm (st : K → K) (s : Spectrum K) (x : String × List K) : Spectrum K :=
  ({ s with fflux := s.fflux.set x.1 (List.zipWith (fun w f => f / st w) x.2 (s.fflux.arr x.1)) }).setIvar
    x.1 (List.zipWith (fun w v => v * st w ^ 2) x.2 (s.fivar.arr x.1))

/-- py/qsonic/calibration.py:189-204 `FluxCalibrator.apply`. -/
def fluxApply (st : K → K) (l : List (Spectrum K)) : List (Spectrum K) :=
  l.map (fun s => s.fwave.foldl (fluxArm st) s)

end Verif.Model
