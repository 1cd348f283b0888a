import Verif.Model.StackFl
import Verif.Model.Interp

/-!
# Normalisation by the stack, writing and stacking of deltas with NaN and infinities

The pixels of `Spectrum.write`, `Delta.__init__` and `mpi_stack_fluxes`, on floating point special values.
-/

namespace Verif.Model
open Verif Verif.Np

variable {K : Type} [Field K] [LinearOrder K]

/-- py/qsonic/mathtools.py:17-26 `_fast_eval_interp1d_lin`, one point; the position is a number. -/
def evalLinFl [FloorRing K] (x xp0 dxp : K) (fp : List (Fl K)) : Option (Fl K) :=
  let xx := (x - xp0) / dxp
  let idx := interpIdx fp.length xx
  let d := xx - (idx : K)
  if idx < 0 then none
  else fp[idx.toNat]?.bind (fun y1 => fp[(idx + 1).toNat]?.map (fun y2 =>
    Fl.add (Fl.mul y1 (.fin (1 - d))) (Fl.mul y2 (.fin d))))

/-- py/qsonic/picca_continuum.py:499-501: `cont *= flux_stacker(wave)`, one pixel. -/
def normCont [FloorRing K] (g : StackGrid K) (fp : List (Fl K)) (wave : K) (cont : Fl K) : Option (Fl K) :=
  (evalLinFl wave g.x0 g.dx fp).map (Fl.mul cont)

/-- A row of a delta table. py/qsonic/spectrum.py:765. -/
structure FlRow (K : Type) where
  wave : K
  delta : Fl K
  ivar : Fl K
  weight : Fl K
  cont : Fl K

/-- `delta[ivar == 0] = 0`, one pixel. py/qsonic/spectrum.py:763, 939. -/
def maskDelta (delta ivar : Fl K) : Fl K := if ivar = .fin 0 then .fin 0 else delta

/-- py/qsonic/spectrum.py:759-765 `write`, one pixel: `ivar` is `forestivar`, `weight` is `forestweight`. -/
def writeRow (wave : K) (flux ivar weight cont : Fl K) : FlRow K :=
  let iv := Fl.mul ivar (Fl.mul cont cont)
  { wave := wave
    delta := maskDelta (Fl.add (Fl.div flux cont) (.fin (-1))) iv
    ivar := iv
    weight := Fl.mul weight (Fl.mul cont cont)
    cont := cont }

/-- py/qsonic/spectrum.py:932-939 `Delta.__init__`, one pixel. -/
def readRow (r : FlRow K) : FlRow K := { r with delta := maskDelta r.delta r.ivar }

/-- py/qsonic/scripts/qsonic_calib.py:183-201: one pixel of the stack, for the rows of all ranks that fall on it.
Simplification: a delta has at most one row there. -/
def calibPixel (l : List (FlRow K)) : Fl K :=
  let f := Fl.sum (l.map (fun r => Fl.mul (Fl.add (.fin 1) r.delta) r.weight))
  let w := Fl.sum (l.map (·.weight))
  if Fl.lt (.fin 0) w then Fl.div f w else .fin 0

end Verif.Model
