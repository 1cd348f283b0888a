import Mathlib.Algebra.Order.Field.Basic
import Verif.Np.Float

/-!
# Arithmetic with floating point special values

Numbers are exact (no rounding, no overflow), and zero has no sign: a division by zero of a number that is not zero gives
an infinity with the sign of the number.
-/

namespace Verif.Np.Fl

variable {K : Type} [Field K] [LinearOrder K]

/-- `x + y`. py/qsonic/picca_continuum.py:1315-1325. -/
def add : Fl K → Fl K → Fl K
  | fin x, fin y => fin (x + y)
  | nan, _ => nan
  | _, nan => nan
  | pinf, ninf => nan
  | ninf, pinf => nan
  | pinf, _ => pinf
  | _, pinf => pinf
  | ninf, _ => ninf
  | _, ninf => ninf

/-- Infinity times a number. py/qsonic/spectrum.py:497. -/
def infMul (x : K) : Fl K := if 0 < x then pinf else if x < 0 then ninf else nan

/-- `x * y`. py/qsonic/spectrum.py:497. -/
def mul : Fl K → Fl K → Fl K
  | fin x, fin y => fin (x * y)
  | nan, _ => nan
  | _, nan => nan
  | pinf, fin y => infMul y
  | fin x, pinf => infMul x
  | ninf, fin y => infMul (-y)
  | fin x, ninf => infMul (-x)
  | pinf, pinf => pinf
  | ninf, ninf => pinf
  | pinf, ninf => ninf
  | ninf, pinf => ninf

/-- `x / y`. py/qsonic/spectrum.py:497. -/
def div : Fl K → Fl K → Fl K
  | fin x, fin y => if y = 0 then infMul x else fin (x / y)
  | nan, _ => nan
  | _, nan => nan
  | fin _, pinf => fin 0
  | fin _, ninf => fin 0
  | pinf, fin y => if y < 0 then ninf else pinf
  | ninf, fin y => if y < 0 then pinf else ninf
  | _, _ => nan

/-- `np.sqrt(x)` of a value that is not negative; `sqrt` is the root of numbers. py/qsonic/picca_continuum.py:1344. -/
def sqrtOf (sqrt : K → K) : Fl K → Fl K
  | fin x => fin (sqrt x)
  | pinf => pinf
  | _ => nan

/-- The sum of the elements of an array, from left to right. py/qsonic/picca_continuum.py:1315-1334. -/
def sum (l : List (Fl K)) : Fl K := l.foldl add (fin 0)

end Verif.Np.Fl
