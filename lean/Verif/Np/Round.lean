import Mathlib.Algebra.Order.Floor.Ring
import Mathlib.Algebra.Order.Field.Basic

/-!
# `round(x)`: to the nearest integer, halves to the even one
-/

namespace Verif.Np

/-- Python's `round(x)` and `np.round(x)`.
py/qsonic/picca_continuum.py:261, 813, py/qsonic/scripts/qsonic_calib.py:185. -/
def pyRound {K : Type} [Field K] [LinearOrder K] [FloorRing K] (x : K) : Int :=
  if x - ⌊x⌋ < 1 / 2 then ⌊x⌋
  else if 1 / 2 < x - ⌊x⌋ then ⌊x⌋ + 1
  else if ⌊x⌋ % 2 = 0 then ⌊x⌋ else ⌊x⌋ + 1

end Verif.Np
