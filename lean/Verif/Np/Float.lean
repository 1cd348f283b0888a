import Mathlib.Order.Defs.LinearOrder

/-!
# Floating point special values

A number or one of NaN, `+inf`, `-inf`. Numbers are exact (no rounding, no overflow).
-/

namespace Verif.Np

/-- A floating point value. py/qsonic/spectrum.py:225-226. -/
inductive Fl (K : Type)
  | nan
  | pinf
  | ninf
  | fin (x : K)
  deriving DecidableEq, Repr

namespace Fl

variable {K : Type}

/-- `np.isnan(x)`. py/qsonic/spectrum.py:225-226. -/
def isNan : Fl K → Bool
  | nan => true
  | _ => false

/-- `x < y`: false if one is NaN. py/qsonic/continuum_models/input_continuum_model.py:193. -/
def lt [LT K] [DecidableLT K] : Fl K → Fl K → Bool
  | nan, _ => false
  | _, nan => false
  | fin x, fin y => decide (x < y)
  | ninf, ninf => false
  | ninf, _ => true
  | _, ninf => false
  | pinf, _ => false
  | fin _, pinf => true

end Fl
end Verif.Np
