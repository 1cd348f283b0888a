import Mathlib.Algebra.Order.Field.Basic
import Verif.Np.MedianFilter

/-!
# Outliers with respect to a moving median
-/

namespace Verif.Spec
open Verif.Np

variable {K : Type} [Field K] [LinearOrder K]

/-- Flux of the good pixels. -/
def goodFlux (flux ivar : List K) : List K := ((flux.zip ivar).filter (fun p => decide (p.2 ≠ 0))).map Prod.fst

/-- The number of good pixels before pixel `i`. -/
def goodBefore (ivar : List K) (i : Nat) : Nat := (ivar.take i).countP (fun v => decide (v ≠ 0))

/-- Distances of the values from the moving median. -/
def distances (f : List K) (size : Nat) : List K := List.zipWith (fun x m => |x - m|) f (medianFilter f size)

/-- Distance of good pixel `q` from the moving median. -/
def distance (f : List K) (size q : Nat) : K := |f.getD q 0 - (medianFilter f size).getD q 0|

/-- Moving median of the distances at good pixel `q`. -/
def mad (f : List K) (size q : Nat) : K := (medianFilter (distances f size) size).getD q 0

/-- The documentation of `get_median_outlier_mask`: `abs(f[i] - median[i]) > esigma * max(n[i], sigma[i])`. -/
def Documented (sqrt : K → K) (madScale : K) (flux ivar : List K) (esigma : K) (size i : Nat) : Prop :=
  esigma * max (1 / sqrt (ivar.getD i 0)) (madScale * mad (goodFlux flux ivar) size (goodBefore ivar i)) <
    distance (goodFlux flux ivar) size (goodBefore ivar i)

end Verif.Spec
