import Verif.Model.Spectrum
import Verif.Np.Scatter

/-!
# Model of `Spectrum.mean_resolution` (`py/qsonic/spectrum.py:678-714`)

Elements of the resolution matrix are `none` where they are NaN, since coadding divides zero by zero in gaps. Weights are
not negative. `log` and `sqrt` are parameters.
-/

namespace Verif.Model
open Verif.Np

variable {K : Type} [Field K] [LinearOrder K]

/-- `np.dot(row, weight)`: NaN if any element is. py/qsonic/spectrum.py:701-702. -/
def nanDot (row : List (Option K)) (w : List K) : Option K := (row.mapM id).map (fun r => dot r w)

/-- The first index of the largest element. py/qsonic/spectrum.py:704. -/
def firstMax (l : List K) : Nat := l.findIdx (fun a => l.all (fun b => decide (b ≤ a)))

/-- `argmax`: the first NaN if there is one, else the first index of the largest element.
py/qsonic/spectrum.py:704. -/
def nanArgmax (l : List (Option K)) : Nat :=
  match l.findIdx? (fun a => a.isNone) with
  | some i => i
  | none => firstMax (l.map (fun a => a.getD 0))

/-- py/qsonic/spectrum.py:706-711: `1 / sqrt(log(a / b))`, zero if `b` is zero (the logarithm is infinite); `none` if the
logarithm is NaN or not positive. -/
def ratioTerm (log sqrt : K → K) : Option K → Option K → Option K
  | some a, some b =>
    if b = 0 then (if 0 < a then some 0 else none)
    else if 0 < a / b ∧ 0 < log (a / b) then some (1 / sqrt (log (a / b))) else none
  | _, _ => none

/-- py/qsonic/spectrum.py:700-701: the weighted mean of the rows; NaN for total weight zero. -/
def meanRows (reso : List (List (Option K))) (weight : List K) : List (Option K) :=
  reso.map (fun row => if weight.sum = 0 then none else (nanDot row weight).map (fun x => x / weight.sum))

/-- py/qsonic/spectrum.py:713-714: `none` is NaN, from zero divided by zero. -/
def resoResult (sqrt : K → K) (dwave lambdaEff : K) (terms : List (Option K)) : Option K :=
  if (terms.filterMap id).length = 0 then none
  else some ((List.zipWith (fun o t => o * t.getD 0) [2, 1, 1, 2] terms).sum / sqrt 2 /
    ((terms.filterMap id).length : K) * 300000 * dwave / lambdaEff)

/-- py/qsonic/spectrum.py:678-714 `mean_resolution` of one arm; `weight` is `forestweight[arm]` (`weight=None`). An index
before the first row counts from the end, one after the last row raises. -/
def meanResolution (log sqrt : K → K) (dwave : K) (reso : List (List (Option K))) (wave weight : List K) :
    Except Err (Option K) :=
  if reso = [] then .error .valueError
  else
    let r := meanRows reso weight
    let c := nanArgmax r
    ([-2, -1, 1, 2].mapM (fun o : Int => normIdx r.length ((c : Int) + o))).map (fun js =>
      resoResult sqrt dwave (dot wave weight / weight.sum)
        (js.map (fun j => ratioTerm log sqrt (r.getD c none) (r.getD j none))))

end Verif.Model
