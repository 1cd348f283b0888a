import Mathlib.Algebra.Order.Field.Basic
import Mathlib.Data.List.Basic
import Verif.Np.MedianFilter

/-!
# Model of `get_smooth_ivar` and `get_median_outlier_mask` (`py/qsonic/mathtools.py`)

`sqrt`, `np.median` and the FFT smoother are parameters.
-/

namespace Verif.Model

variable {K : Type} [Field K] [LinearOrder K]

/-- py/qsonic/mathtools.py:308-311: the error array; masked pixels get the median. -/
def errorOf (sqrt : K → K) (medianErr : K) (ivar : List K) : List K :=
  ivar.map (fun v => if 0 < v then 1 / sqrt v else medianErr)

/-- `error[w2] = median_err` and `error[w2] = err_org`: values `y` where `w` holds, else `x`.
py/qsonic/mathtools.py:286-327. -/
def replaceWhere (w : List Bool) (x y : List K) : List K :=
  List.zipWith (fun b p => if b then p.2 else p.1) w (x.zip y)

/-- py/qsonic/mathtools.py:286-327 `get_smooth_ivar`. `madScale` is `1.4826`. -/
def getSmoothIvar (sqrt : K → K) (median : List K → K) (smooth : List K → K → List K)
    (madScale : K) (ivar : List K) (sigmaPix esigma : K) : List K :=
  let good := ivar.filter (fun v => decide (0 < v))
  let goodErr := good.map (fun v => 1 / sqrt v)
  let medianErr := median goodErr
  let error := errorOf sqrt medianErr ivar
  let mad := median (goodErr.map (fun e => |e - medianErr|)) * madScale
  let w2 := error.map (fun e => decide (e - medianErr > esigma * mad))
  let clipped := replaceWhere w2 error (error.map (fun _ => medianErr))
  let smoothed := smooth clipped sigmaPix
  let restored := replaceWhere w2 smoothed error
  List.zipWith (fun v e => if 0 < v then 1 / e ^ 2 else 0) ivar restored

/-- py/qsonic/mathtools.py:274-283: scatter of the mask of the good pixels back to all pixels. -/
def scatterMask : List K → List Bool → List Bool
  | [], _ => []
  | v :: vs, m => if v = 0 then true :: scatterMask vs m else m.headD true :: scatterMask vs m.tail

/-- py/qsonic/mathtools.py:250-283 `get_median_outlier_mask` (the call of it is turned off in
qsonic). `madScale` is `1.4826`, `eps` is `1e-12`. -/
def medianOutlierMask (sqrt : K → K) (madScale eps : K) (flux ivar : List K) (esigma : K) (nwindow : Nat) : List Bool :=
  let pix := (flux.zip ivar).filter (fun p => decide (p.2 ≠ 0))
  let f := pix.map Prod.fst
  let absDiff := List.zipWith (fun x m => |x - m|) f (Np.medianFilter f nwindow)
  let isigMad := (Np.medianFilter absDiff nwindow).map (fun m => min 1 (1 / (madScale * m + eps)))
  let isigCut := List.zipWith (fun p s => min (sqrt p.2) s / esigma) pix isigMad
  scatterMask ivar (List.zipWith (fun a c => decide (a * c > 1)) absDiff isigCut)

end Verif.Model
