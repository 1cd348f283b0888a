import Verif.Model.VarLss

/-!
# Smoothing of the fitted variance and the update of `var_lss` and `eta` (`py/qsonic/picca_continuum.py`)
-/

namespace Verif.Model
open Verif.Np

variable {K : Type} [Field K] [LinearOrder K]

/-- py/qsonic/picca_continuum.py:972-993 `_smooth_fit_results`, for one column (1D array) or two. `spline x y w` is
`UnivariateSpline(x, y, w=w)`. Simplification: its exceptions (three points or fewer) are not modelled, and neither are
errors of zero (`1 / 0` is infinite in numpy). -/
def VarLss.smoothFit (spline : List K → List K → List K → K → K) (c : VarCfg K) (y e : List (List K)) :
    List (List K) :=
  let w := y.map (fun r => decide (0 < r.headD 0))
  let spl := fun j : Nat => spline (VarLss.maskSel w ((List.range c.nw).map c.center))
    (VarLss.maskSel w (y.map (fun r => r.getD j 0))) ((VarLss.maskSel w (e.map (fun r => r.getD j 0))).map (fun s => 1 / s))
  y.zipIdx.map (fun r => r.1.zipIdx.map (fun p => spl p.2 (c.center r.2)))

/-- The arrays of `varlss_interp` and `eta_interp`. py/qsonic/picca_continuum.py:429-462. -/
structure VarFuncs (K : Type) where
  varlss : List K
  eVarlss : List K
  eta : List K
  eEta : List K
  deriving DecidableEq, Repr

/-- py/qsonic/picca_continuum.py:448-464: the end of `update_var_lss_eta`; `fit` is `self.varlss_fitter.fit`. -/
def VarFuncs.update (fitEta : Bool) (fit : List (List K) → Except Err (List (List K) × List (List K)))
    (g : VarFuncs K) : Except Err (VarFuncs K) := do
  let guess := if fitEta then List.zipWith (fun a b => [a, b]) g.varlss g.eta else g.varlss.map (fun a => [a])
  let r ← fit guess
  pure (if fitEta then
      ⟨r.1.map (fun x => x.getD 0 0), r.2.map (fun x => x.getD 0 0), r.1.map (fun x => x.getD 1 0),
        r.2.map (fun x => x.getD 1 0)⟩
    else ⟨r.1.map (fun x => x.getD 0 0), r.2.map (fun x => x.getD 0 0), g.eta, g.eEta⟩)

end Verif.Model
