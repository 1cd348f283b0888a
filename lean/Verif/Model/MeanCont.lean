import Verif.Model.Stack
import Verif.Model.Interp
import Verif.Model.ContFit

/-!
# Model of the update of the mean continuum (`py/qsonic/picca_continuum.py:320-427`) and of `_normalize_flux`

Arithmetic is exact; a division by zero gives zero here (numpy: NaN or infinity, with a warning).
-/

namespace Verif.Model
open Verif Verif.Np

variable {K : Type} [Field K]

/-! ### The natural cubic spline on any grid, and its integral

`scipy.interpolate.CubicSpline(x, y, bc_type='natural').integrate(0, 1)`: the second derivatives `m` at the nodes
solve the tridiagonal system of the spline, with zero at both ends; scipy solves an equivalent system for the first
derivatives. -/

/-- Length of the interval between node `i` and the next. py/qsonic/picca_continuum.py:345-347. -/
def splStep (x : Nat → K) (i : Nat) : K := x (i + 1) - x i

/-- Right side of the equation of node `i`. py/qsonic/picca_continuum.py:345-347. -/
def splRhs (x y : Nat → K) (i : Nat) : K :=
  6 * ((y (i + 1) - y i) / splStep x i - (y i - y (i - 1)) / splStep x (i - 1))

/-- Elimination: the coefficient of the next unknown. py/qsonic/picca_continuum.py:345-347. -/
def splC (x : Nat → K) : Nat → K
  | 0 => 0
  | i + 1 => splStep x (i + 1) / (2 * (splStep x i + splStep x (i + 1)) - splStep x i * splC x i)

/-- Elimination: the right side. py/qsonic/picca_continuum.py:345-347. -/
def splD (x y : Nat → K) : Nat → K
  | 0 => 0
  | i + 1 => (splRhs x y (i + 1) - splStep x i * splD x y i) /
      (2 * (splStep x i + splStep x (i + 1)) - splStep x i * splC x i)

/-- Back substitution: the second derivative at the node that is `k` before the last node `last`.
py/qsonic/picca_continuum.py:345-347. -/
def splBack (x y : Nat → K) (last : Nat) : Nat → K
  | 0 => 0
  | k + 1 => splD x y (last - (k + 1)) - splC x (last - (k + 1)) * splBack x y last k

/-- The second derivative at node `i` of `last + 1` nodes. py/qsonic/picca_continuum.py:345-347. -/
def splM (x y : Nat → K) (last i : Nat) : K := splBack x y last (last - i)

/-- The integral of the cubic between nodes `i` and `i + 1`. py/qsonic/picca_continuum.py:345-347. -/
def splPiece (x y m : Nat → K) (i : Nat) : K :=
  splStep x i * (y i + y (i + 1)) / 2 - splStep x i ^ 3 * (m i + m (i + 1)) / 24

/-- The integral of the spline over all of its intervals. py/qsonic/picca_continuum.py:345-347. -/
def splInt (x y : Nat → K) (last : Nat) : K :=
  ((List.range last).map (splPiece x y (splM x y last))).sum

/-- The same for arrays. With fewer than two nodes scipy raises `ValueError`: not modelled, the integral is zero.
py/qsonic/picca_continuum.py:345-347, 352-354. -/
def splIntegral (x y : List K) : K := splInt (fun i => x.getD i 0) (fun i => y.getD i 0) (x.length - 1)

/-! ### Projection and normalisation -/

/-- `scipy.special.legendre(n)` at `t`. py/qsonic/picca_continuum.py:343. -/
def legendre : Nat → K → K
  | 0, _ => 1
  | 1, t => t
  | n + 2, t => ((2 * (n : K) + 3) * t * legendre (n + 1) t - ((n : K) + 1) * legendre n t) / ((n : K) + 2)

/-- `legendre(ci)(2 * x - 1)`. py/qsonic/picca_continuum.py:343. -/
def legArr (x : List K) (ci : Nat) : List K := x.map (fun t => legendre ci (2 * t - 1))

/-- py/qsonic/picca_continuum.py:340-348: one pass of the loop. -/
def projectStep (x m : List K) (ci : Nat) : List K :=
  let leg := legArr x ci
  let B := (2 * (ci : K) + 1) * splIntegral x (List.zipWith (· * ·) m leg)
  List.zipWith (fun a l => a - B * l) m leg

/-- py/qsonic/picca_continuum.py:340-348: the loop over `range(1, cont_order + 1)`. -/
def project (x : List K) (order : Nat) (m : List K) : List K :=
  ((List.range order).map (· + 1)).foldl (projectStep x) m

/-- py/qsonic/picca_continuum.py:320-357 `_project_normalize_meancont`, where `x` is the array of line 338. -/
def projectNormalize (x : List K) (order : Nat) (m : List K) : List K × K :=
  let p := project x order m
  let mean := splIntegral x p
  (p.map (· / mean), mean)

/-- py/qsonic/picca_continuum.py:338; `log` is a parameter and `_denom` is that of line 266. -/
def contGrid (log : K → K) (rfwave : List K) : List K :=
  let w0 := rfwave.getD 0 0
  let denom := log (rfwave.getD (rfwave.length - 1) 0 / w0)
  rfwave.map (fun w => log (w / w0) / denom)

section
variable [LinearOrder K]

/-- `np.mean(a[w])`, `w = std > 0`. py/qsonic/picca_continuum.py:393-395. -/
def meanWhere (std a : List K) : K :=
  let l := ((std.zip a).filter (fun p => decide (0 < p.1))).map Prod.snd
  l.sum / (l.length : K)

/-- py/qsonic/picca_continuum.py:393-394: empty bins get the mean of the others. -/
def fillFlux (std flux : List K) : List K :=
  List.zipWith (fun s f => if 0 < s then f else meanWhere std flux) std flux

/-- py/qsonic/picca_continuum.py:395-396: and ten times their mean error. -/
def fillStd (std : List K) : List K :=
  std.map (fun s => if 0 < s then s else 10 * meanWhere std std)

/-- py/qsonic/picca_continuum.py:398-402: the first estimate. `smooth flux weights` are the values of
`UnivariateSpline(self.rfwave, flux, w=weights)` at the nodes. -/
def rawMeancont (smooth : List K → List K → List K) (residual : Bool) (old flux std : List K) : List K :=
  let s := smooth (fillFlux std flux) ((fillStd std).map (1 / ·))
  if residual then List.zipWith (· * ·) s old else s

/-- py/qsonic/picca_continuum.py:407: the relative updates. -/
def contUpdates (old new : List K) : List K := List.zipWith (fun n o => n / o - 1) new old

/-- py/qsonic/picca_continuum.py:412: `all_pt_test`. -/
def allPtTest (upd std : List K) : Bool :=
  (List.zipWith (fun n e => decide (|n| < 33 / 100 * e)) upd std).all id

/-- py/qsonic/picca_continuum.py:413: `chi2_change`. -/
def chi2Change (nbins : Nat) (upd std : List K) : K :=
  (List.zipWith (fun n e => (n / e) ^ 2) upd std).sum / (nbins : K)

/-- py/qsonic/picca_continuum.py:412-414. -/
def hasConverged (nbins : Nat) (upd std : List K) : Bool :=
  decide (chi2Change nbins upd std < 1 / 1000) || allPtTest upd std

/-- The result of `update_mean_cont`. py/qsonic/picca_continuum.py:359-427. -/
structure MeanUpdate (K : Type) where
  fp : List K
  ep : List K
  converged : Bool

/-- py/qsonic/picca_continuum.py:388-414: what `update_mean_cont` does with the stack in the rest frame (`flux` and
`std`, after `calculate`); `x` is the array of line 338 and `old` is `meancont_interp.fp`. -/
def meanUpdate (smooth : List K → List K → List K) (x : List K) (order : Nat) (residual : Bool)
    (old flux std : List K) : MeanUpdate K :=
  let r := projectNormalize x order (rawMeancont smooth residual old flux std)
  let ep := (fillStd std).map (· / r.2)
  { fp := r.1, ep := ep, converged := hasConverged old.length (contUpdates old r.1) ep }

/-! ### `_normalize_flux` -/

/-- The interpolator of the stacked flux (py/qsonic/picca_continuum.py:1279-1281, 1291-1292 `__call__`). -/
def Stacker.interp (st : Stacker K) : LinInterp K := { xp0 := st.obs.x0, dxp := st.obs.dx, fp := st.fp }

/-- `cont *= self.flux_stacker(wave_arm)`. Simplification: one where the compiled code reads out of bounds (fewer
than two cells). py/qsonic/picca_continuum.py:484-501. -/
def normArm [FloorRing K] (st : Stacker K) (w c : List K) : List K :=
  mulFlux (fun x => (st.interp.eval x).getD 1) w c

/-- py/qsonic/picca_continuum.py:499-501 for one spectrum. -/
def normSpec [FloorRing K] (st : Stacker K) (s : Spectrum K) : Spectrum K :=
  s.fwave.foldl (fun t a => { t with cont := t.cont.set a.1 (normArm st a.2 (t.cont.arr a.1)) }) s

/-- py/qsonic/picca_continuum.py:484-501 `_normalize_flux`; `on` is `--normalize-stacked-flux`. -/
def normalizeFlux [FloorRing K] (on : Bool) (st : Stacker K) (l : List (Spectrum K)) : List (Spectrum K) :=
  if on then l.map (fun s => if s.valid then normSpec st s else s) else l

end
end Verif.Model
