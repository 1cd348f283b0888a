import Mathlib.Algebra.Order.Field.Basic
import Mathlib.Algebra.Order.Floor.Ring
import Verif.Model.Spectrum
import Verif.Model.Subsample
import Verif.Model.CovSquare
import Verif.Np.Unique

/-!
# Model of the statistics of `VarLSSFitter` (`py/qsonic/picca_continuum.py:684-1118`)

Arithmetic is exact. `np.logspace` is not modelled: the edges of the inverse variance bins are a parameter.
A spectrum (one call of `add`) is the list of its pixels (wavelength, delta, inverse variance). `curve_fit` and
`UnivariateSpline` are parameters.
-/

namespace Verif.Model
open Verif Verif.Np
open scoped BigOperators

variable {K : Type} [Field K] [LinearOrder K]

/-- py/qsonic/picca_continuum.py:807-858: the settings that do not change, `__init__` for a given number of
wavelength bins. -/
structure VarCfg (K : Type) where
  w1 : K
  w2 : K
  nw : Nat
  nv : Nat
  edges : List K

namespace VarCfg

/-- py/qsonic/picca_continuum.py:822-823 `dwobs`: step of `np.linspace`. -/
def dw (c : VarCfg K) : K := (c.w2 - c.w1) / c.nw

/-- py/qsonic/picca_continuum.py:822: `wave_edges[i]`. -/
def edge (c : VarCfg K) (i : Nat) : K := c.w1 + i * c.dw

/-- py/qsonic/picca_continuum.py:824: `waveobs[i]`. -/
def center (c : VarCfg K) (i : Nat) : K := (c.edge (i + 1) + c.edge i) / 2

/-- py/qsonic/picca_continuum.py:829. -/
def minlength (c : VarCfg K) : Nat := (c.nv + 2) * (c.nw + 2)

/-- py/qsonic/picca_continuum.py:831-836 `wvalid_bins`. -/
def wvalid (c : VarCfg K) (i : Nat) : Bool :=
  (List.range c.nw).any (fun iw =>
    decide ((iw + 1) * (c.nv + 2) + 1 ≤ i) && decide (i < (iw + 1) * (c.nv + 2) + 1 + c.nv))

/-- The indices that `a[self.wvalid_bins]` takes from an array of length `minlength`.
py/qsonic/picca_continuum.py:831-836, 1167. -/
def validIdx (c : VarCfg K) : List Nat := (List.range c.minlength).filter c.wvalid

/-- py/qsonic/picca_continuum.py:901-904 `wave_indx`. -/
def waveIdx [FloorRing K] (c : VarCfg K) (wave : K) : Nat :=
  (min (max (truncInt ((wave - c.center 0) / c.dw + 3 / 2)) 0) (c.nw + 1 : Nat)).toNat

/-- py/qsonic/picca_continuum.py:905 `ivar_indx`. -/
def ivarIdx (c : VarCfg K) (ivar : K) : Nat := searchsorted c.edges ivar

/-- py/qsonic/picca_continuum.py:906 `all_indx`. -/
def allIdx [FloorRing K] (c : VarCfg K) (wave ivar : K) : Nat :=
  c.ivarIdx ivar + c.waveIdx wave * (c.nv + 2)

end VarCfg

/-- A pixel: wavelength, delta and inverse variance. py/qsonic/picca_continuum.py:885-917. -/
structure VPix (K : Type) where
  wave : K
  delta : K
  ivar : K

/-- py/qsonic/picca_continuum.py:907-909 `var`. -/
def pixVar (ivar : K) : K := if 0 < ivar then 1 / ivar else 0

/-- py/qsonic/picca_continuum.py:684-696: what is summed in the rows of `xvec`. -/
def pixRow (p : VPix K) (j : Fin 4) : K :=
  if j = 0 then p.delta else if j = 1 then p.delta ^ 2 else if j = 2 then (p.delta ^ 2) ^ 2 else pixVar p.ivar

/-- The object. `numPix` is `_num_pixels`, `numQso` is `_num_qso`. py/qsonic/picca_continuum.py:807-858. -/
structure VarLss (K : Type) (n : Nat) (c : VarCfg K) where
  numPix : Fin ((c.nv + 2) * (c.nw + 2)) → Nat
  numQso : Fin ((c.nv + 2) * (c.nw + 2)) → Nat
  sub : Subsample K n 4 ((c.nv + 2) * (c.nw + 2))
  calculated : Bool

namespace VarLss
variable {n : Nat} {c : VarCfg K}

/-- py/qsonic/picca_continuum.py:838-858: `__init__` on rank `rank` of `size` ranks. -/
def new (c : VarCfg K) (h : 0 < n) (rank size : Nat) : VarLss K n c :=
  { numPix := fun _ => 0, numQso := fun _ => 0, sub := Subsample.new h ((rank * n) / size),
    calculated := false }

/-- py/qsonic/picca_continuum.py:878-883 `reset`. -/
def reset (s : VarLss K n c) : VarLss K n c :=
  { numPix := fun _ => 0, numQso := fun _ => 0, sub := s.sub.reset, calculated := false }

/-- py/qsonic/picca_continuum.py:911: `np.bincount`, where every index is below the length. -/
def npixOf [FloorRing K] (c : VarCfg K) (l : List (VPix K)) (k : Nat) : Nat :=
  l.countP (fun p => c.allIdx p.wave p.ivar = k)

/-- py/qsonic/picca_continuum.py:684-696 `_fast_weighted_vector_bincount`. -/
def xvecOf [FloorRing K] (c : VarCfg K) (l : List (VPix K)) (j : Fin 4) (k : Nat) : K :=
  ((l.filter (fun p => c.allIdx p.wave p.ivar = k)).map (fun p => pixRow p j)).sum

/-- py/qsonic/picca_continuum.py:885-917 `add`: the object afterwards and the exception, if any. If an index is
too large then the array of `np.bincount` is longer and `+=` raises. `_num_pixels` is changed before
`add_measurement` can refuse. -/
def add [FloorRing K] (s : VarLss K n c) (l : List (VPix K)) : VarLss K n c × Option Err :=
  if l.all (fun p => decide (c.allIdx p.wave p.ivar < c.minlength)) then
    let s1 : VarLss K n c := { s with numPix := fun k => s.numPix k + npixOf c l k }
    match s.sub.add (fun j k => xvecOf c l j k) (fun k => (npixOf c l k : K)) with
    | .error e => (s1, some e)
    | .ok sub => ({ s1 with
        sub := sub
        numQso := fun k => s.numQso k + (if 0 < npixOf c l k then 1 else 0) }, none)
  else (s, some .valueError)

/-- `add` for the spectra of a list; the first exception ends it. py/qsonic/picca_continuum.py:441-447. -/
def addList [FloorRing K] (s : VarLss K n c) : List (List (VPix K)) → VarLss K n c × Option Err
  | [] => (s, none)
  | l :: ls =>
    match s.add l with
    | (s', none) => s'.addList ls
    | (s', some e) => (s', some e)

/-- py/qsonic/picca_continuum.py:440-447: `add` is called for every arm of every spectrum. -/
def addSpectra [FloorRing K] (s : VarLss K n c) (specs : List (List (List (VPix K)))) :
    VarLss K n c × Option Err := s.addList specs.flatten

/-- py/qsonic/picca_continuum.py:935-939: the sums over all ranks. -/
def allreduce (ranks : List (VarLss K n c)) : List (VarLss K n c) :=
  let subs := Subsample.allreduce (ranks.map (·.sub))
  let np : Fin ((c.nv + 2) * (c.nw + 2)) → Nat := fun k => (ranks.map (fun s => s.numPix k)).sum
  let nq : Fin ((c.nv + 2) * (c.nw + 2)) → Nat := fun k => (ranks.map (fun s => s.numQso k)).sum
  List.zipWith (fun s sub => { s with sub := sub, numPix := np, numQso := nq }) ranks subs

/-- py/qsonic/picca_continuum.py:946-951: the rows of `mean`. -/
def meanRows (numPix : Fin ((c.nv + 2) * (c.nw + 2)) → Nat)
    (mean : Fin 4 → Fin ((c.nv + 2) * (c.nw + 2)) → K) : Fin 4 → Fin ((c.nv + 2) * (c.nw + 2)) → K :=
  fun j k =>
    let v := mean 1 k - mean 0 k ^ 2
    if j = 1 then v
    else if j = 2 then (if 0 < numPix k then (mean 2 k - v ^ 2) / numPix k else mean 2 k - v ^ 2)
    else mean j k

/-- py/qsonic/picca_continuum.py:960-968: row 1 of `variance`, regularised by row 2 of the new `mean`. -/
def varRows (mean : Fin 4 → Fin ((c.nv + 2) * (c.nw + 2)) → K)
    (variance : Fin 4 → Fin ((c.nv + 2) * (c.nw + 2)) → K) : Fin 4 → Fin ((c.nv + 2) * (c.nw + 2)) → K :=
  fun j k =>
    if j = 1 then
      let v := variance 1 k + 4 * mean 0 k ^ 2 * variance 0 k + 2 * variance 0 k ^ 2
      if mean 2 k < v then v else mean 2 k
    else variance j k

/-- py/qsonic/picca_continuum.py:953-957: block `jj` of the covariance of row 1. -/
def covRow1 (mean : Fin 4 → Fin ((c.nv + 2) * (c.nw + 2)) → K)
    (variance : Fin 4 → Fin ((c.nv + 2) * (c.nw + 2)) → K)
    (cov0 cov1 : Nat → Nat → Nat → K) : Nat → Nat → Nat → K :=
  fun jj a b => cov1 jj a b +
    blockCovSquare (Subsample.atNat (mean 0)) (Subsample.atNat (variance 0)) cov0 (c.nv + 2) jj a b

/-- The blocks of a covariance entry, if it has blocks. py/qsonic/picca_continuum.py:1197-1208. -/
def blocks {d : Nat} (e : Option ((Fin d → Fin d → K) ⊕ (Nat → Nat → Nat → K))) : Nat → Nat → Nat → K :=
  match e with
  | some (.inr b) => b
  | _ => fun _ _ _ => 0

/-- py/qsonic/picca_continuum.py:941-970 on one rank without covariance, after `get_mean_n_var`. -/
def finishVar (s : VarLss K n c) (sub : Subsample K n 4 ((c.nv + 2) * (c.nw + 2))) : VarLss K n c × Option Err :=
  let mean := meanRows s.numPix (sub.mean.getD (fun _ _ => 0))
  ({ s with
    sub := { sub with
      mean := some mean
      variance := some (varRows mean (sub.variance.getD (fun _ _ => 0))) }
    calculated := true }, none)

/-- py/qsonic/picca_continuum.py:942-970 on one rank with covariance, after `get_mean_n_var`. -/
def finishCov (eps : K) (s : VarLss K n c) (sub : Subsample K n 4 ((c.nv + 2) * (c.nw + 2))) :
    VarLss K n c × Option Err :=
  match sub.getMeanNCov eps (some [0, 1]) (some (c.nv + 2)) false with
  | (sub, some e) => ({ s with sub := sub }, some e)
  | (sub, none) =>
    let mean := meanRows s.numPix (sub.mean.getD (fun _ _ => 0))
    let cov := sub.covariance.getD (fun _ => none)
    let cov1 := covRow1 mean (sub.variance.getD (fun _ _ => 0)) (blocks (cov 0)) (blocks (cov 1))
    ({ s with
      sub := { sub with
        mean := some mean
        covariance := some (Function.update cov 1 (some (.inr cov1))) }
      calculated := true }, none)

/-- py/qsonic/picca_continuum.py:941-970 on one rank. -/
def finish (eps : K) (useCov : Bool) (s : VarLss K n c) : VarLss K n c × Option Err :=
  match s.sub.getMeanNVar eps false with
  | (sub, some e) => ({ s with sub := sub }, some e)
  | (sub, none) => if useCov then finishCov eps s sub else finishVar s sub

/-- py/qsonic/picca_continuum.py:919-970 `calculate_subsampler_stats` on all ranks, which is collective. The
flag `_stats_calculated` is the same on all ranks, since it changes in collective calls only; the flag of the
first rank is used here. -/
def calculate (eps : K) (useCov : Bool) (ranks : List (VarLss K n c)) : List (VarLss K n c × Option Err) :=
  if ranks.head?.any (·.calculated) then ranks.map (fun s => (s, none))
  else (allreduce ranks).map (finish eps useCov)

/-- `a[self.wvalid_bins]`. py/qsonic/picca_continuum.py:1164-1226. -/
def valid {α : Type} (c : VarCfg K) (a : Fin ((c.nv + 2) * (c.nw + 2)) → α) : List α :=
  c.validIdx.filterMap (fun i => if h : i < (c.nv + 2) * (c.nw + 2) then some (a ⟨i, h⟩) else none)

/-- py/qsonic/picca_continuum.py:1163-1167 `num_pixels`. -/
def numPixels (s : VarLss K n c) : List Nat := valid c s.numPix

/-- py/qsonic/picca_continuum.py:1169-1173 `num_qso`. -/
def numQsos (s : VarLss K n c) : List Nat := valid c s.numQso

/-- py/qsonic/picca_continuum.py:1175-1184, 1206-1216: `mean_delta` (row 0), `var_delta` (1), `var2_delta` (2),
`var_centers` (3); nothing before the statistics are calculated (subscript of `None`). -/
def meanRow (s : VarLss K n c) (j : Fin 4) : Option (List K) := s.sub.mean.map (fun m => valid c (m j))

/-- py/qsonic/picca_continuum.py:1186-1194, 1218-1222: the square of `e_var_delta` (row 1) and of
`e_var_centers` (3). -/
def errRow (s : VarLss K n c) (j : Fin 4) : Option (List K) := s.sub.variance.map (fun m => valid c (m j))

/-- `l[w]` for a boolean array of the same length. py/qsonic/picca_continuum.py:1000-1034. -/
def maskSel {α : Type} (w : List Bool) (l : List α) : List α := ((l.zip w).filter (·.2)).map (·.1)

/-- py/qsonic/picca_continuum.py:1004-1005 and 1011-1012: bins with enough pixels and quasars. -/
def enough (minPix minQso : Nat) (np nq : List Nat) : List Bool :=
  List.zipWith (fun a b => decide (minPix ≤ a) && decide (minQso ≤ b)) np nq

/-- py/qsonic/picca_continuum.py:1004-1018: the bins of a wavelength bin that are used; `None` if there are
fewer than five even with half of the minimum numbers. -/
def usedMask (minPix minQso : Nat) (np nq : List Nat) : Option (List Bool) :=
  let w := enough minPix minQso np nq
  if w.count true < 5 then
    let w := enough (minPix / 2) (minQso / 2) np nq
    if w.count true < 5 then none else some w
  else some w

/-- The `sigma` argument of `curve_fit`: errors or a covariance matrix. py/qsonic/picca_continuum.py:1085-1094. -/
inductive Sigma (K : Type)
  | errors (e : List K)
  | matrix (m : List (List K))

/-- py/qsonic/picca_continuum.py:1196-1204 `cov_var_delta`: element of `cov[1:-1, 1:-1, 1:-1]`. -/
def covVarDelta (s : VarLss K n c) (iw a b : Nat) : K :=
  blocks ((s.sub.covariance.getD (fun _ => none)) 1) (iw + 1) (a + 1) (b + 1)

/-- py/qsonic/picca_continuum.py:1020-1032 `err2use`; `sqrt` is the square root and `cholesky` tells if
`np.linalg.cholesky` succeeds. -/
def err2use (sqrt : K → K) (cholesky : List (List K) → Bool) (useCov : Bool) (s : VarLss K n c) (iw : Nat)
    (w : List Bool) : Sigma K :=
  let diag := maskSel w (slice ((s.errRow 1).getD []) (iw * c.nv) (iw * c.nv + c.nv))
  let mat := (maskSel w (List.range c.nv)).map (fun a =>
    (maskSel w (List.range c.nv)).map (fun b => s.covVarDelta iw a b))
  if useCov && cholesky mat then .matrix mat else .errors (diag.map sqrt)

/-- py/qsonic/picca_continuum.py:1000-1034 `_get_wave_bin_slice_params` and the arguments of `curve_fit` in
1080-1084: pipeline variances, variances of delta and their errors. -/
def fitArgs (minPix minQso : Nat) (sqrt : K → K) (cholesky : List (List K) → Bool) (useCov : Bool)
    (s : VarLss K n c) (iw : Nat) : Option (List K × List K × Sigma K) :=
  let sl := fun {α : Type} (l : List α) => slice l (iw * c.nv) (iw * c.nv + c.nv)
  (usedMask minPix minQso (sl s.numPixels) (sl s.numQsos)).map (fun w =>
    (maskSel w (sl ((s.meanRow 3).getD [])), maskSel w (sl ((s.meanRow 1).getD [])),
      s.err2use sqrt cholesky useCov iw w))

/-- py/qsonic/picca_continuum.py:1073-1098: one wavelength bin of `fit`; `curveFit` gives the parameters and
their errors or fails. `none` counts as failed. -/
def fitBin (curveFit : List K × List K × Sigma K → List K → Option (List K × List K))
    (args : Option (List K × List K × Sigma K)) (p0 : List K) : Option (List K × List K) :=
  args.bind (fun a => curveFit a p0)

/-- py/qsonic/picca_continuum.py:995-998 `_fit_array_shape_assert`: every row of `initial_guess` is one number
(1D array) or two (2D array). -/
def shapeOk (nw : Nat) (guess : List (List K)) : Bool :=
  decide (guess.length = nw) && (guess.all (fun r => decide (r.length = 1)) || guess.all (fun r => decide (r.length = 2)))

/-- py/qsonic/picca_continuum.py:1036-1118 `fit` after the statistics are calculated; `smooth` is
`_smooth_fit_results` or does nothing. -/
def fit (minPix minQso : Nat) (sqrt : K → K) (cholesky : List (List K) → Bool) (useCov : Bool)
    (curveFit : List K × List K × Sigma K → List K → Option (List K × List K))
    (smooth : List (List K) → List (List K) → List (List K))
    (s : VarLss K n c) (guess : List (List K)) : Except Err (List (List K) × List (List K)) :=
  if shapeOk c.nw guess then
    let res := guess.zipIdx.map (fun g =>
      (g.1, fitBin curveFit (s.fitArgs minPix minQso sqrt cholesky useCov g.2) g.1))
    let nfails := res.countP (fun r => r.2.isNone)
    if c.nw = 0 then .error .zeroDivisionError
    else if (4 / 10 : K) < (nfails : K) / c.nw then .error .qsonic
    else
      let y := res.map (fun r => (r.2.map Prod.fst).getD (r.1.map (fun _ => 0)))
      let e := res.map (fun r => (r.2.map Prod.snd).getD (r.1.map (fun _ => 0)))
      .ok (smooth y e, e)
  else .error .assertionError

end VarLss
end Verif.Model
