import Verif.Model.VarLss
import Verif.Model.StackFl

/-!
# `VarLSSFitter.add` with NaN and infinities

What `update_var_lss_eta` adds for a pixel, the sums of `add` in the bins, and the means and jackknife errors over all
ranks, on floating point special values.
-/

namespace Verif.Model
open Verif Verif.Np

variable {K : Type} [Field K] [LinearOrder K]

namespace FlPix

/-- `delta = flux / cont - 1`. py/qsonic/picca_continuum.py:443-444. -/
def delta (p : FlPix K) : Fl K := Fl.add (Fl.div p.flux p.cont) (.fin (-1))

/-- `ivar = forestivar * cont**2`; here `ivar` of the pixel is `forestivar`. py/qsonic/picca_continuum.py:445. -/
def ivarC (p : FlPix K) : Fl K := Fl.mul p.ivar (Fl.mul p.cont p.cont)

end FlPix

namespace VarCfg

omit [Field K] in
/-- py/qsonic/picca_continuum.py:905 `ivar_indx`: numpy sorts NaN behind all numbers. -/
def ivarIdxFl (c : VarCfg K) : Fl K → Nat
  | .fin v => c.ivarIdx v
  | .ninf => 0
  | _ => c.edges.length

/-- py/qsonic/picca_continuum.py:906 `all_indx`. -/
def allIdxFl [FloorRing K] (c : VarCfg K) (p : FlPix K) : Nat := c.ivarIdxFl p.ivarC + c.waveIdx p.wave * (c.nv + 2)

end VarCfg

/-- py/qsonic/picca_continuum.py:907-909 `var`. -/
def pixVarFl (ivar : Fl K) : Fl K := if Fl.lt (.fin 0) ivar then Fl.div (.fin 1) ivar else .fin 0

/-- py/qsonic/picca_continuum.py:684-696: what is summed in the rows of `xvec`. -/
def pixRowFl (p : FlPix K) (j : Fin 4) : Fl K :=
  if j = 0 then p.delta else if j = 1 then Fl.mul p.delta p.delta
  else if j = 2 then Fl.mul (Fl.mul p.delta p.delta) (Fl.mul p.delta p.delta) else pixVarFl p.ivarC

/-- py/qsonic/picca_continuum.py:911: `np.bincount`. -/
def npixFl [FloorRing K] (c : VarCfg K) (l : List (FlPix K)) (k : Nat) : Nat := l.countP (fun p => c.allIdxFl p = k)

/-- py/qsonic/picca_continuum.py:684-696 `_fast_weighted_vector_bincount`. -/
def xvecFl [FloorRing K] (c : VarCfg K) (l : List (FlPix K)) (j : Fin 4) (k : Nat) : Fl K :=
  Fl.sum ((l.filter (fun p => c.allIdxFl p = k)).map (fun p => pixRowFl p j))

/-- The object `VarLSSFitter` with its subsampler before normalisation; arrays are functions of the index, the weights
of the subsampler are counts. py/qsonic/picca_continuum.py:838-858, py/qsonic/mathtools.py:492-513. -/
structure VarLssFl (K : Type) (n : Nat) where
  numPix : Nat → Nat
  numQso : Nat → Nat
  isample : Fin n
  x : Fin n → Fin 4 → Nat → Fl K
  w : Fin n → Nat → Nat

namespace VarLssFl
variable {n : Nat}

/-- `__init__` on rank `rank` of `size` ranks. py/qsonic/picca_continuum.py:838-858, py/qsonic/mathtools.py:492-513. -/
def new (h : 0 < n) (rank size : Nat) : VarLssFl K n :=
  { numPix := fun _ => 0, numQso := fun _ => 0, isample := ⟨((rank * n) / size) % n, Nat.mod_lt _ h⟩,
    x := fun _ _ _ => .fin 0, w := fun _ _ => 0 }

/-- py/qsonic/picca_continuum.py:885-917 `add` with py/qsonic/mathtools.py:515-544 `add_measurement`; the exceptions are
in Model/VarLss.lean. -/
def add [FloorRing K] (c : VarCfg K) (s : VarLssFl K n) (l : List (FlPix K)) : VarLssFl K n :=
  { numPix := fun k => s.numPix k + npixFl c l k
    numQso := fun k => s.numQso k + (if 0 < npixFl c l k then 1 else 0)
    isample := Subsample.next s.isample
    x := Function.update s.x s.isample (fun j k => Fl.add (s.x s.isample j k) (xvecFl c l j k))
    w := Function.update s.w s.isample (fun k => s.w s.isample k + npixFl c l k) }

/-- `add` for all forests of a rank. py/qsonic/picca_continuum.py:440-447. -/
def addList [FloorRing K] (c : VarCfg K) (s : VarLssFl K n) (ls : List (List (FlPix K))) : VarLssFl K n :=
  ls.foldl (add c) s

/-- The objects of all ranks, each with its own forests. py/qsonic/picca_continuum.py:428-447. -/
def ofRanks [FloorRing K] (c : VarCfg K) (h : 0 < n) (ranks : List (List (List (FlPix K)))) : List (VarLssFl K n) :=
  ranks.zipIdx.map (fun r => addList c (new h r.2 ranks.length) r.1)

/-- py/qsonic/picca_continuum.py:935-939, py/qsonic/mathtools.py:561-562: `_num_pixels` summed over all ranks. -/
def totPix (ranks : List (VarLssFl K n)) (k : Nat) : Nat := (ranks.map (fun s => s.numPix k)).sum

/-- py/qsonic/picca_continuum.py:935-939: `_num_qso` summed over all ranks. -/
def totQso (ranks : List (VarLssFl K n)) (k : Nat) : Nat := (ranks.map (fun s => s.numQso k)).sum

/-- py/qsonic/mathtools.py:561: `all_measurements` summed over all ranks. -/
def totX (ranks : List (VarLssFl K n)) (i : Fin n) (j : Fin 4) (k : Nat) : Fl K :=
  Fl.sum (ranks.map (fun s => s.x i j k))

/-- py/qsonic/mathtools.py:562: `all_weights` summed over all ranks. -/
def totW (ranks : List (VarLssFl K n)) (i : Fin n) (k : Nat) : Nat := (ranks.map (fun s => s.w i k)).sum

/-- py/qsonic/mathtools.py:565-567: `np.divide(a, b, out=a, where=b != 0)`. -/
def divWhere (a : Fl K) (w : Nat) : Fl K := if w = 0 then a else Fl.div a (.fin (w : K))

/-- py/qsonic/mathtools.py:564-593: `_normalize` and `get_mean` after the sums over the ranks. -/
def mean (ranks : List (VarLssFl K n)) (j : Fin 4) (k : Nat) : Fl K :=
  let norm := ((List.finRange n).map (fun i => totW ranks i k)).sum
  Fl.sum ((List.finRange n).map (fun i =>
    Fl.mul (divWhere (totX ranks i j k) (totW ranks i k)) (divWhere (.fin (totW ranks i k : K)) norm)))

/-- `a - b`; numpy has the difference as the sum with the negative. py/qsonic/picca_continuum.py:947-948. -/
def sub (a b : Fl K) : Fl K := Fl.add a (Fl.mul (.fin (-1)) b)

/-- py/qsonic/picca_continuum.py:946-951: the rows of `mean` on all ranks after `calculate_subsampler_stats`. -/
def stats (ranks : List (VarLssFl K n)) (j : Fin 4) (k : Nat) : Fl K :=
  let v := sub (mean ranks 1 k) (Fl.mul (mean ranks 0 k) (mean ranks 0 k))
  if j = 1 then v
  else if j = 2 then divWhere (sub (mean ranks 2 k) (Fl.mul v v)) (totPix ranks k)
  else mean ranks j k

/-- py/qsonic/mathtools.py:565-567: `all_measurements` after `_normalize`. -/
def normX (ranks : List (VarLssFl K n)) (i : Fin n) (j : Fin 4) (k : Nat) : Fl K :=
  divWhere (totX ranks i j k) (totW ranks i k)

/-- py/qsonic/mathtools.py:568-571: `all_weights` after `_normalize`. -/
def normW (ranks : List (VarLssFl K n)) (i : Fin n) (k : Nat) : Fl K :=
  divWhere (.fin (totW ranks i k : K)) ((List.finRange n).map (fun i => totW ranks i k)).sum

/-- py/qsonic/mathtools.py:597-599 `jack_i`; `eps` is `np.finfo(float).eps`. -/
def jack (eps : K) (ranks : List (VarLssFl K n)) (i : Fin n) (j : Fin 4) (k : Nat) : Fl K :=
  Fl.div (sub (mean ranks j k) (Fl.mul (normX ranks i j k) (normW ranks i k)))
    (Fl.add (sub (.fin 1) (normW ranks i k)) (.fin eps))

/-- py/qsonic/mathtools.py:600-606 `xdiff`: the difference to `mean_jack`. -/
def xdiff (eps : K) (ranks : List (VarLssFl K n)) (i : Fin n) (j : Fin 4) (k : Nat) : Fl K :=
  sub (jack eps ranks i j k)
    (Fl.div (Fl.sum ((List.finRange n).map (fun i' => jack eps ranks i' j k))) (.fin (n : K)))

/-- py/qsonic/mathtools.py:691-692 `variance`. -/
def variance (eps : K) (ranks : List (VarLssFl K n)) (j : Fin 4) (k : Nat) : Fl K :=
  Fl.div (Fl.mul (Fl.sum ((List.finRange n).map (fun i => Fl.mul (xdiff eps ranks i j k) (xdiff eps ranks i j k))))
    (.fin ((n : K) - 1))) (.fin (n : K))

/-- py/qsonic/picca_continuum.py:960-968: the rows of `variance` on all ranks after `calculate_subsampler_stats` without
covariance. A comparison with NaN is false. -/
def errs (eps : K) (ranks : List (VarLssFl K n)) (j : Fin 4) (k : Nat) : Fl K :=
  if j = 1 then
    let v0 := variance eps ranks 0 k
    let v := Fl.add (Fl.add (variance eps ranks 1 k)
      (Fl.mul (Fl.mul (.fin 4) (Fl.mul (mean ranks 0 k) (mean ranks 0 k))) v0)) (Fl.mul (.fin 2) (Fl.mul v0 v0))
    if Fl.lt (stats ranks 2 k) v then v else stats ranks 2 k
  else variance eps ranks j k

/-- py/qsonic/mathtools.py:610-617, 653-662: the element of `covariance[j]` of the points `k` and `l` of a block. -/
def cov (eps : K) (ranks : List (VarLssFl K n)) (j : Fin 4) (k l : Nat) : Fl K :=
  Fl.div (Fl.mul (Fl.sum ((List.finRange n).map (fun i => Fl.mul (xdiff eps ranks i j k) (xdiff eps ranks i j l))))
    (.fin ((n : K) - 1))) (.fin (n : K))

/-- py/qsonic/picca_continuum.py:953-957, py/qsonic/mathtools.py:198-215 `block_covariance_of_square`: the element of
`covariance[1]` of the points `k` and `l` of a block after `calculate_subsampler_stats` with covariance. -/
def covVar (eps : K) (ranks : List (VarLssFl K n)) (k l : Nat) : Fl K :=
  let v := variance eps ranks 0
  let m := mean ranks 0
  let c0 := cov eps ranks 0 k l
  Fl.add (cov eps ranks 1 k l)
    (Fl.add (Fl.add (Fl.add (Fl.mul (v k) (v l)) (Fl.mul c0 c0)) (Fl.mul (Fl.mul (.fin 2) c0) (Fl.mul (m k) (m l))))
      (Fl.add (Fl.mul (v k) (Fl.mul (m l) (m l))) (Fl.mul (v l) (Fl.mul (m k) (m k)))))

end VarLssFl

end Verif.Model
