import Mathlib.Algebra.BigOperators.Fin
import Mathlib.Algebra.Field.Defs
import Mathlib.Data.Fintype.BigOperators
import Verif.Np.Err

/-!
# Model of `SubsampleCov` (`py/qsonic/mathtools.py:439-707`)

Arrays of shape `(n, m, d)` are functions on `Fin n × Fin m × Fin d`: `n` samples, `m` data sets that share
weights, `d` data points. Arithmetic is exact; `eps` is `np.finfo(float).eps`. Not modelled: arrays of a wrong
shape (numpy raises), `ndata` that is neither int nor tuple.
-/

namespace Verif.Model
open Verif
open scoped BigOperators

variable {K : Type} [Field K] [DecidableEq K]

/-- The object. `covariance` has one entry per data set, `None` where it was not asked for; an entry is the
full matrix or the blocks. py/qsonic/mathtools.py:492-513. -/
structure Subsample (K : Type) (n m d : Nat) where
  istart : Fin n
  isample : Fin n
  x : Fin n → Fin m → Fin d → K
  w : Fin n → Fin d → K
  normalized : Bool
  mean : Option (Fin m → Fin d → K)
  xdiff : Option (Fin n → Fin m → Fin d → K)
  variance : Option (Fin m → Fin d → K)
  covariance : Option (Fin m → Option ((Fin d → Fin d → K) ⊕ (Nat → Nat → Nat → K)))

namespace Subsample
variable {n m d : Nat}

/-- py/qsonic/mathtools.py:492-513 `__init__`; `istart % nsamples` needs at least one sample. -/
def new (h : 0 < n) (istart : Nat) : Subsample K n m d :=
  { istart := ⟨istart % n, Nat.mod_lt _ h⟩, isample := ⟨istart % n, Nat.mod_lt _ h⟩, x := fun _ _ _ => 0,
    w := fun _ _ => 0, normalized := false, mean := none, xdiff := none, variance := none,
    covariance := none }

/-- `(i + 1) % nsamples`. py/qsonic/mathtools.py:515-544. -/
def next (i : Fin n) : Fin n := ⟨(i.val + 1) % n, Nat.mod_lt _ (lt_of_le_of_lt (Nat.zero_le _) i.isLt)⟩

/-- py/qsonic/mathtools.py:515-544 `add_measurement`. -/
def add (s : Subsample K n m d) (xvec : Fin m → Fin d → K) (wvec : Fin d → K) :
    Except Err (Subsample K n m d) :=
  if s.normalized then .error .runtimeError
  else .ok { s with
    x := Function.update s.x s.isample (fun j k => s.x s.isample j k + xvec j k)
    w := Function.update s.w s.isample (fun k => s.w s.isample k + wvec k)
    isample := next s.isample }

/-- py/qsonic/mathtools.py:546-562 `allreduce` of the objects of all ranks: the arrays become the sums over
the ranks (there is no check of `_is_normalized`). -/
def allreduce (ranks : List (Subsample K n m d)) : List (Subsample K n m d) :=
  let x : Fin n → Fin m → Fin d → K := fun i j k => (ranks.map (fun s => s.x i j k)).sum
  let w : Fin n → Fin d → K := fun i k => (ranks.map (fun s => s.w i k)).sum
  ranks.map (fun s => { s with x := x, w := w })

/-- `np.divide(a, b, out=a, where=b != 0)`. py/qsonic/mathtools.py:564-572. -/
def divWhere (a b : K) : K := if b = 0 then a else a / b

/-- py/qsonic/mathtools.py:564-572 `_normalize`. -/
def normalize (s : Subsample K n m d) : Subsample K n m d :=
  { s with
    x := fun i j k => divWhere (s.x i j k) (s.w i k)
    w := fun i k => divWhere (s.w i k) (∑ i', s.w i' k)
    normalized := true }

/-- py/qsonic/mathtools.py:587-588. -/
def normalized' (s : Subsample K n m d) : Subsample K n m d := if s.normalized then s else s.normalize

/-- py/qsonic/mathtools.py:590-591. -/
def meanOf (s : Subsample K n m d) : Fin m → Fin d → K := fun j k => ∑ i, s.x i j k * s.w i k

/-- py/qsonic/mathtools.py:574-593 `get_mean`; the result is the new `mean`. -/
def getMean (s : Subsample K n m d) : Subsample K n m d :=
  let s := s.normalized'
  { s with mean := some s.meanOf }

/-- py/qsonic/mathtools.py:597-599: the means with one sample removed. -/
def jackOf (eps : K) (s : Subsample K n m d) (mean : Fin m → Fin d → K) : Fin n → Fin m → Fin d → K :=
  fun i j k => (mean j k - s.x i j k * s.w i k) / (1 - s.w i k + eps)

/-- py/qsonic/mathtools.py:600. -/
def jackMean (eps : K) (s : Subsample K n m d) (mean : Fin m → Fin d → K) : Fin m → Fin d → K :=
  fun j k => (∑ i, s.jackOf eps mean i j k) / n

/-- py/qsonic/mathtools.py:595-608 `_get_xdiff`: the mean, corrected for bias if wanted, and the
differences. -/
def xdiffOf (eps : K) (s : Subsample K n m d) (mean : Fin m → Fin d → K) (bias : Bool) :
    (Fin m → Fin d → K) × (Fin n → Fin m → Fin d → K) :=
  (if bias then fun j k => mean j k - ((n : K) - 1) * (s.jackMean eps mean j k - mean j k) else mean,
    fun i j k => s.jackOf eps mean i j k - s.jackMean eps mean j k)

/-- py/qsonic/mathtools.py:643-645 and 687-689. -/
def ensureMean (eps : K) (s : Subsample K n m d) (bias : Bool) : Subsample K n m d :=
  match s.mean with
  | some _ => s
  | none =>
    let s := s.getMean
    let r := s.xdiffOf eps (s.mean.getD (fun _ _ => 0)) bias
    { s with mean := some r.1, xdiff := some r.2 }

/-- py/qsonic/mathtools.py:658: the matrix of one data set. -/
def covOf (xd : Fin n → Fin m → Fin d → K) (j : Fin m) : Fin d → Fin d → K :=
  fun a b => (∑ i, xd i j a * xd i j b) * ((n : K) - 1) / n

/-- A data point by its number, 0 outside. py/qsonic/mathtools.py:610-617. -/
def atNat (f : Fin d → K) (a : Nat) : K := if h : a < d then f ⟨a, h⟩ else 0

/-- py/qsonic/mathtools.py:610-617 `_get_block_covariance`, as a function of block and position in the block
(below `d / blockdim` and `blockdim`). -/
def blocksOf (xd : Fin n → Fin m → Fin d → K) (j : Fin m) (blockdim : Nat) : Nat → Nat → Nat → K :=
  fun kk a b => (∑ i, atNat (xd i j) (kk * blockdim + a) * atNat (xd i j) (kk * blockdim + b)) *
    ((n : K) - 1) / n

/-- py/qsonic/mathtools.py:657-661. -/
def covEntry (xd : Fin n → Fin m → Fin d → K) (blockdim : Option Nat) (j : Fin m) :
    (Fin d → Fin d → K) ⊕ (Nat → Nat → Nat → K) :=
  match blockdim with
  | none => .inl (covOf xd j)
  | some b => .inr (blocksOf xd j b)

/-- py/qsonic/mathtools.py:650-651: the assertion on `blockdim`. -/
def checkBlock (d : Nat) (blockdim : Option Nat) : Except Err Unit :=
  match blockdim with
  | none => .ok ()
  | some 0 => .error .zeroDivisionError
  | some b => if d % b = 0 then .ok () else .error .assertionError

/-- py/qsonic/mathtools.py:653-662. `xdiff` is `None` after `get_mean`; then subscripting it fails as soon as
there is an index. -/
def covariances (xdiff : Option (Fin n → Fin m → Fin d → K)) (indices : List (Fin m)) (blockdim : Option Nat) :
    Except Err (Fin m → Option ((Fin d → Fin d → K) ⊕ (Nat → Nat → Nat → K))) :=
  match xdiff with
  | some xd => .ok (fun j => if j ∈ indices then some (covEntry xd blockdim j) else none)
  | none => if indices = [] then .ok (fun _ => none) else .error .typeError

/-- py/qsonic/mathtools.py:619-665 `get_mean_n_cov`: the object afterwards (`mean` and `covariance` are what
is returned) and an exception, if one was raised. Simplification: `indices` are valid. -/
def getMeanNCov (eps : K) (s : Subsample K n m d) (indices : Option (List (Fin m)))
    (blockdim : Option Nat) (bias : Bool) : Subsample K n m d × Option Err :=
  let s := s.ensureMean eps bias
  match checkBlock d blockdim with
  | .error e => (s, some e)
  | .ok () =>
    match covariances s.xdiff (indices.getD (List.finRange m)) blockdim with
    | .error e => ({ s with covariance := some (fun _ => none) }, some e)
    | .ok c => ({ s with covariance := some c }, none)

/-- py/qsonic/mathtools.py:691-692. -/
def varOf (xd : Fin n → Fin m → Fin d → K) : Fin m → Fin d → K :=
  fun j k => (∑ i, xd i j k * xd i j k) * ((n : K) - 1) / n

/-- py/qsonic/mathtools.py:667-695 `get_mean_n_var`; `np.einsum` of `None` raises. -/
def getMeanNVar (eps : K) (s : Subsample K n m d) (bias : Bool) : Subsample K n m d × Option Err :=
  let s := s.ensureMean eps bias
  match s.xdiff with
  | some xd => ({ s with variance := some (varOf xd) }, none)
  | none => (s, some .valueError)

/-- py/qsonic/mathtools.py:697-707 `reset`. -/
def reset (s : Subsample K n m d) : Subsample K n m d :=
  { s with
    isample := s.istart, x := fun _ _ _ => 0, w := fun _ _ => 0, normalized := false, mean := none,
    xdiff := none, variance := none, covariance := none }

end Subsample
end Verif.Model
