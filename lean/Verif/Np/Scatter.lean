import Verif.Np.Err
import Mathlib.Algebra.Ring.Defs
import Mathlib.Data.List.Basic

/-!
# Assignment through an index array: `a[idx] += v`, `a[idx] = v`
-/

namespace Verif.Np

variable {K : Type}

/-- Index into an array of length `n`: negative indices count from the end. py/qsonic/spectrum.py:629-631. -/
def normIdx (n : Nat) (i : Int) : Except Err Nat :=
  if 0 ≤ i then (if i.toNat < n then .ok i.toNat else .error .indexError)
  else if 0 ≤ i + n then .ok (i + n).toNat else .error .indexError

/-- Put the values at the indices, one after the other. py/qsonic/spectrum.py:629-631. -/
def putAll (a : List K) (l : List (Nat × K)) : List K := l.foldl (fun r p => r.set p.1 p.2) a

/-- `a[idx] = v`: of values for the same index the last one stays. Arrays `idx` and `v` of different
length are cut to the shorter (numpy raises). py/qsonic/spectrum.py:645. -/
def scatterSet (a : List K) (idx : List Int) (v : List K) : Except Err (List K) := do
  let js ← idx.mapM (normIdx a.length)
  pure (putAll a (js.zip v))

/-- `a[idx] += v`: numpy evaluates `a[idx] + v` first and then assigns, so that values for the same
index are not accumulated. py/qsonic/spectrum.py:629-631. -/
def scatterAdd [Add K] [Zero K] (a : List K) (idx : List Int) (v : List K) :
    Except Err (List K) := do
  let js ← idx.mapM (normIdx a.length)
  pure (putAll a ((js.zip v).map (fun p => (p.1, a.getD p.1 0 + p.2))))

end Verif.Np
