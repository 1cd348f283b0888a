import Verif.Np.Err
import Mathlib.Data.List.Sort
import Mathlib.Data.List.Dedup

/-!
# `np.unique`, `np.split`, `np.intersect1d`, `np.isin`, `np.searchsorted`, fancy indexing
-/

namespace Verif.Np
open List

variable {α κ : Type} [LinearOrder κ]

/-- `np.unique(keys)`: the sorted distinct values. py/qsonic/catalog.py:187. -/
def uniqueVals (keys : List κ) : List κ := keys.dedup.insertionSort (· ≤ ·)

/-- `np.unique(keys, return_index=True)[1]`: index of the first occurrence of each value. py/qsonic/catalog.py:187. -/
def uniqueIdx (keys : List κ) : List Nat := (uniqueVals keys).map (fun k => keys.idxOf k)

/-- Python slice `l[i:j]` for `0 ≤ i, j`. py/qsonic/spectrum.py:291-295. -/
def slice (l : List α) (i j : Nat) : List α := (l.take j).drop i

/-- Tail of `np.split`: pieces from `st` on. py/qsonic/catalog.py:188. -/
def splitFrom (l : List α) : Nat → List Nat → List (List α)
  | st, [] => [l.drop st]
  | st, i :: is => slice l st i :: splitFrom l i is

/-- `np.split(l, idx)` for an array of indices. py/qsonic/catalog.py:188. -/
def split (l : List α) (idx : List Nat) : List (List α) := splitFrom l 0 idx

/-- `np.split(l, np.unique(keys, return_index=True)[1][1:])`, as used in py/qsonic/catalog.py:187-188,
py/qsonic/io.py:180-181, 268-269, 524-526, 578-580, 636-639 and py/qsonic/scripts/qsonic_fit.py:398-399. -/
def splitByKey (key : α → κ) (l : List α) : List (List α) :=
  split l (uniqueIdx (l.map key)).tail

/-- `np.searchsorted(l, x)` (side left) on a sorted array: first position with `x ≤ l[i]`.
(numpy bisects; the results agree on sorted arrays, and only there is it used.) (py/qsonic/spectrum.py:255, 323). -/
def searchsorted (l : List κ) (x : κ) : Nat := l.findIdx (fun y => decide (x ≤ y))

/-- Fancy indexing `l[idx]` with a list of non-negative integers. py/qsonic/io.py:407, 594-595. -/
def fancy (l : List α) : List Nat → Except Err (List α)
  | [] => .ok []
  | i :: is =>
    match l[i]?, fancy l is with
    | some x, .ok xs => .ok (x :: xs)
    | some _, .error e => .error e
    | none, _ => .error .indexError

/-- `np.nonzero(np.isin(l, test))[0]`. py/qsonic/io.py:405. -/
def isinIdx (l test : List κ) : List Nat :=
  (List.range l.length).filter (fun i => decide (∃ x, l[i]? = some x ∧ x ∈ test))

/-- `np.intersect1d(a, b, return_indices=True)`: sorted common values. py/qsonic/io.py:334, 396, 472. -/
def intersectVals (a b : List κ) : List κ := (uniqueVals a).filter (· ∈ b)

/-- Second index output of `np.intersect1d(a, b, return_indices=True)` (positions in `b`).
py/qsonic/io.py:396, 472. -/
def intersectIdx₂ (a b : List κ) : List Nat := (intersectVals a b).map (fun k => b.idxOf k)

/-- First index output of `np.intersect1d(a, b, return_indices=True)` (positions in `a`).
The same holds with `assume_unique=True` if both inputs are free of duplicates. py/qsonic/io.py:334, 472. -/
def intersectIdx₁ (a b : List κ) : List Nat := (intersectVals a b).map (fun k => a.idxOf k)

/-- What `keys.argsort()` guarantees: a permutation of the indices that sorts the keys.
numpy's default sort is not stable, so ties may come in any order. py/qsonic/io.py:255, 407. -/
structure IsArgsort (keys : List κ) (idx : List Nat) : Prop where
  perm : idx ~ List.range keys.length
  sorted : idx.Pairwise (fun i j => ∀ x y, keys[i]? = some x → keys[j]? = some y → x ≤ y)

/-- A stable argsort, showing that `IsArgsort` can be met. py/qsonic/io.py:255, 407. -/
def argsortStable (keys : List κ) : List Nat :=
  (keys.zipIdx.insertionSort (fun a b => a.1 ≤ b.1)).map Prod.snd

end Verif.Np
