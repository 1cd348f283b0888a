import Mathlib.Data.List.Sort
import Mathlib.Algebra.Order.Ring.Rat

/-!
# `scipy.ndimage.median_filter` in one dimension

The mode is `reflect` (the default): `d c b a | a b c d | d c b a`.
-/

namespace Verif.Np

variable {K : Type} [LinearOrder K] [Zero K]

/-- The index in an array of length `n` that stands for position `j` in mode `reflect`.
py/qsonic/mathtools.py:278-280. -/
def reflectIdx (n : Nat) (j : Int) : Nat :=
  let r := (j % (2 * (n : Int))).toNat
  if r < n then r else 2 * n - 1 - r

/-- The values in the window of `size` around position `i`. py/qsonic/mathtools.py:278-280. -/
def window (l : List K) (size i : Nat) : List K :=
  (List.range size).map (fun (k : Nat) => l.getD (reflectIdx l.length ((i : Int) + (k : Int) - ((size / 2 : Nat) : Int))) 0)

/-- `median_filter(l, size)`: the middle one of the sorted values in the window. py/qsonic/mathtools.py:278-280. -/
def medianFilter (l : List K) (size : Nat) : List K :=
  (List.range l.length).map (fun i => ((window l size i).insertionSort (· ≤ ·)).getD (size / 2) 0)

example : medianFilter [(5 : ℚ), 1, 2, 9] 3 = [5, 2, 2, 9] := by decide +kernel

end Verif.Np
