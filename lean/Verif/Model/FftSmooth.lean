import Mathlib.Analysis.SpecialFunctions.Trigonometric.Basic
import Mathlib.Analysis.SpecialFunctions.Exp
import Mathlib.Algebra.Order.Floor.Ring
import Mathlib.Algebra.BigOperators.Intervals
import Mathlib.Algebra.Order.Archimedean.Real.Basic
import Verif.Np.Err
import Verif.Np.Unique

/-!
# Model of `fft_gaussian_smooth` (`py/qsonic/mathtools.py:218-247`)

Real numbers; rounding is not modelled. A complex number is the pair of its real and imaginary part. `np.fft.rfft`,
`np.fft.irfft` and `np.fft.rfftfreq` are given by their definitions in the documentation of numpy.
-/

namespace Verif.Model.Fft
open Verif.Np
open scoped BigOperators

/-- `np.fft.rfftfreq(n)`: cycles per sample. py/qsonic/mathtools.py:242. -/
noncomputable def rfftfreq (n : Nat) : List ℝ := (List.range (n / 2 + 1)).map (fun k : Nat => (k : ℝ) / n)

/-- `np.fft.rfft(a)`: `sum_j a[j] exp(-2 pi i j k / n)` for `k = 0 ... n // 2`. py/qsonic/mathtools.py:243. -/
noncomputable def rfft (a : List ℝ) : List (ℝ × ℝ) :=
  (List.range (a.length / 2 + 1)).map (fun k : Nat =>
    (∑ j ∈ Finset.range a.length, a.getD j 0 * Real.cos (2 * Real.pi * (j * k) / a.length),
      -∑ j ∈ Finset.range a.length, a.getD j 0 * Real.sin (2 * Real.pi * (j * k) / a.length)))

/-- `np.fft.irfft(X, n)`: the inverse transform, where the negative frequencies are the complex conjugates of the positive
ones, i.e. all but the first and, for even `n`, the last one count twice. py/qsonic/mathtools.py:245. -/
noncomputable def irfft (X : List (ℝ × ℝ)) (n : Nat) : List ℝ :=
  (List.range n).map (fun m : Nat => (∑ k ∈ Finset.range (n / 2 + 1), (if k = 0 ∨ 2 * k = n then 1 else 2) *
    ((X.getD k (0, 0)).1 * Real.cos (2 * Real.pi * (k * m) / n) -
      (X.getD k (0, 0)).2 * Real.sin (2 * Real.pi * (k * m) / n))) / n)

/-- `np.pad(x, p, mode='edge')`; an empty array is refused. py/qsonic/mathtools.py:240. -/
def padEdge (x : List ℝ) (p : Nat) : Except Err (List ℝ) :=
  match x with
  | [] => .error .valueError
  | a :: l => .ok (List.replicate p a ++ (a :: l) ++ List.replicate p ((a :: l).getLast (by simp)))

/-- py/qsonic/mathtools.py:238: `pad_size`. -/
noncomputable def padSize (sigma : ℝ) : Nat := max 1 ⌊3 * sigma⌋.toNat

/-- py/qsonic/mathtools.py:242-245: the padded array after filtering, before it is cut. -/
noncomputable def filter (a : List ℝ) (sigma : ℝ) : List ℝ :=
  irfft (List.zipWith (fun X k => (X.1 * Real.exp (-(k * sigma) ^ 2 / 2), X.2 * Real.exp (-(k * sigma) ^ 2 / 2)))
    (rfft a) (rfftfreq a.length)) a.length

/-- py/qsonic/mathtools.py:218-247 `fft_gaussian_smooth` with `mode='edge'`. -/
noncomputable def fftGaussianSmooth (x : List ℝ) (sigma : ℝ) : Except Err (List ℝ) :=
  (padEdge x (padSize sigma)).map (fun a =>
    slice (filter a sigma) (padSize sigma) (a.length - padSize sigma))

end Verif.Model.Fft
