import Mathlib.RingTheory.Polynomial.ShiftedLegendre
import Mathlib.Data.Real.Basic

/-! Specification: Legendre polynomials on the range `[0, 1]`. -/

namespace Verif.Spec
open Polynomial

/-- The Legendre polynomial of degree `n` on `[0, 1]`, one at the upper end: Mathlib's shifted Legendre polynomial up to
its sign. -/
noncomputable def legendre01 (n : Nat) (t : ℝ) : ℝ := (-1) ^ n * aeval t (shiftedLegendre n)

end Verif.Spec
