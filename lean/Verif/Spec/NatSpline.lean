import Mathlib.MeasureTheory.Integral.IntervalIntegral.Basic

/-! Specification of natural cubic splines on any grid. -/

namespace Verif.Spec

/-- A cubic polynomial, in the distance to the left end of its interval. -/
structure Cubic where
  a : ℝ
  b : ℝ
  c : ℝ
  d : ℝ

namespace Cubic

def val (p : Cubic) (u : ℝ) : ℝ := p.a + p.b * u + p.c * u ^ 2 + p.d * u ^ 3

/-- First derivative. -/
def der (p : Cubic) (u : ℝ) : ℝ := p.b + 2 * p.c * u + 3 * p.d * u ^ 2

/-- Second derivative. -/
def der2 (p : Cubic) (u : ℝ) : ℝ := 2 * p.c + 6 * p.d * u

end Cubic

/-- The cubics `p i` on the intervals between the nodes `x` are the natural cubic spline through the values `y`: they
go through the values, first and second derivatives are continuous, and the second derivative vanishes at the ends. -/
structure IsNatSpline (x y : List ℝ) (p : Nat → Cubic) : Prop where
  left : ∀ i (h : i + 1 < x.length), (p i).val 0 = y.getD i 0
  right : ∀ i (h : i + 1 < x.length), (p i).val (x[i + 1] - x[i]) = y.getD (i + 1) 0
  der : ∀ i (h : i + 2 < x.length), (p i).der (x[i + 1] - x[i]) = (p (i + 1)).der 0
  der2 : ∀ i (h : i + 2 < x.length), (p i).der2 (x[i + 1] - x[i]) = (p (i + 1)).der2 0
  first : (p 0).der2 0 = 0
  last : ∀ i (h : i + 2 = x.length), (p i).der2 (x[i + 1] - x[i]) = 0

/-- The integral over all intervals. -/
noncomputable def splineArea (x : List ℝ) (p : Nat → Cubic) : ℝ :=
  ((List.range (x.length - 1)).map (fun i : Nat => ∫ u in (0 : ℝ)..(x.getD (i + 1) 0 - x.getD i 0), (p i).val u)).sum

end Verif.Spec
