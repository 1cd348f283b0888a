import Mathlib.Algebra.Field.Defs

/-!
# Model of `block_covariance_of_square` (`py/qsonic/mathtools.py:172-215`)
-/

namespace Verif.Model

variable {K : Type} [Field K]

/-- py/qsonic/mathtools.py:200-215: the element `(a, b)` of block `jj`, where the blocks have `ndata` rows;
`v[a]` of the block is `var[jj * ndata + a]`. -/
def blockCovSquare (mean var : Nat → K) (cov : Nat → Nat → Nat → K) (ndata jj a b : Nat) : K :=
  let v := fun i => var (jj * ndata + i)
  let m := fun i => mean (jj * ndata + i)
  v a * v b + cov jj a b ^ 2 + 2 * cov jj a b * (m a * m b) + (v a * m b ^ 2 + v b * m a ^ 2)

end Verif.Model
