import Mathlib.Analysis.SpecialFunctions.Pow.Real
import Mathlib.Analysis.Real.Pi.Bounds

/-!
# Model of the profile of a DLA (`py/qsonic/masks.py:200-351`)

Real numbers with the exact exponential; rounding is not modelled. (In double precision the terms `R**2 * Q` and `Q` of
`H_tepper_garcia` cancel near the center of the line.)
-/

namespace Verif.Model.Dla

/-- py/qsonic/masks.py:13 `LIGHT_SPEED` in km/s. -/
noncomputable def lightSpeed : ℝ := 299792458 / 1000

/-- py/qsonic/masks.py:221-222. -/
noncomputable def cCms : ℝ := lightSpeed * 10 ^ 5

/-- py/qsonic/masks.py:217-224: `qe`, `me` and `aij_coeff`. -/
noncomputable def aijCoeff : ℝ := Real.pi * (4803204 / 10 ^ 16) ^ 2 / (9109384 / 10 ^ 34) / cCms

/-- py/qsonic/masks.py:247-266 `H_tepper_garcia`. -/
noncomputable def hTepperGarcia (a u : ℝ) : ℝ :=
  let P := u ^ 2 + 1 / 10 ^ 12
  let Q := 3 / 2 / P
  let R := Real.exp (-P)
  R - (R ^ 2 * (4 * P ^ 2 + 7 * P + 4 + Q) - Q - 1) * (a / P / √Real.pi)

/-- py/qsonic/masks.py:269-287 `voigt_tepper_garcia`. -/
noncomputable def voigt (x sigma gamma : ℝ) : ℝ := hTepperGarcia (gamma / sigma) (x / sigma)

/-- py/qsonic/masks.py:290-322 `get_optical_depth`. -/
noncomputable def opticalDepth (wave lambda12 log10N b f12 A12 : ℝ) : ℝ :=
  let a12 := aijCoeff * f12
  let gamma := A12 * lambda12 * (1 / 10 ^ 8) / 4 / Real.pi / cCms
  let sigma := b / lightSpeed
  voigt (wave / lambda12 - 1) sigma gamma * (a12 * (10 : ℝ) ^ (log10N - 13) * (lambda12 / b) / √Real.pi)

/-- py/qsonic/masks.py:226-242, 325-351 `get_dla_flux` at one wavelength, with the constants of Lya and Lyb. -/
noncomputable def dlaFlux (b wave z nhi : ℝ) : ℝ :=
  let waveRf := wave / (1 + z)
  Real.exp (-(opticalDepth waveRf (121567 / 100) nhi b (41641 / 100000) (62648 * 10 ^ 4) +
    opticalDepth waveRf (10257220 / 10000) nhi b (79142 / 1000000) (16725 * 10 ^ 4)))

end Verif.Model.Dla
