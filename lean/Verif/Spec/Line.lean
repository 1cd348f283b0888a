import Mathlib.Analysis.Real.Pi.Bounds
import Mathlib.Analysis.SpecialFunctions.Pow.Real

/-!
# Absorption by an atomic line

CGS units: charge and mass of the electron, speed of light.
-/

namespace Verif.Spec.Line

noncomputable def charge : ℝ := 4803204 / 10 ^ 16
noncomputable def mass : ℝ := 9109384 / 10 ^ 34
def light : ℝ := 29979245800

/-- Absorption cross section integrated over frequency, for the oscillator strength `f`. -/
noncomputable def strength (f : ℝ) : ℝ := Real.pi * charge ^ 2 / (mass * light) * f

/-- Optical depth in the wing of the Lorentz profile with the damping constant `A`, at the distance `dnu` from the center
(`dnu` much larger than `A`), for `N` atoms per square centimeter. -/
noncomputable def lorentzWing (N f A dnu : ℝ) : ℝ := N * strength f * (A / (4 * Real.pi ^ 2 * dnu ^ 2))

/-- Optical depth of atoms with a Gaussian distribution of velocities `b` (in cm/s) at the distance `dnu` from the
center `nu`. -/
noncomputable def gaussCore (N f b nu dnu : ℝ) : ℝ :=
  N * strength f * (Real.exp (-(dnu / (nu * b / light)) ^ 2) / (√Real.pi * (nu * b / light)))

/-- A line: wavelength in Angstrom, oscillator strength, damping constant per second. -/
structure Transition where
  wave : ℝ
  f : ℝ
  A : ℝ

noncomputable def lya : Transition := ⟨1215.67, 0.41641, 6.2648e8⟩
noncomputable def lyb : Transition := ⟨1025.722, 0.079142, 1.6725e8⟩

/-- Distance from the center of the line of light seen at `wave` Angstrom, absorbed at the redshift `z`: relative. -/
noncomputable def offset (t : Transition) (wave z : ℝ) : ℝ := wave / (1 + z) / t.wave - 1

/-- Wing of the line at this wavelength for `10 ^ n` atoms per square centimeter. -/
noncomputable def wingAt (t : Transition) (wave z n : ℝ) : ℝ :=
  lorentzWing (10 ^ n) t.f t.A (light / (t.wave / 10 ^ 8) * offset t wave z)

/-- Distance in units of the Doppler width `b` (in km/s). -/
noncomputable def doppler (t : Transition) (wave z b : ℝ) : ℝ := offset t wave z / (b * 10 ^ 5 / light)

end Verif.Spec.Line
