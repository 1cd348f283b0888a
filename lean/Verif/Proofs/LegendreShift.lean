import Verif.Proofs.Legendre
import Verif.Spec.Legendre

/-!
# Lemmas: the recurrence gives the shifted Legendre polynomials
-/

namespace Verif.Proofs
open Verif.Model Verif.Spec Polynomial

noncomputable def legShift (n : Nat) : ℝ[X] := (legPoly n).comp (1 - 2 * X)

theorem legShift_ode (n : Nat) :
    derivative ((X ^ 2 - X) * derivative (legShift n)) = (n : ℝ[X]) * ((n : ℝ[X]) + 1) * legShift n := by
  have e := congrArg (fun p : ℝ[X] => p.comp (1 - 2 * X)) (legPoly_ode n)
  simp only [mul_comp, add_comp, natCast_comp, one_comp] at e
  change _ = _ * legShift n at e
  have h1 : derivative (legShift n) = -2 * (derivative (legPoly n)).comp (1 - 2 * X) := by
    unfold legShift
    rw [derivative_comp]
    simp
  have h2 : derivative (((X ^ 2 - 1) * derivative (legPoly n)).comp (1 - 2 * X)) =
      -2 * (derivative ((X ^ 2 - 1) * derivative (legPoly n))).comp (1 - 2 * X) := by
    rw [derivative_comp]
    simp
  have h3 : ((X ^ 2 - 1) * derivative (legPoly n)).comp (1 - 2 * X) = -2 * ((X ^ 2 - X) * derivative (legShift n)) := by
    rw [h1, mul_comp, sub_comp, pow_comp, X_comp, one_comp]
    ring
  rw [h3, e] at h2
  have h4 : derivative (-2 * ((X ^ 2 - X) * derivative (legShift n))) =
      -2 * derivative ((X ^ 2 - X) * derivative (legShift n)) := by
    rw [derivative_mul]
    simp
  rw [h4] at h2
  exact mul_left_cancel₀ (by simp : (-2 : ℝ[X]) ≠ 0) h2

theorem legShift_coeff_succ (n k : Nat) :
    ((k : ℝ) + 1) ^ 2 * (legShift n).coeff (k + 1) =
      ((k : ℝ) * (k + 1) - n * (n + 1)) * (legShift n).coeff k := by
  have e := congrArg (fun p : ℝ[X] => p.coeff k) (legShift_ode n)
  have hn : (n : ℝ[X]) * ((n : ℝ[X]) + 1) = C ((n : ℝ) * (n + 1)) := by simp
  rw [hn, coeff_C_mul, coeff_derivative, sub_mul, coeff_sub, pow_two, mul_assoc, coeff_X_mul, coeff_X_mul] at e
  cases k with
  | zero =>
    simp [coeff_derivative] at e ⊢
    linarith
  | succ k =>
    rw [coeff_X_mul, coeff_derivative, coeff_derivative] at e
    push_cast at e ⊢
    linarith

theorem shiftedLegendre_coeff_succ (n k : Nat) :
    ((k : ℝ) + 1) ^ 2 * ((shiftedLegendre n).coeff (k + 1) : ℝ) =
      ((k : ℝ) * (k + 1) - n * (n + 1)) * ((shiftedLegendre n).coeff k : ℝ) := by
  rw [coeff_shiftedLegendre, coeff_shiftedLegendre]
  push_cast
  have h1 : (n.choose (k + 1) : ℝ) * (k + 1) = n.choose k * ((n : ℝ) - k) := by
    rcases Nat.lt_or_ge n k with h | h
    · rw [Nat.choose_eq_zero_of_lt h, Nat.choose_eq_zero_of_lt (by omega)]
      simp
    · have := Nat.choose_succ_right_eq n k
      rw [← Nat.cast_sub h]
      exact_mod_cast this
  have h2 : ((n + (k + 1)).choose n : ℝ) * (k + 1) = (n + k).choose n * ((n : ℝ) + k + 1) := by
    have := Nat.choose_mul_succ_eq (n + k) n
    rw [show n + k + 1 - n = k + 1 by omega] at this
    have h := congrArg (fun i : Nat => (i : ℝ)) this
    push_cast at h
    rw [show n + (k + 1) = n + k + 1 from rfl]
    linarith
  rw [pow_succ]
  linear_combination (-(-1 : ℝ) ^ k * ((n + (k + 1)).choose n : ℝ) * (k + 1)) * h1 -
    ((-1 : ℝ) ^ k * (n.choose k : ℝ) * ((n : ℝ) - k)) * h2

theorem legShift_eq (n : Nat) : legShift n = (shiftedLegendre n).map (Int.castRingHom ℝ) := by
  ext k
  rw [coeff_map]
  induction k with
  | zero =>
    have : (legShift n).coeff 0 = 1 := by
      rw [coeff_zero_eq_eval_zero]
      unfold legShift
      rw [eval_comp]
      simp [legPoly_one]
    rw [this, coeff_shiftedLegendre]
    simp
  | succ k ih =>
    have hp : (0 : ℝ) < ((k : ℝ) + 1) ^ 2 := by positivity
    refine mul_left_cancel₀ hp.ne' ?_
    rw [legShift_coeff_succ, ih]
    exact (shiftedLegendre_coeff_succ n k).symm

/-- The recurrence of the model. -/
theorem legendre_shift (n : Nat) (t : ℝ) : legendre n (2 * t - 1) = legendre01 n t := by
  unfold legendre01
  have h : (legPoly n).eval (1 - 2 * t) = aeval t (shiftedLegendre n) := by
    have := congrArg (eval t) (legShift_eq n)
    unfold legShift at this
    rw [eval_comp] at this
    simpa [aeval_def, eval₂_eq_eval_map] using this
  rw [← legPoly_eval, ← h, ← legPoly_neg]
  congr 1
  ring

end Verif.Proofs
