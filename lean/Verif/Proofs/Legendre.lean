import Mathlib.Algebra.Polynomial.Derivative
import Mathlib.Analysis.Calculus.Deriv.Polynomial
import Mathlib.Analysis.Calculus.Deriv.MeanValue
import Mathlib.Topology.Algebra.Polynomial
import Mathlib.MeasureTheory.Integral.IntervalIntegral.FundThmCalculus
import Mathlib.RingTheory.Polynomial.ShiftedLegendre
import Mathlib.Tactic.LinearCombination
import Verif.Model.MeanCont

/-!
# Lemmas: Legendre polynomials
-/

namespace Verif.Proofs
open Verif.Model Polynomial

/-- The polynomials of the recurrence. -/
noncomputable def legPoly : Nat → ℝ[X]
  | 0 => 1
  | 1 => X
  | n + 2 => C (1 / ((n : ℝ) + 2)) * ((2 * (n : ℝ[X]) + 3) * X * legPoly (n + 1) - ((n : ℝ[X]) + 1) * legPoly n)

theorem legPoly_eval (n : Nat) (t : ℝ) : (legPoly n).eval t = legendre n t := by
  induction n using Nat.twoStepInduction with
  | zero => simp [legPoly, legendre]
  | one => simp [legPoly, legendre]
  | more n h1 h2 =>
    simp only [legPoly, legendre, eval_mul, eval_sub, eval_C, eval_X, eval_add, eval_natCast, eval_ofNat, eval_one, h1, h2]
    ring

theorem bonnet (n : Nat) : ((n : ℝ[X]) + 2) * legPoly (n + 2) =
    (2 * (n : ℝ[X]) + 3) * X * legPoly (n + 1) - ((n : ℝ[X]) + 1) * legPoly n := by
  have h : ((n : ℝ[X]) + 2) * C (1 / ((n : ℝ) + 2)) = 1 := by
    have e : ((n : ℝ[X]) + 2) = C ((n : ℝ) + 2) := by simp only [C_add, C_eq_natCast, map_ofNat]
    rw [e, ← C_mul, mul_one_div, div_self (by positivity), C_1]
  rw [legPoly, ← mul_assoc, h, one_mul]

theorem natC_ne (n : Nat) (hn : 0 < n) : (n : ℝ[X]) ≠ 0 := by exact_mod_cast hn.ne'

/-- Derivatives: `L'ₙ₊₁ = x L'ₙ + (n+1) Lₙ` and `x L'ₙ₊₁ - L'ₙ = (n+1) Lₙ₊₁`. -/
theorem legPoly_der (n : Nat) :
    derivative (legPoly (n + 1)) = X * derivative (legPoly n) + ((n : ℝ[X]) + 1) * legPoly n ∧
    X * derivative (legPoly (n + 1)) - derivative (legPoly n) = ((n : ℝ[X]) + 1) * legPoly (n + 1) := by
  induction n with
  | zero => simp [legPoly]
  | succ n ih =>
    obtain ⟨ha, hb⟩ := ih
    have B := bonnet n
    have D := congrArg derivative B
    simp only [derivative_mul, derivative_sub, derivative_add, derivative_natCast, derivative_ofNat, derivative_X,
      derivative_one, zero_add, zero_mul, mul_zero, add_zero, mul_one] at D
    have hne : ((n : ℝ[X]) + 2) ≠ 0 := by
      have := natC_ne (n + 2) (by omega)
      push_cast at this
      exact this
    have a' : derivative (legPoly (n + 2)) = X * derivative (legPoly (n + 1)) + ((n : ℝ[X]) + 2) * legPoly (n + 1) := by
      refine mul_left_cancel₀ hne ?_
      linear_combination D + ((n : ℝ[X]) + 1) * hb
    refine ⟨?_, ?_⟩
    · rw [show n + 1 + 1 = n + 2 from rfl, a']
      push_cast
      ring
    · rw [show n + 1 + 1 = n + 2 from rfl]
      push_cast
      linear_combination X * a' - B + X * hb - ha

/-- `(x² - 1) L'ₙ₊₁ = (n+1) (x Lₙ₊₁ - Lₙ)`. -/
theorem legPoly_der_mul (n : Nat) :
    (X ^ 2 - 1) * derivative (legPoly (n + 1)) = ((n : ℝ[X]) + 1) * (X * legPoly (n + 1) - legPoly n) := by
  obtain ⟨ha, hb⟩ := legPoly_der n
  linear_combination X * hb - ha

/-- The differential equation. -/
theorem legPoly_ode (n : Nat) :
    derivative ((X ^ 2 - 1) * derivative (legPoly n)) = (n : ℝ[X]) * ((n : ℝ[X]) + 1) * legPoly n := by
  cases n with
  | zero => simp [legPoly]
  | succ n =>
    obtain ⟨ha, hb⟩ := legPoly_der n
    rw [legPoly_der_mul]
    simp only [derivative_mul, derivative_sub, derivative_add, derivative_natCast, derivative_X, derivative_one, zero_add,
      zero_mul, one_mul, add_zero]
    push_cast
    linear_combination ((n : ℝ[X]) + 1) * hb

theorem legPoly_one (n : Nat) : (legPoly n).eval 1 = 1 := by
  induction n using Nat.twoStepInduction with
  | zero => simp [legPoly]
  | one => simp [legPoly]
  | more n h1 h2 =>
    have := congrArg (eval 1) (bonnet n)
    simp only [eval_mul, eval_sub, eval_X, eval_add, eval_natCast, eval_ofNat, eval_one, h1, h2] at this
    have hp : (0 : ℝ) < (n : ℝ) + 2 := by positivity
    refine mul_left_cancel₀ hp.ne' ?_
    rw [this]
    ring

/-- Parity. -/
theorem legPoly_neg (n : Nat) (t : ℝ) : (legPoly n).eval (-t) = (-1) ^ n * (legPoly n).eval t := by
  induction n using Nat.twoStepInduction with
  | zero => simp [legPoly]
  | one => simp [legPoly]
  | more n h1 h2 =>
    have e1 := congrArg (eval (-t)) (bonnet n)
    have e2 := congrArg (eval t) (bonnet n)
    simp only [eval_mul, eval_sub, eval_X, eval_add, eval_natCast, eval_ofNat, eval_one, h1, h2] at e1 e2
    have hp : (0 : ℝ) < (n : ℝ) + 2 := by positivity
    refine mul_left_cancel₀ hp.ne' ?_
    rw [e1]
    linear_combination -(-1 : ℝ) ^ n * e2

/-! ### Orthogonality -/

/-- The integral over `[0, 1]` of a polynomial in `2 x - 1`. -/
noncomputable def legInt (p : ℝ[X]) : ℝ := ∫ x in (0 : ℝ)..1, p.eval (2 * x - 1)

theorem legInt_integrable (p : ℝ[X]) (a b : ℝ) :
    IntervalIntegrable (fun x : ℝ => p.eval (2 * x - 1)) MeasureTheory.volume a b := by
  apply Continuous.intervalIntegrable
  exact p.continuous.comp (by fun_prop)

theorem legInt_add (p q : ℝ[X]) : legInt (p + q) = legInt p + legInt q := by
  unfold legInt
  simp only [eval_add]
  exact intervalIntegral.integral_add (legInt_integrable p 0 1) (legInt_integrable q 0 1)

theorem legInt_sub (p q : ℝ[X]) : legInt (p - q) = legInt p - legInt q := by
  unfold legInt
  simp only [eval_sub]
  exact intervalIntegral.integral_sub (legInt_integrable p 0 1) (legInt_integrable q 0 1)

theorem legInt_C_mul (c : ℝ) (p : ℝ[X]) : legInt (C c * p) = c * legInt p := by
  unfold legInt
  simp only [eval_mul, eval_C]
  exact intervalIntegral.integral_const_mul _ _

theorem legInt_der (q : ℝ[X]) : legInt (derivative q) = (q.eval 1 - q.eval (-1)) / 2 := by
  unfold legInt
  have h : ∀ x : ℝ, HasDerivAt (fun x : ℝ => q.eval (2 * x - 1) / 2) ((derivative q).eval (2 * x - 1)) x := by
    intro x
    have h1 : HasDerivAt (fun x : ℝ => 2 * x - 1) 2 x := by
      simpa using ((hasDerivAt_id x).const_mul 2).sub_const 1
    have h2 := ((q.hasDerivAt (2 * x - 1)).comp x h1).div_const 2
    simpa using h2
  rw [intervalIntegral.integral_eq_sub_of_hasDerivAt (fun x _ => h x) (legInt_integrable _ 0 1)]
  norm_num
  ring

theorem legPoly_orth {m n : Nat} (h : m ≠ n) : legInt (legPoly m * legPoly n) = 0 := by
  have key : derivative ((X ^ 2 - 1) * (derivative (legPoly m) * legPoly n - legPoly m * derivative (legPoly n))) =
      C ((m : ℝ) * (m + 1) - n * (n + 1)) * (legPoly m * legPoly n) := by
    have e1 := legPoly_ode m
    have e2 := legPoly_ode n
    rw [derivative_mul] at e1 e2
    rw [derivative_mul, derivative_sub (f := derivative (legPoly m) * legPoly n), derivative_mul, derivative_mul]
    simp only [C_sub, C_mul, C_add, C_1, C_eq_natCast]
    linear_combination legPoly n * e1 - legPoly m * e2
  have hz : legInt (C ((m : ℝ) * (m + 1) - n * (n + 1)) * (legPoly m * legPoly n)) = 0 := by
    rw [← key, legInt_der]
    simp
  rw [legInt_C_mul] at hz
  rcases mul_eq_zero.mp hz with h0 | h0
  · exfalso
    have : ((m : ℝ) - n) * (m + n + 1) = 0 := by linear_combination h0
    rcases mul_eq_zero.mp this with h1 | h1
    · exact h (by exact_mod_cast sub_eq_zero.mp h1)
    · have : (0 : ℝ) < (m : ℝ) + n + 1 := by positivity
      linarith
  · exact h0

theorem legPoly_norm (n : Nat) : (2 * (n : ℝ) + 1) * legInt (legPoly n * legPoly n) = 1 := by
  have step : ∀ n : Nat, (2 * (n : ℝ) + 3) * legInt (legPoly (n + 1) * legPoly (n + 1)) =
      (2 * (n : ℝ) + 1) * legInt (legPoly n * legPoly n) := by
    intro n
    -- X Lₙ in terms of the neighbours
    have hX : C (2 * (n : ℝ) + 1) * (X * legPoly n) = C ((n : ℝ) + 1) * legPoly (n + 1) + C (n : ℝ) * legPoly (n - 1) := by
      cases n with
      | zero => simp [legPoly]
      | succ k =>
        have B := bonnet k
        simp only [Nat.add_sub_cancel]
        rw [show k + 1 + 1 = k + 2 from rfl]
        simp only [C_add, C_mul, C_1, C_eq_natCast, map_ofNat]
        push_cast
        linear_combination -B
    have B := bonnet n
    have e1 : C ((n : ℝ) + 2) * (legPoly (n + 2) * legPoly n) =
        C (2 * (n : ℝ) + 3) * (legPoly (n + 1) * (X * legPoly n)) - C ((n : ℝ) + 1) * (legPoly n * legPoly n) := by
      simp only [C_add, C_mul, C_1, C_eq_natCast, map_ofNat]
      linear_combination legPoly n * B
    have i1 := congrArg legInt e1
    rw [legInt_C_mul, legInt_sub, legInt_C_mul, legInt_C_mul, legPoly_orth (by omega), mul_zero] at i1
    have i2 : (2 * (n : ℝ) + 1) * legInt (legPoly (n + 1) * (X * legPoly n)) =
        ((n : ℝ) + 1) * legInt (legPoly (n + 1) * legPoly (n + 1)) := by
      rw [← legInt_C_mul]
      have : C (2 * (n : ℝ) + 1) * (legPoly (n + 1) * (X * legPoly n)) =
          C ((n : ℝ) + 1) * (legPoly (n + 1) * legPoly (n + 1)) + C (n : ℝ) * (legPoly (n + 1) * legPoly (n - 1)) := by
        linear_combination legPoly (n + 1) * hX
      rw [this, legInt_add, legInt_C_mul, legInt_C_mul, legPoly_orth (m := n + 1) (n := n - 1) (by omega), mul_zero, add_zero]
    have hp : (0 : ℝ) < (n : ℝ) + 1 := by positivity
    refine mul_left_cancel₀ hp.ne' ?_
    linear_combination -(2 * (n : ℝ) + 3) * i2 - (2 * (n : ℝ) + 1) * i1
  induction n with
  | zero =>
    have : legInt (1 : ℝ[X]) = 1 := by
      have := legInt_der (X : ℝ[X])
      simp only [derivative_X, eval_X] at this
      rw [this]
      norm_num
    simp [legPoly, this]
  | succ n ih =>
    push_cast
    have := step n
    linear_combination this + ih

/-! ### Bounds -/

theorem legPoly_le_pos (n : Nat) {t : ℝ} (h0 : 0 ≤ t) (h1 : t ≤ 1) : |(legPoly n).eval t| ≤ 1 := by
  rcases Nat.eq_zero_or_pos n with rfl | hn
  · simp [legPoly]
  have hc : (0 : ℝ) < (n : ℝ) * (n + 1) := by positivity
  -- increasing on [0, 1]
  let F : ℝ[X] := C ((n : ℝ) * (n + 1)) * legPoly n ^ 2 - (X ^ 2 - 1) * derivative (legPoly n) ^ 2
  have hF : derivative F = 2 * X * derivative (legPoly n) ^ 2 := by
    have e := legPoly_ode n
    rw [derivative_mul] at e
    simp only [F, derivative_sub, derivative_mul, derivative_C, derivative_pow, derivative_X, derivative_one, zero_mul,
      zero_add, map_natCast, Nat.cast_ofNat, sub_zero, mul_one, pow_one, Nat.add_one_sub_one] at e ⊢
    simp only [C_mul, C_add, C_1, C_eq_natCast, map_ofNat] at e ⊢
    push_cast at e ⊢
    linear_combination -2 * derivative (legPoly n) * e
  have mono : MonotoneOn (fun t => F.eval t) (Set.Icc 0 1) := by
    refine monotoneOn_of_deriv_nonneg (convex_Icc 0 1) F.continuous.continuousOn F.differentiable.differentiableOn ?_
    intro x hx
    rw [interior_Icc] at hx
    rw [Polynomial.deriv, hF]
    simp only [eval_mul, eval_ofNat, eval_X, eval_pow]
    have := hx.1
    positivity
  have h := mono ⟨h0, h1⟩ ⟨zero_le_one, le_rfl⟩ h1
  simp only [F, eval_sub, eval_mul, eval_C, eval_pow, eval_X, eval_one, legPoly_one] at h
  have h2 : (n : ℝ) * (n + 1) * (legPoly n).eval t ^ 2 ≤ (n : ℝ) * (n + 1) * 1 := by
    have : 0 ≤ (1 - t ^ 2) * (derivative (legPoly n)).eval t ^ 2 := by
      have : t ^ 2 ≤ 1 := by nlinarith
      exact mul_nonneg (by linarith) (sq_nonneg _)
    nlinarith
  exact abs_le_one_iff_mul_self_le_one.mpr (by
    have := le_of_mul_le_mul_left h2 hc
    nlinarith)

theorem legPoly_le (n : Nat) {t : ℝ} (h : |t| ≤ 1) : |(legPoly n).eval t| ≤ 1 := by
  rcases le_total 0 t with h0 | h0
  · exact legPoly_le_pos n h0 (abs_le.mp h).2
  · have := legPoly_le_pos n (t := -t) (by linarith) (by linarith [(abs_le.mp h).1])
    rw [legPoly_neg, abs_mul, abs_pow, abs_neg, abs_one, one_pow, one_mul] at this
    exact this

/-- `L'ₙ₊₂ = L'ₙ + (2n+3) Lₙ₊₁`. -/
theorem legPoly_der_step (n : Nat) :
    derivative (legPoly (n + 2)) = derivative (legPoly n) + (2 * (n : ℝ[X]) + 3) * legPoly (n + 1) := by
  obtain ⟨-, hb⟩ := legPoly_der n
  obtain ⟨ha, -⟩ := legPoly_der (n + 1)
  rw [show n + 1 + 1 = n + 2 from rfl] at ha
  push_cast at ha
  linear_combination ha + hb

theorem legPoly_der_le (n : Nat) {t : ℝ} (h : |t| ≤ 1) : |(derivative (legPoly n)).eval t| ≤ (n : ℝ) * (n + 1) / 2 := by
  induction n using Nat.twoStepInduction with
  | zero => simp [legPoly]
  | one => simp [legPoly]
  | more n h1 h2 =>
    rw [legPoly_der_step]
    simp only [eval_add, eval_mul, eval_natCast, eval_ofNat]
    refine (abs_add_le _ _).trans ?_
    rw [abs_mul, abs_of_pos (by positivity : (0 : ℝ) < 2 * (n : ℝ) + 3)]
    have h3 := mul_le_mul_of_nonneg_left (legPoly_le (n + 1) h) (by positivity : (0 : ℝ) ≤ 2 * (n : ℝ) + 3)
    push_cast
    linarith

theorem legPoly_der2_le (n : Nat) {t : ℝ} (h : |t| ≤ 1) :
    |(derivative (derivative (legPoly n))).eval t| ≤ ((n : ℝ) - 1) * n * (n + 1) * (n + 2) / 8 := by
  induction n using Nat.twoStepInduction with
  | zero => simp [legPoly]
  | one => simp [legPoly]
  | more n h1 h2 =>
    rw [legPoly_der_step]
    simp only [derivative_add, derivative_mul, derivative_natCast, derivative_ofNat, zero_mul, mul_zero, add_zero, zero_add]
    simp only [eval_add, eval_mul, eval_natCast, eval_ofNat]
    refine (abs_add_le _ _).trans ?_
    rw [abs_mul, abs_of_pos (by positivity : (0 : ℝ) < 2 * (n : ℝ) + 3)]
    have h3 := mul_le_mul_of_nonneg_left (legPoly_der_le (n + 1) h) (by positivity : (0 : ℝ) ≤ 2 * (n : ℝ) + 3)
    push_cast at h3 ⊢
    nlinarith

end Verif.Proofs
