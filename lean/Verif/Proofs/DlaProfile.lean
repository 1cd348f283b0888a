import Verif.Model.DlaProfile
import Mathlib.Analysis.Complex.Exponential
import Mathlib.Tactic.Linarith
import Mathlib.Tactic.Positivity
import Mathlib.Tactic.FieldSimp
import Mathlib.Tactic.Ring

/-!
# The Tepper-Garcia profile is positive
-/

namespace Verif.Proofs
open Verif.Model.Dla

theorem exp_neg_bound {P : ℝ} (hP : 0 ≤ P) : Real.exp (-P) * (1 + P + P ^ 2 / 2) ≤ 1 := by
  rw [Real.exp_neg, inv_mul_le_iff₀ (Real.exp_pos P), mul_one]
  exact Real.quadratic_le_exp_of_nonneg hP

theorem exp_neg_le_quadratic {P : ℝ} (hP : 0 ≤ P) : Real.exp (-P) ≤ 1 - P + P ^ 2 / 2 := by
  have h := exp_neg_bound hP
  have h1 : (1 : ℝ) ≤ (1 - P + P ^ 2 / 2) * (1 + P + P ^ 2 / 2) := by nlinarith [sq_nonneg (P ^ 2)]
  have h2 : 0 < 1 + P + P ^ 2 / 2 := by positivity
  exact le_of_mul_le_mul_right (h.trans h1) h2

/-- The correction of the Tepper-Garcia profile is bounded by the Gaussian. -/
theorem tepper_bound {P : ℝ} (hP : 0 < P) :
    Real.exp (-P) * (4 * P ^ 3 + 7 * P ^ 2 + 4 * P + 3 / 2) - Real.exp P * (3 / 2 + P) ≤ 8 * P ^ 2 := by
  have hq := Real.quadratic_le_exp_of_nonneg hP.le
  by_cases h1 : P ≤ 1
  · have h2 := exp_neg_le_quadratic hP.le
    have h3 : Real.exp (-P) * (4 * P ^ 3 + 7 * P ^ 2 + 4 * P + 3 / 2) ≤
        (1 - P + P ^ 2 / 2) * (4 * P ^ 3 + 7 * P ^ 2 + 4 * P + 3 / 2) :=
      mul_le_mul_of_nonneg_right h2 (by positivity)
    have h4 : (1 + P + P ^ 2 / 2) * (3 / 2 + P) ≤ Real.exp P * (3 / 2 + P) :=
      mul_le_mul_of_nonneg_right hq (by positivity)
    have h5 : P ^ 5 ≤ P ^ 2 := pow_le_pow_of_le_one hP.le h1 (by norm_num)
    nlinarith [pow_pos hP 3, pow_pos hP 4, pow_pos hP 2]
  · push Not at h1
    have h2 := exp_neg_bound hP.le
    have h3 : (4 * P ^ 3 + 7 * P ^ 2 + 4 * P + 3 / 2) ≤ 8 * P ^ 2 * (1 + P + P ^ 2 / 2) := by
      nlinarith [pow_pos hP 3, pow_pos hP 4, mul_pos hP hP, pow_lt_pow_left₀ h1 zero_le_one (n := 4) (by norm_num),
        mul_lt_mul_of_pos_left h1 (pow_pos hP 2), mul_lt_mul_of_pos_left h1 hP]
    have h4 : Real.exp (-P) * (4 * P ^ 3 + 7 * P ^ 2 + 4 * P + 3 / 2) ≤ 8 * P ^ 2 := by
      calc _ ≤ Real.exp (-P) * (8 * P ^ 2 * (1 + P + P ^ 2 / 2)) :=
            mul_le_mul_of_nonneg_left h3 (Real.exp_pos _).le
        _ = 8 * P ^ 2 * (Real.exp (-P) * (1 + P + P ^ 2 / 2)) := by ring
        _ ≤ 8 * P ^ 2 * 1 := mul_le_mul_of_nonneg_left h2 (by positivity)
        _ = _ := by ring
    have h5 : 0 < Real.exp P * (3 / 2 + P) := by positivity
    linarith

theorem sqrt_pi_gt : (17 / 10 : ℝ) < √Real.pi := by
  rw [Real.lt_sqrt (by norm_num)]
  have := Real.pi_gt_three
  norm_num
  linarith

/-- The profile is positive for damping parameters up to 0.2. -/
theorem hTepperGarcia_pos {a : ℝ} (ha : 0 ≤ a) (ha2 : a ≤ 1 / 5) (u : ℝ) : 0 < hTepperGarcia a u := by
  unfold hTepperGarcia
  set P := u ^ 2 + 1 / 10 ^ 12 with hPdef
  have hP : 0 < P := by positivity
  have hs := sqrt_pi_gt
  have hs0 : (0 : ℝ) < √Real.pi := lt_trans (by norm_num) hs
  have hb := tepper_bound hP
  have he := Real.exp_pos (-P)
  have hee : Real.exp (-P) * Real.exp P = 1 := by rw [← Real.exp_add]; simp
  dsimp only
  have key : Real.exp (-P) ^ 2 * (4 * P ^ 2 + 7 * P + 4 + 3 / 2 / P) - 3 / 2 / P - 1 ≤ 8 * P * Real.exp (-P) := by
    have : (Real.exp (-P) ^ 2 * (4 * P ^ 2 + 7 * P + 4 + 3 / 2 / P) - 3 / 2 / P - 1) =
        Real.exp (-P) * (Real.exp (-P) * (4 * P ^ 3 + 7 * P ^ 2 + 4 * P + 3 / 2) - Real.exp P * (3 / 2 + P)) / P := by
      rw [mul_sub, ← mul_assoc _ (Real.exp P), hee]
      field_simp
      ring
    rw [this, div_le_iff₀ hP]
    calc _ ≤ Real.exp (-P) * (8 * P ^ 2) := mul_le_mul_of_nonneg_left hb he.le
      _ = _ := by ring
  have h1 : (Real.exp (-P) ^ 2 * (4 * P ^ 2 + 7 * P + 4 + 3 / 2 / P) - 3 / 2 / P - 1) * (a / P / √Real.pi) ≤
      8 * P * Real.exp (-P) * (a / P / √Real.pi) :=
    mul_le_mul_of_nonneg_right key (by positivity)
  have h2 : 8 * P * Real.exp (-P) * (a / P / √Real.pi) = Real.exp (-P) * (8 * a / √Real.pi) := by
    field_simp
  have h3 : 8 * a / √Real.pi < 1 := by
    rw [div_lt_one hs0]; linarith
  have h4 : Real.exp (-P) * (8 * a / √Real.pi) < Real.exp (-P) * 1 := mul_lt_mul_of_pos_left h3 he
  linarith

theorem opticalDepth_pos {lambda12 f12 A12 b : ℝ} (hl : 0 < lambda12) (hf : 0 < f12) (hA : 0 < A12) (hb : 0 < b)
    (ha : A12 * lambda12 ≤ 240000 * 10 ^ 8 * b) (wave log10N : ℝ) :
    0 < opticalDepth wave lambda12 log10N b f12 A12 := by
  have hpi := Real.pi_gt_three
  have hc : (0 : ℝ) < lightSpeed := by unfold lightSpeed; norm_num
  have hcc : (0 : ℝ) < cCms := by unfold cCms; positivity
  unfold opticalDepth voigt
  refine mul_pos (hTepperGarcia_pos (by positivity) ?_ _) ?_
  · have : A12 * lambda12 * (1 / 10 ^ 8) / 4 / Real.pi / cCms / (b / lightSpeed) =
        A12 * lambda12 / (4 * 10 ^ 13 * Real.pi * b) := by
      unfold cCms
      field_simp
    rw [this, div_le_iff₀ (by positivity)]
    nlinarith
  · have : (0 : ℝ) < aijCoeff := by unfold aijCoeff; positivity
    positivity

/-- The optical depth grows with the column density. -/
theorem opticalDepth_mono {lambda12 f12 A12 b : ℝ} (hl : 0 < lambda12) (hf : 0 < f12) (hA : 0 < A12) (hb : 0 < b)
    (ha : A12 * lambda12 ≤ 240000 * 10 ^ 8 * b) (wave : ℝ) {n n' : ℝ} (h : n ≤ n') :
    opticalDepth wave lambda12 n b f12 A12 ≤ opticalDepth wave lambda12 n' b f12 A12 := by
  have hc : (0 : ℝ) < lightSpeed := by unfold lightSpeed; norm_num
  have hcc : (0 : ℝ) < cCms := by unfold cCms; positivity
  have haij : (0 : ℝ) < aijCoeff := by unfold aijCoeff; positivity
  have hp := opticalDepth_pos hl hf hA hb ha wave n
  unfold opticalDepth at hp ⊢
  dsimp only at hp ⊢
  have hK : 0 < aijCoeff * f12 * (10 : ℝ) ^ (n - 13) * (lambda12 / b) / √Real.pi := by positivity
  have hH := (pos_iff_pos_of_mul_pos hp).mpr hK
  refine mul_le_mul_of_nonneg_left ?_ hH.le
  gcongr
  norm_num

end Verif.Proofs
