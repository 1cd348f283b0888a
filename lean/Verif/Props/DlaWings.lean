import Mathlib.Analysis.SpecialFunctions.Gaussian.GaussianIntegral
import Mathlib.Tactic.FieldSimp
import Mathlib.Tactic.Linarith
import Verif.Model.DlaProfile
import Verif.Spec.Line

/-!
# C95: wings and core of the DLA profile
-/

namespace Verif.Props
open Verif Verif.Model Verif.Spec

namespace Wing

/-- Powers against the exponential function. -/
theorem exp_small {t : ℝ} (ht : 100 ≤ t) : Real.exp (-t) * t ^ 2 ≤ 1 / 10 ^ 7 := by
  have h := Real.pow_div_factorial_le_exp t (by linarith) 8
  have h8 : ((Nat.factorial 8 : ℕ) : ℝ) = 40320 := by norm_num [Nat.factorial]
  rw [h8, div_le_iff₀ (by norm_num)] at h
  have h6 : (100 : ℝ) ^ 6 ≤ t ^ 6 := pow_le_pow_left₀ (by norm_num) ht 6
  have hp : 0 < Real.exp t := Real.exp_pos t
  rw [Real.exp_neg, ← div_eq_inv_mul, div_le_div_iff₀ hp (by norm_num), one_mul]
  have e : t ^ 8 = t ^ 6 * t ^ 2 := by ring
  rw [e] at h
  have : (100 : ℝ) ^ 6 * t ^ 2 ≤ t ^ 6 * t ^ 2 := mul_le_mul_of_nonneg_right h6 (sq_nonneg t)
  nlinarith

/-- The function of Tepper-Garcia is that of the Lorentz wing up to `2 / u ^ 2`. -/
theorem h_wing {a u : ℝ} (ha : 1 / 10 ^ 5 ≤ a) (hu : 100 ≤ u ^ 2) :
    |Dla.hTepperGarcia a u - a / (√Real.pi * u ^ 2)| ≤ 2 / u ^ 2 * (a / (√Real.pi * u ^ 2)) := by
  have ha0 : 0 < a := lt_of_lt_of_le (by norm_num) ha
  have hs : 0 < √Real.pi := Real.sqrt_pos.mpr Real.pi_pos
  have hs2 : √Real.pi ≤ 2 := by
    rw [Real.sqrt_le_left (by norm_num)]
    linarith [Real.pi_le_four]
  unfold Dla.hTepperGarcia
  dsimp only
  generalize hU : u ^ 2 = U at hu
  have hU0 : 0 < U := by linarith
  generalize hP : U + 1 / 10 ^ 12 = P
  have hP1 : U ≤ P := by rw [← hP]; norm_num
  have hP0 : 0 < P := by linarith
  have hP2 : P ≤ U * (1 + 1 / 10 ^ 14) := by
    rw [← hP]
    nlinarith
  have hR : Real.exp (-P) * P ^ 2 ≤ 1 / 10 ^ 7 := exp_small (by linarith)
  have hR0 : 0 < Real.exp (-P) := Real.exp_pos _
  have hR1 : Real.exp (-P) ≤ 1 / 10 ^ 7 := by
    refine le_trans ?_ hR
    refine le_mul_of_one_le_right hR0.le ?_
    nlinarith
  generalize Real.exp (-P) = R at hR hR0 hR1
  -- The bracket of the code without the two leading terms.
  have hQ0 : 0 < 3 / 2 / P := by positivity
  have hQ1 : 3 / 2 / P ≤ 3 / 2 / U := div_le_div_of_nonneg_left (by norm_num) hU0 hP1
  have hQ2 : 3 / 2 / P ≤ 1 := by rw [div_le_one hP0]; linarith
  generalize 3 / 2 / P = Q at hQ0 hQ1 hQ2
  have hB0 : 0 ≤ R ^ 2 * (4 * P ^ 2 + 7 * P + 4 + Q) := by positivity
  have hB1 : R ^ 2 * (4 * P ^ 2 + 7 * P + 4 + Q) ≤ 1 / 4 * (1 / U) := by
    have h1 : 4 * P ^ 2 + 7 * P + 4 + Q ≤ 5 * P ^ 2 := by nlinarith
    have h2 : R ^ 2 * (4 * P ^ 2 + 7 * P + 4 + Q) ≤ R ^ 2 * (5 * P ^ 2) := mul_le_mul_of_nonneg_left h1 (sq_nonneg R)
    have h3 : R * U ≤ 1 / 10 ^ 7 := by nlinarith
    rw [mul_one_div, le_div_iff₀ hU0]
    have h4 : R ^ 2 * (5 * P ^ 2) * U = 5 * (R * P ^ 2) * (R * U) := by ring
    have h5 : R ^ 2 * (4 * P ^ 2 + 7 * P + 4 + Q) * U ≤ 5 * (R * P ^ 2) * (R * U) := by
      rw [← h4]
      exact mul_le_mul_of_nonneg_right h2 hU0.le
    have h6 : 5 * (R * P ^ 2) * (R * U) ≤ 5 * (1 / 10 ^ 7) * (1 / 10 ^ 7) := by
      have := mul_nonneg hR0.le hU0.le
      have := mul_nonneg hR0.le (sq_nonneg P)
      gcongr
    linarith [h5, h6]
  generalize R ^ 2 * (4 * P ^ 2 + 7 * P + 4 + Q) = B at hB0 hB1
  -- Everything in units of the wing.
  have hw : 0 < a / (√Real.pi * U) := by positivity
  have e : R - (B - Q - 1) * (a / P / √Real.pi) - a / (√Real.pi * U) =
      (R * √Real.pi * U / a + U / P * (1 + Q - B) - 1) * (a / (√Real.pi * U)) := by
    field_simp
    ring
  rw [e, abs_mul, abs_of_pos hw]
  refine mul_le_mul_of_nonneg_right ?_ hw.le
  have t1 : 0 ≤ R * √Real.pi * U / a := by positivity
  have t2 : R * √Real.pi * U / a ≤ 1 / 4 * (1 / U) := by
    rw [div_le_iff₀ ha0]
    have h1 : R * U ^ 2 ≤ 1 / 10 ^ 7 := by
      refine le_trans (mul_le_mul_of_nonneg_left ?_ hR0.le) hR
      exact pow_le_pow_left₀ hU0.le hP1 2
    have h2 : R * √Real.pi * U ^ 2 ≤ 2 / 10 ^ 7 := by
      have := mul_le_mul h1 hs2 hs.le (by norm_num)
      calc R * √Real.pi * U ^ 2 = R * U ^ 2 * √Real.pi := by ring
        _ ≤ _ := this
        _ = _ := by norm_num
    have h3 : R * √Real.pi * U = R * √Real.pi * U ^ 2 * (1 / U) := by
      field_simp
    rw [h3]
    have h4 : 0 < 1 / U := by positivity
    have h5 : R * √Real.pi * U ^ 2 * (1 / U) ≤ 2 / 10 ^ 7 * (1 / U) := mul_le_mul_of_nonneg_right h2 h4.le
    have h6 : 2 / 10 ^ 7 * (1 / U) ≤ 1 / 4 * (1 / U) * a := by
      nlinarith
    linarith
  have p1 : U / P ≤ 1 := by rw [div_le_one hP0]; exact hP1
  have p2 : 1 - 1 / 4 * (1 / U) ≤ U / P := by
    rw [le_div_iff₀ hP0]
    have : 0 < 1 / U := by positivity
    have hh : P ≤ U + 1 / 10 ^ 12 := by rw [← hP]
    have h7 : 1 / U * U = 1 := by field_simp
    nlinarith
  have p0 : 0 < U / P := by positivity
  have hU1 : 1 / U ≤ 1 / 100 := by
    exact one_div_le_one_div_of_le (by norm_num) hu
  have hU2 : 0 < 1 / U := by positivity
  have q2 : 3 / 2 / U = 3 / 2 * (1 / U) := by ring
  rw [q2] at hQ1
  have g2 : (2 : ℝ) / U = 2 * (1 / U) := by ring
  rw [g2]
  generalize 1 / U = i at *
  generalize U / P = r at *
  generalize R * √Real.pi * U / a = t at *
  rw [abs_le]
  constructor
  · nlinarith
  · nlinarith

end Wing
open Wing

theorem strength_eq (f : ℝ) : Dla.aijCoeff * f = Line.strength f := by
  unfold Dla.aijCoeff Line.strength Dla.cCms Dla.lightSpeed Line.charge Line.mass Line.light
  congr 1
  rw [div_div]
  norm_num

theorem cCms_eq : Dla.cCms = Line.light := by
  unfold Dla.cCms Dla.lightSpeed Line.light
  norm_num

/-- **C95.** Ten Doppler widths and more from the center, the optical depth of a line is that of the damping wing of the
Lorentz profile of `10 ^ log10N` atoms per square centimeter, up to the fraction `2 / u ^ 2` (`u` the distance in Doppler
widths). `wave` and `lambda12` are in Angstrom, `b` is in km/s. -/
theorem C95_wing {wave lambda12 b f12 A12 : ℝ} (log10N : ℝ) (hl : 0 < lambda12) (hb : 0 < b) (hf : 0 ≤ f12)
    (ha : 1 / 10 ^ 5 ≤ A12 * (lambda12 / 10 ^ 8) / (4 * Real.pi * (b * 10 ^ 5)))
    (hu : 10 * (b * 10 ^ 5 / Line.light) ≤ |wave / lambda12 - 1|) :
    let dnu := Line.light / (lambda12 / 10 ^ 8) * (wave / lambda12 - 1)
    let u := (wave / lambda12 - 1) / (b * 10 ^ 5 / Line.light)
    |Dla.opticalDepth wave lambda12 log10N b f12 A12 - Line.lorentzWing (10 ^ log10N) f12 A12 dnu| ≤
      2 / u ^ 2 * Line.lorentzWing (10 ^ log10N) f12 A12 dnu := by
  intro dnu u
  have hc : (0 : ℝ) < Line.light := by unfold Line.light; norm_num
  have hsig : b / Dla.lightSpeed = b * 10 ^ 5 / Line.light := by
    unfold Dla.lightSpeed Line.light
    ring
  have hw : 0 < b * 10 ^ 5 / Line.light := by positivity
  have hu2 : 100 ≤ u ^ 2 := by
    have : 10 ≤ |u| := by
      change 10 ≤ |(wave / lambda12 - 1) / (b * 10 ^ 5 / Line.light)|
      rw [abs_div, abs_of_pos hw, le_div_iff₀ hw]
      exact hu
    rw [← sq_abs]
    nlinarith
  have hga : A12 * lambda12 * (1 / 10 ^ 8) / 4 / Real.pi / Dla.cCms / (b / Dla.lightSpeed) =
      A12 * (lambda12 / 10 ^ 8) / (4 * Real.pi * (b * 10 ^ 5)) := by
    rw [hsig, cCms_eq]
    field_simp
  have key := h_wing (a := A12 * (lambda12 / 10 ^ 8) / (4 * Real.pi * (b * 10 ^ 5))) (u := u) ha hu2
  have hs : 0 < √Real.pi := Real.sqrt_pos.mpr Real.pi_pos
  have hss : √Real.pi * √Real.pi = Real.pi := Real.mul_self_sqrt Real.pi_pos.le
  have hx0 : wave / lambda12 - 1 ≠ 0 := by
    intro h
    rw [h, abs_zero] at hu
    linarith
  have hpow : (10 : ℝ) ^ (log10N - 13) = 10 ^ log10N / 10 ^ 13 := by
    rw [Real.rpow_sub (by norm_num)]
    norm_num
  -- The factor of the profile, and the wing in terms of it.
  have hk : Dla.opticalDepth wave lambda12 log10N b f12 A12 =
      Dla.hTepperGarcia (A12 * (lambda12 / 10 ^ 8) / (4 * Real.pi * (b * 10 ^ 5))) u *
        (Line.strength f12 * (10 ^ log10N / 10 ^ 13) * (lambda12 / b) / √Real.pi) := by
    unfold Dla.opticalDepth Dla.voigt
    dsimp only
    rw [hga, hsig, strength_eq, hpow]
  have hL : Line.lorentzWing (10 ^ log10N) f12 A12 dnu =
      A12 * (lambda12 / 10 ^ 8) / (4 * Real.pi * (b * 10 ^ 5)) / (√Real.pi * u ^ 2) *
        (Line.strength f12 * (10 ^ log10N / 10 ^ 13) * (lambda12 / b) / √Real.pi) := by
    unfold Line.lorentzWing
    change (10 : ℝ) ^ log10N * Line.strength f12 *
      (A12 / (4 * Real.pi ^ 2 * (Line.light / (lambda12 / 10 ^ 8) * (wave / lambda12 - 1)) ^ 2)) = _
    change _ = A12 * (lambda12 / 10 ^ 8) / (4 * Real.pi * (b * 10 ^ 5)) /
      (√Real.pi * ((wave / lambda12 - 1) / (b * 10 ^ 5 / Line.light)) ^ 2) *
        (Line.strength f12 * (10 ^ log10N / 10 ^ 13) * (lambda12 / b) / √Real.pi)
    generalize wave / lambda12 - 1 = x at hx0
    generalize (10 : ℝ) ^ log10N = N
    generalize Line.strength f12 = S
    have hpi : Real.pi ≠ 0 := Real.pi_ne_zero
    have e1 : A12 * (lambda12 / 10 ^ 8) / (4 * Real.pi * (b * 10 ^ 5)) / (√Real.pi * (x / (b * 10 ^ 5 / Line.light)) ^ 2) *
        (S * (N / 10 ^ 13) * (lambda12 / b) / √Real.pi) =
        A12 * (lambda12 / 10 ^ 8) / (4 * Real.pi * (b * 10 ^ 5)) / ((√Real.pi * √Real.pi) * (x / (b * 10 ^ 5 / Line.light)) ^ 2) *
        (S * (N / 10 ^ 13) * (lambda12 / b)) := by
      field_simp
    rw [e1, hss]
    field_simp
  have hF : 0 ≤ Line.strength f12 * (10 ^ log10N / 10 ^ 13) * (lambda12 / b) / √Real.pi := by
    have h1 : 0 ≤ Line.strength f12 := by
      unfold Line.strength Line.charge Line.mass Line.light
      have := Real.pi_pos
      positivity
    have h2 : (0 : ℝ) ≤ 10 ^ log10N := Real.rpow_nonneg (by norm_num) _
    positivity
  rw [hk, hL, ← sub_mul, abs_mul, abs_of_nonneg hF, ← mul_assoc (2 / u ^ 2)]
  exact mul_le_mul_of_nonneg_right key hF

/-- **C95.** Without damping the optical depth is that of the Gaussian core, up to the factor `exp(-1e-12)`. -/
theorem C95_core {lambda12 b : ℝ} (wave log10N f12 : ℝ) (hl : 0 < lambda12) (hb : 0 < b) :
    let nu := Line.light / (lambda12 / 10 ^ 8)
    Dla.opticalDepth wave lambda12 log10N b f12 0 =
      Real.exp (-(1 / 10 ^ 12)) * Line.gaussCore (10 ^ log10N) f12 (b * 10 ^ 5) nu (nu * (wave / lambda12 - 1)) := by
  intro nu
  have hc : (0 : ℝ) < Line.light := by unfold Line.light; norm_num
  have hnu : 0 < nu := by change 0 < Line.light / (lambda12 / 10 ^ 8); positivity
  have hsig : b / Dla.lightSpeed = b * 10 ^ 5 / Line.light := by
    unfold Dla.lightSpeed Line.light
    ring
  have hs : 0 < √Real.pi := Real.sqrt_pos.mpr Real.pi_pos
  have hpow : (10 : ℝ) ^ (log10N - 13) = 10 ^ log10N / 10 ^ 13 := by
    rw [Real.rpow_sub (by norm_num)]
    norm_num
  unfold Dla.opticalDepth Dla.voigt Dla.hTepperGarcia Line.gaussCore
  dsimp only
  rw [strength_eq, hsig, hpow]
  have e1 : (0 : ℝ) * lambda12 * (1 / 10 ^ 8) / 4 / Real.pi / Dla.cCms / (b * 10 ^ 5 / Line.light) = 0 := by simp
  rw [e1, zero_div, zero_div, mul_zero, sub_zero, neg_add, Real.exp_add]
  have e2 : nu * (wave / lambda12 - 1) / (nu * (b * 10 ^ 5) / Line.light) =
      (wave / lambda12 - 1) / (b * 10 ^ 5 / Line.light) := by
    field_simp
  rw [e2]
  generalize Real.exp (-((wave / lambda12 - 1) / (b * 10 ^ 5 / Line.light)) ^ 2) = E
  generalize Real.exp (-(1 / 10 ^ 12)) = D
  generalize (10 : ℝ) ^ log10N = N
  change _ = D * (N * Line.strength f12 * (E / (√Real.pi * (Line.light / (lambda12 / 10 ^ 8) * (b * 10 ^ 5) / Line.light))))
  generalize Line.strength f12 = S
  field_simp

/-- **C95.** Integrated over frequency this is the strength of the line. -/
theorem C95_core_total {b nu : ℝ} (N f : ℝ) (hb : 0 < b) (hnu : 0 < nu) :
    ∫ dnu : ℝ, Line.gaussCore N f b nu dnu = N * Line.strength f := by
  have hc : (0 : ℝ) < Line.light := by unfold Line.light; norm_num
  have hw : 0 < nu * b / Line.light := by positivity
  generalize hW : nu * b / Line.light = w at hw
  have hs : 0 < √Real.pi := Real.sqrt_pos.mpr Real.pi_pos
  have e : ∀ d : ℝ, Line.gaussCore N f b nu d = N * Line.strength f / (√Real.pi * w) * Real.exp (-(1 / w ^ 2) * d ^ 2) := by
    intro d
    unfold Line.gaussCore
    rw [hW]
    have : -(d / w) ^ 2 = -(1 / w ^ 2) * d ^ 2 := by
      rw [div_pow]; ring
    rw [this]
    ring
  simp_rw [e]
  rw [MeasureTheory.integral_const_mul, integral_gaussian]
  have : √(Real.pi / (1 / w ^ 2)) = √Real.pi * w := by
    rw [div_div_eq_mul_div, div_one, Real.sqrt_mul Real.pi_pos.le, Real.sqrt_sq hw.le]
  rw [this]
  field_simp

/-- **C95.** With the Doppler width of the code the transmission of a DLA ten Doppler widths and more from Lya and Lyb is
the exponential function of the two damping wings, each up to the fraction `2 / u ^ 2`. -/
theorem C95_transmission {wave z n : ℝ} (ha : 10 ≤ |Line.doppler Line.lya wave z 10|)
    (hb : 10 ≤ |Line.doppler Line.lyb wave z 10|) :
    |-Real.log (Dla.dlaFlux 10 wave z n) - (Line.wingAt Line.lya wave z n + Line.wingAt Line.lyb wave z n)| ≤
      2 / Line.doppler Line.lya wave z 10 ^ 2 * Line.wingAt Line.lya wave z n +
      2 / Line.doppler Line.lyb wave z 10 ^ 2 * Line.wingAt Line.lyb wave z n := by
  have hw : (0 : ℝ) < 10 * 10 ^ 5 / Line.light := by unfold Line.light; norm_num
  have hpi := Real.pi_le_four
  unfold Line.doppler Line.offset at ha hb
  rw [abs_div, abs_of_pos hw, le_div_iff₀ hw] at ha hb
  have w1 := C95_wing (wave := wave / (1 + z)) (lambda12 := Line.lya.wave) (b := 10) (f12 := Line.lya.f)
    (A12 := Line.lya.A) n (by unfold Line.lya; norm_num) (by norm_num) (by unfold Line.lya; norm_num)
    (by
      rw [le_div_iff₀ (by positivity)]
      unfold Line.lya
      norm_num at hpi ⊢
      linarith) ha
  have w2 := C95_wing (wave := wave / (1 + z)) (lambda12 := Line.lyb.wave) (b := 10) (f12 := Line.lyb.f)
    (A12 := Line.lyb.A) n (by unfold Line.lyb; norm_num) (by norm_num) (by unfold Line.lyb; norm_num)
    (by
      rw [le_div_iff₀ (by positivity)]
      unfold Line.lyb
      norm_num at hpi ⊢
      linarith) hb
  have e : -Real.log (Dla.dlaFlux 10 wave z n) =
      Dla.opticalDepth (wave / (1 + z)) Line.lya.wave n 10 Line.lya.f Line.lya.A +
      Dla.opticalDepth (wave / (1 + z)) Line.lyb.wave n 10 Line.lyb.f Line.lyb.A := by
    unfold Dla.dlaFlux
    dsimp only
    rw [Real.log_exp, neg_neg]
    unfold Line.lya Line.lyb
    norm_num
  rw [e]
  dsimp only at w1 w2
  change |_ - Line.wingAt Line.lya wave z n| ≤
    2 / Line.doppler Line.lya wave z 10 ^ 2 * Line.wingAt Line.lya wave z n at w1
  change |_ - Line.wingAt Line.lyb wave z n| ≤
    2 / Line.doppler Line.lyb wave z 10 ^ 2 * Line.wingAt Line.lyb wave z n at w2
  rw [abs_le] at w1 w2 ⊢
  constructor
  · linarith [w1.1, w2.1]
  · linarith [w1.2, w2.2]

/-- The hypotheses of `C95_transmission`: 3600 Angstrom, a DLA at redshift 2. -/
example : 10 ≤ |Line.doppler Line.lya 3600 2 10| ∧ 10 ≤ |Line.doppler Line.lyb 3600 2 10| := by
  unfold Line.doppler Line.offset Line.light Line.lya Line.lyb
  constructor
  · rw [abs_of_neg (by norm_num)]
    norm_num
  · rw [abs_of_pos (by norm_num)]
    norm_num

/-- The hypotheses of `C95_wing` for Lya with `b = 10`, 1 percent from the center. -/
example : (1 : ℝ) / 10 ^ 5 ≤ 62648 * 10 ^ 4 * (121567 / 100 / 10 ^ 8) / (4 * Real.pi * (10 * 10 ^ 5)) ∧
    10 * (10 * 10 ^ 5 / Line.light) ≤ |1200 / (121567 / 100) - 1| := by
  constructor
  · rw [le_div_iff₀ (by positivity)]
    have := Real.pi_le_four
    norm_num at this ⊢
    linarith
  · unfold Line.light
    rw [abs_of_neg (by norm_num)]
    norm_num

end Verif.Props
