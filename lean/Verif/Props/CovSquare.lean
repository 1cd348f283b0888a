import Verif.Model.CovSquare
import Mathlib.Probability.Distributions.Gaussian.Real
import Mathlib.Probability.Moments.Covariance
import Mathlib.Probability.Independence.Integration

/-!
# C47: covariance of squares
-/

namespace Verif.Props
open Verif.Model MeasureTheory ProbabilityTheory
open scoped NNReal ENNReal

/-- Derivatives of the moment generating function of a Gaussian. -/
theorem gauss_mgf_deriv (m v : ℝ) (P : ℝ → ℝ) (P' : ℝ → ℝ) (hP : ∀ t, HasDerivAt P (P' t) t) (t : ℝ) :
    HasDerivAt (fun t => P t * Real.exp (m * t + v * t ^ 2 / 2))
      ((P' t + P t * (m + v * t)) * Real.exp (m * t + v * t ^ 2 / 2)) t := by
  have h1 : HasDerivAt (fun t : ℝ => m * t + v * t ^ 2 / 2) (m + v * t) t := by
    have h := ((hasDerivAt_id t).const_mul m).add ((((hasDerivAt_id t).pow 2).const_mul v).div_const 2)
    refine h.congr_deriv ?_
    simp only [id]
    push_cast
    ring
  refine ((hP t).mul h1.exp).congr_deriv ?_
  ring

theorem gauss_moments (m : ℝ) (v : ℝ≥0) :
    (∫ x, x ^ 2 ∂gaussianReal m v = m ^ 2 + v) ∧
    (∫ x, x ^ 4 ∂gaussianReal m v = m ^ 4 + 6 * m ^ 2 * v + 3 * (v : ℝ) ^ 2) := by
  set E : ℝ → ℝ := fun t => Real.exp (m * t + v * t ^ 2 / 2) with hE
  have hp : ∀ t : ℝ, HasDerivAt (fun t : ℝ => m + v * t) v t := fun t => by
    simpa using ((hasDerivAt_id t).const_mul (v : ℝ)).const_add m
  have d0 : deriv E = fun t => (m + v * t) * E t := by
    funext t
    have := gauss_mgf_deriv m v (fun _ => 1) (fun _ => 0) (fun t => hasDerivAt_const t _) t
    simp only [one_mul, zero_add] at this
    exact this.deriv
  have d1 : deriv (fun t => (m + v * t) * E t) = fun t => (v + (m + v * t) ^ 2) * E t := by
    funext t
    have := (gauss_mgf_deriv m v _ _ hp t).deriv
    rw [this]
    simp only [hE]
    ring
  have d2 : deriv (fun t => (v + (m + v * t) ^ 2) * E t) =
      fun t => (3 * v * (m + v * t) + (m + v * t) ^ 3) * E t := by
    funext t
    have := (gauss_mgf_deriv m v (fun t => v + (m + v * t) ^ 2) (fun t => 2 * (m + v * t) * v)
      (fun t => (((hp t).pow 2).const_add (v : ℝ)).congr_deriv (by push_cast; ring)) t).deriv
    rw [this]
    simp only [hE]
    ring
  have d3 : deriv (fun t => (3 * v * (m + v * t) + (m + v * t) ^ 3) * E t) =
      fun t => (3 * (v : ℝ) ^ 2 + 6 * v * (m + v * t) ^ 2 + (m + v * t) ^ 4) * E t := by
    funext t
    have := (gauss_mgf_deriv m v (fun t => 3 * v * (m + v * t) + (m + v * t) ^ 3)
      (fun t => 3 * v * v + 3 * (m + v * t) ^ 2 * v)
      (fun t => (((hp t).const_mul (3 * (v : ℝ))).add ((hp t).pow 3)).congr_deriv (by push_cast; ring)) t).deriv
    rw [this]
    simp only [hE]
    ring
  have hmgf : mgf id (gaussianReal m v) = E := mgf_id_gaussianReal
  have h0 : (0 : ℝ) ∈ interior (integrableExpSet id (gaussianReal m v)) := by simp
  constructor
  · have := iteratedDeriv_mgf_zero h0 2
    rw [hmgf, iteratedDeriv_succ, iteratedDeriv_succ, iteratedDeriv_zero, d0, d1] at this
    simp only [id, Pi.pow_apply] at this
    rw [← this]
    simp [hE]
    ring
  · have := iteratedDeriv_mgf_zero h0 4
    rw [hmgf, iteratedDeriv_succ, iteratedDeriv_succ, iteratedDeriv_succ, iteratedDeriv_succ,
      iteratedDeriv_zero, d0, d1, d2, d3] at this
    simp only [id, Pi.pow_apply] at this
    rw [← this]
    simp [hE]
    ring

/-- **C47, part.** The diagonal is the variance of the square of a Gaussian variable with the given mean and
variance. Missing: the other elements, see `C47_independent_refuted`. -/
theorem C47_diagonal_partial (mean var : Nat → ℝ) (cov : Nat → Nat → Nat → ℝ) (ndata jj a : Nat)
    (v : ℝ≥0) (hv : var (jj * ndata + a) = v) (hc : cov jj a a = var (jj * ndata + a)) :
    blockCovSquare mean var cov ndata jj a a =
      Var[fun x => x ^ 2; gaussianReal (mean (jj * ndata + a)) v] := by
  have hL : MemLp (fun x : ℝ => x ^ 2) 2 (gaussianReal (mean (jj * ndata + a)) v) := by
    rw [memLp_two_iff_integrable_sq (by fun_prop)]
    have := (memLp_id_gaussianReal (μ := mean (jj * ndata + a)) (v := v) 4).integrable_norm_pow (p := 4) (by norm_num)
    refine this.congr (Filter.Eventually.of_forall fun x => ?_)
    simp only [id, Real.norm_eq_abs]
    rw [← pow_mul, Even.pow_abs (by decide)]
  rw [variance_eq_sub hL]
  obtain ⟨h2, h4⟩ := gauss_moments (mean (jj * ndata + a)) v
  have e4 : (∫ x, ((fun x : ℝ => x ^ 2) ^ 2) x ∂gaussianReal (mean (jj * ndata + a)) v) =
      ∫ x, x ^ 4 ∂gaussianReal (mean (jj * ndata + a)) v := by
    congr 1
    funext x
    simp only [Pi.pow_apply]
    ring
  rw [e4, h2, h4]
  unfold blockCovSquare
  dsimp only
  rw [hc, hv]
  ring

/-- Mean 2 and variance 3: 2·9 + 4·4·3 = 66 on the diagonal of the second of two blocks of two. -/
example : Var[fun x => x ^ 2; gaussianReal 2 3] = 66 := by
  have h := C47_diagonal_partial (fun i => if i = 3 then 2 else 7) (fun i => if i = 3 then 3 else 5)
    (fun jj a b => if jj = 1 ∧ a = 1 ∧ b = 1 then 3 else 1) 2 1 1 3 (by simp) (by simp)
  norm_num [blockCovSquare] at h
  exact h.symm

/-- **C47, refuted.** For independent Gaussian variables, which have covariance zero, the squares have
covariance zero, but the function returns a positive element. -/
theorem C47_independent_refuted {Ω : Type} [MeasurableSpace Ω] {P : Measure Ω} [IsProbabilityMeasure P]
    {X Y : Ω → ℝ} {m1 m2 : ℝ} {v1 v2 : ℝ≥0} (hX : HasLaw X (gaussianReal m1 v1) P)
    (hY : HasLaw Y (gaussianReal m2 v2) P) (hi : IndepFun X Y P) (h1 : v1 ≠ 0) (h2 : v2 ≠ 0)
    (mean var : Nat → ℝ) (cov : Nat → Nat → Nat → ℝ) (ndata jj a b : Nat)
    (hm1 : mean (jj * ndata + a) = m1) (hm2 : mean (jj * ndata + b) = m2)
    (hv1 : var (jj * ndata + a) = v1) (hv2 : var (jj * ndata + b) = v2) (hc : cov jj a b = cov[X, Y; P]) :
    cov[fun ω => X ω ^ 2, fun ω => Y ω ^ 2; P] = 0 ∧ 0 < blockCovSquare mean var cov ndata jj a b := by
  have mem : ∀ {Z : Ω → ℝ} {m : ℝ} {v : ℝ≥0}, HasLaw Z (gaussianReal m v) P →
      MemLp Z 2 P ∧ MemLp (fun ω => Z ω ^ 2) 2 P := by
    intro Z m v hZ
    have hid : ∀ p : ℝ≥0, MemLp Z p P := by
      intro p
      have := (memLp_id_gaussianReal (μ := m) (v := v) p)
      rw [← hZ.map_eq] at this
      exact (memLp_map_measure_iff (by fun_prop) hZ.aemeasurable).mp this
    refine ⟨hid 2, ?_⟩
    rw [memLp_two_iff_integrable_sq (hZ.aemeasurable.pow_const 2).aestronglyMeasurable]
    have := (hid 4).integrable_norm_pow (p := 4) (by norm_num)
    refine this.congr (Filter.Eventually.of_forall fun x => ?_)
    simp only [Real.norm_eq_abs]
    rw [← pow_mul, Even.pow_abs (by decide)]
  refine ⟨?_, ?_⟩
  · have hi' : IndepFun (fun ω => X ω ^ 2) (fun ω => Y ω ^ 2) P :=
      hi.comp (φ := fun x : ℝ => x ^ 2) (ψ := fun x : ℝ => x ^ 2) (by fun_prop) (by fun_prop)
    exact hi'.covariance_eq_zero (mem hX).2 (mem hY).2
  · have h0 := hi.covariance_eq_zero (mem hX).1 (mem hY).1
    unfold blockCovSquare
    dsimp only
    rw [hc, h0, hm1, hm2, hv1, hv2]
    have p1 : 0 < v1 := pos_iff_ne_zero.mpr h1
    have p2 : 0 < v2 := pos_iff_ne_zero.mpr h2
    have p1' : (0 : ℝ) < v1 := p1
    have p2' : (0 : ℝ) < v2 := p2
    have q := mul_pos p1' p2'
    have r1 := mul_nonneg p1'.le (sq_nonneg m2)
    have r2 := mul_nonneg p2'.le (sq_nonneg m1)
    nlinarith

/-- There are such variables: the coordinates of a product of two standard normal distributions. -/
example : ∃ (Ω : Type) (_ : MeasurableSpace Ω) (P : Measure Ω) (_ : IsProbabilityMeasure P) (X Y : Ω → ℝ),
    HasLaw X (gaussianReal 0 1) P ∧ HasLaw Y (gaussianReal 0 1) P ∧ IndepFun X Y P := by
  refine ⟨ℝ × ℝ, inferInstance, (gaussianReal 0 1).prod (gaussianReal 0 1), inferInstance, Prod.fst, Prod.snd,
    ⟨by fun_prop, ?_⟩, ⟨by fun_prop, ?_⟩, ?_⟩
  · rw [Measure.map_fst_prod]; simp
  · rw [Measure.map_snd_prod]; simp
  · exact indepFun_prod (X := id) (Y := id) (by fun_prop) (by fun_prop)

end Verif.Props
