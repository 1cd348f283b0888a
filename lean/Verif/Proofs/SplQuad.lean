import Mathlib.Analysis.Convex.Deriv
import Mathlib.Analysis.Convex.Slope
import Mathlib.Analysis.SpecialFunctions.Integrals.Basic
import Verif.Proofs.NatSpline
import Verif.Proofs.LegendreShift

/-!
# Lemmas: the error of the integral of a natural spline
-/

namespace Verif.Proofs
open Verif.Model Verif.Spec Polynomial

theorem convex_trap {g : ℝ → ℝ} {a b : ℝ} (hab : a < b) (hg : ConvexOn ℝ (Set.Icc a b) g) (hc : Continuous g) :
    ∫ t in a..b, g t ≤ (b - a) * (g a + g b) / 2 := by
  have hp : 0 < b - a := by linarith
  have chord : ∀ t ∈ Set.Icc a b, g t ≤ g a + (t - a) * ((g b - g a) / (b - a)) := by
    intro t ht
    have w1 : 0 ≤ (b - t) / (b - a) := div_nonneg (by linarith [ht.2]) hp.le
    have w2 : 0 ≤ (t - a) / (b - a) := div_nonneg (by linarith [ht.1]) hp.le
    have h := hg.2 (Set.left_mem_Icc.mpr hab.le) (Set.right_mem_Icc.mpr hab.le) w1 w2
      (by rw [← add_div, div_eq_one_iff_eq hp.ne']; ring)
    simp only [smul_eq_mul] at h
    have e : (b - t) / (b - a) * a + (t - a) / (b - a) * b = t := by
      field_simp
      ring
    rw [e] at h
    refine h.trans (le_of_eq ?_)
    field_simp
    ring
  have i2 : Continuous (fun t : ℝ => g a + (t - a) * ((g b - g a) / (b - a))) := by fun_prop
  have h := intervalIntegral.integral_mono_on hab.le (hc.intervalIntegrable (μ := MeasureTheory.volume) a b) (i2.intervalIntegrable a b) chord
  refine h.trans (le_of_eq ?_)
  have hd : ∀ t : ℝ, HasDerivAt (fun t : ℝ => g a * t + (t - a) ^ 2 / 2 * ((g b - g a) / (b - a)))
      (g a + (t - a) * ((g b - g a) / (b - a))) t := by
    intro t
    have h1 : HasDerivAt (fun t : ℝ => g a * t) (g a) t := by simpa using (hasDerivAt_id t).const_mul (g a)
    have h2 : HasDerivAt (fun t : ℝ => (t - a) ^ 2 / 2) (t - a) t := by
      have := (((hasDerivAt_id t).sub_const a).pow 2).div_const 2
      refine this.congr_deriv ?_
      simp
    exact h1.add (h2.mul_const _)
  rw [intervalIntegral.integral_eq_sub_of_hasDerivAt (fun t _ => hd t) (i2.intervalIntegrable a b)]
  field_simp
  ring

/-- The second derivative of `f` is between `-M` and `M` on `[0, 1]`. -/
structure Curv (f : ℝ → ℝ) (M : ℝ) : Prop where
  cont : Continuous f
  up : ConvexOn ℝ (Set.Icc 0 1) (fun t => M / 2 * t ^ 2 - f t)
  down : ConvexOn ℝ (Set.Icc 0 1) (fun t => M / 2 * t ^ 2 + f t)

theorem sq_integral (M a b : ℝ) : ∫ t in a..b, M / 2 * t ^ 2 = M / 6 * (b ^ 3 - a ^ 3) := by
  rw [intervalIntegral.integral_const_mul, integral_pow]
  push_cast
  ring

theorem Curv.trap {f : ℝ → ℝ} {M : ℝ} (h : Curv f M) {a b : ℝ} (hab : a < b) (h0 : 0 ≤ a) (h1 : b ≤ 1) :
    |(b - a) * (f a + f b) / 2 - ∫ t in a..b, f t| ≤ M * (b - a) ^ 3 / 12 := by
  have hs : Set.Icc a b ⊆ Set.Icc 0 1 := Set.Icc_subset_Icc h0 h1
  have hq : Continuous (fun t : ℝ => M / 2 * t ^ 2) := by fun_prop
  have hf := h.cont
  have e1 := convex_trap hab (h.up.subset hs (convex_Icc a b)) (hq.sub hf)
  have e2 := convex_trap hab (h.down.subset hs (convex_Icc a b)) (hq.add hf)
  rw [intervalIntegral.integral_sub (hq.intervalIntegrable a b) (hf.intervalIntegrable a b), sq_integral] at e1
  rw [intervalIntegral.integral_add (hq.intervalIntegrable a b) (hf.intervalIntegrable a b), sq_integral] at e2
  rw [abs_le]
  constructor
  · linarith
  · linarith

theorem Curv.slope {f : ℝ → ℝ} {M : ℝ} (h : Curv f M) {a b c : ℝ} (hab : a < b) (hbc : b < c) (h0 : 0 ≤ a) (h1 : c ≤ 1) :
    |(f c - f b) / (c - b) - (f b - f a) / (b - a)| ≤ M * (c - a) / 2 := by
  have ma : a ∈ Set.Icc (0 : ℝ) 1 := ⟨h0, by linarith⟩
  have mc : c ∈ Set.Icc (0 : ℝ) 1 := ⟨by linarith, h1⟩
  have e1 := h.up.slope_mono_adjacent ma mc hab hbc
  have e2 := h.down.slope_mono_adjacent ma mc hab hbc
  have hp : 0 < b - a := by linarith
  have hq : 0 < c - b := by linarith
  have q1 : (M / 2 * b ^ 2 - f b - (M / 2 * a ^ 2 - f a)) / (b - a) = M / 2 * (a + b) - (f b - f a) / (b - a) := by
    field_simp; ring
  have q2 : (M / 2 * c ^ 2 - f c - (M / 2 * b ^ 2 - f b)) / (c - b) = M / 2 * (b + c) - (f c - f b) / (c - b) := by
    field_simp; ring
  have q3 : (M / 2 * b ^ 2 + f b - (M / 2 * a ^ 2 + f a)) / (b - a) = M / 2 * (a + b) + (f b - f a) / (b - a) := by
    field_simp; ring
  have q4 : (M / 2 * c ^ 2 + f c - (M / 2 * b ^ 2 + f b)) / (c - b) = M / 2 * (b + c) + (f c - f b) / (c - b) := by
    field_simp; ring
  rw [q1, q2] at e1
  rw [q3, q4] at e2
  rw [abs_le]
  constructor
  · linarith
  · linarith

theorem splInt_error {f : ℝ → ℝ} {M : ℝ} (hM : 0 ≤ M) (h : Curv f M) {x : Nat → ℝ} {last : Nat} (h0 : 0 < last)
    (hx : ∀ i < last, 0 < splStep x i) (hx0 : x 0 = 0) (hx1 : x last = 1) {d : ℝ} (hd : ∀ i < last, splStep x i ≤ d) :
    |splInt x (fun i => f (x i)) last - ∫ t in (0 : ℝ)..1, f t| ≤ M / 3 * d ^ 2 := by
  have up : ∀ i j, i ≤ j → j ≤ last → x i ≤ x j := by
    intro i j hij
    induction j, hij using Nat.le_induction with
    | base => intro _; exact le_rfl
    | succ j _ ih =>
      intro hj
      have := hx j (by omega)
      unfold splStep at this
      linarith [ih (by omega)]
  have lo : ∀ i ≤ last, 0 ≤ x i := fun i hi => hx0 ▸ up 0 i (by omega) hi
  have hi1 : ∀ i ≤ last, x i ≤ 1 := fun i hi => hx1 ▸ up i last hi le_rfl
  have hs := splSystem_splM (fun i => f (x i)) h0 hx
  generalize hm : splM x (fun i => f (x i)) last = m at hs
  have hb : ∀ i ≤ last, |m i| ≤ 3 * M := by
    refine tri_bound hx ?_ ?_ ?_
    · rw [hs.atFirst, abs_zero]; linarith
    · rw [hs.atLast, abs_zero]; linarith
    · intro i hi
      rw [hs.eqn i hi]
      unfold splRhs
      rw [Nat.add_sub_cancel]
      have a := hx i (by omega)
      have b := hx (i + 1) hi
      unfold splStep at *
      have := h.slope (a := x i) (b := x (i + 1)) (c := x (i + 2)) (by linarith)
        (by rw [show i + 1 + 1 = i + 2 from rfl] at b; linarith) (lo i (by omega)) (hi1 (i + 2) (by omega))
      rw [abs_mul, abs_of_pos (by norm_num : (0 : ℝ) < 6)]
      rw [show i + 1 + 1 = i + 2 from rfl]
      linarith
  have piece : ∀ i < last, |splPiece x (fun i => f (x i)) m i - ((∫ t in (0 : ℝ)..x (i + 1), f t) - ∫ t in (0 : ℝ)..x i, f t)| ≤
      M / 3 * d ^ 2 * (x (i + 1) - x i) := by
    intro i hi
    have a := hx i hi
    have ad := hd i hi
    have hint : ∀ u v : ℝ, IntervalIntegrable f MeasureTheory.volume u v := fun u v => h.cont.intervalIntegrable u v
    rw [intervalIntegral.integral_interval_sub_left (hint _ _) (hint _ _)]
    unfold splPiece
    unfold splStep at *
    have t := h.trap (a := x i) (b := x (i + 1)) (by linarith) (lo i (by omega)) (hi1 (i + 1) (by omega))
    have m1 := hb i (by omega)
    have m2 := hb (i + 1) (by omega)
    generalize x (i + 1) - x i = s at *
    have e : s * (f (x i) + f (x (i + 1))) / 2 - s ^ 3 * (m i + m (i + 1)) / 24 - (∫ t in x i..x (i + 1), f t) =
        (s * (f (x i) + f (x (i + 1))) / 2 - ∫ t in x i..x (i + 1), f t) + -(s ^ 3 / 24) * (m i + m (i + 1)) := by ring
    rw [e]
    refine (abs_add_le _ _).trans ?_
    have s3 : 0 < s ^ 3 := by positivity
    have h2 : |-(s ^ 3 / 24) * (m i + m (i + 1))| ≤ s ^ 3 / 24 * (6 * M) := by
      rw [abs_mul, abs_neg, abs_of_pos (by positivity)]
      refine mul_le_mul_of_nonneg_left ?_ (by positivity)
      refine (abs_add_le _ _).trans ?_
      linarith
    have h3 : s ^ 3 ≤ d ^ 2 * s := by
      have : s ^ 2 ≤ d ^ 2 := by nlinarith
      nlinarith
    have h4 := mul_le_mul_of_nonneg_left h3 hM
    linarith
  have t1 := telescope (fun i => ∫ t in (0 : ℝ)..x i, f t) last
  have t2 := telescope x last
  rw [hx0, hx1] at *
  simp only [intervalIntegral.integral_same, sub_zero] at t1 t2
  rw [← t1]
  unfold splInt
  rw [hm]
  have : ((List.range last).map (splPiece x (fun i => f (x i)) m)).sum -
      ((List.range last).map (fun i => (∫ t in (0 : ℝ)..x (i + 1), f t) - ∫ t in (0 : ℝ)..x i, f t)).sum =
      ((List.range last).map (fun i => splPiece x (fun i => f (x i)) m i -
        ((∫ t in (0 : ℝ)..x (i + 1), f t) - ∫ t in (0 : ℝ)..x i, f t))).sum := by
    generalize List.range last = l
    induction l with
    | nil => simp
    | cons i l ih =>
      simp only [List.map_cons, List.sum_cons]
      rw [← ih]
      ring
  rw [this]
  refine (abs_sum_range_le piece).trans ?_
  rw [List.sum_map_mul_left, t2, mul_one]

/-- Polynomials in `2 t - 1`. -/
theorem curv_poly {p : ℝ[X]} {M : ℝ} (h : ∀ t, |t| ≤ 1 → |(derivative (derivative p)).eval t| ≤ M) :
    Curv (fun t => p.eval (2 * t - 1)) (4 * M) := by
  have gen : ∀ q : ℝ[X], (∀ t, |t| ≤ 1 → |(derivative (derivative q)).eval t| ≤ M) →
      ConvexOn ℝ (Set.Icc 0 1) (fun t => 4 * M / 2 * t ^ 2 + q.eval (2 * t - 1)) := by
    intro q hq
    let F : ℝ[X] := C (4 * M / 2) * X ^ 2 + q.comp (2 * X - 1)
    have hF : (fun t : ℝ => 4 * M / 2 * t ^ 2 + q.eval (2 * t - 1)) = fun t => F.eval t := by
      funext t
      simp [F]
    have hd : derivative (derivative F) = C (4 * M) + 4 * (derivative (derivative q)).comp (2 * X - 1) := by
      simp only [F, derivative_add, derivative_mul, derivative_C, derivative_pow, derivative_X, derivative_comp,
        derivative_sub, derivative_one, derivative_ofNat, map_ofNat, zero_mul, zero_add, mul_one, sub_zero, mul_zero, add_zero]
      have hc : C (4 * M) = 2 * C (4 * M / 2) := by
        rw [← map_ofNat C 2, ← C_mul]
        congr 1
        ring
      rw [hc]
      simp
      rw [map_ofNat C 2]
      ring
    rw [hF]
    have d1 : deriv (fun t => F.eval t) = fun t => (derivative F).eval t := by
      funext t; exact Polynomial.deriv F
    refine convexOn_of_deriv2_nonneg' (convex_Icc 0 1) F.differentiable.differentiableOn ?_ ?_
    · rw [d1]; exact (derivative F).differentiable.differentiableOn
    · intro t ht
      rw [Function.iterate_succ, Function.iterate_one, Function.comp_apply, d1, Polynomial.deriv, hd]
      simp only [eval_add, eval_C, eval_mul, eval_ofNat, eval_comp, eval_sub, eval_X, eval_one]
      have := hq (2 * t - 1) (abs_le.mpr ⟨by linarith [ht.1], by linarith [ht.2]⟩)
      have := (abs_le.mp this).1
      linarith
  refine ⟨p.continuous.comp (by fun_prop), ?_, gen p h⟩
  have := gen (-p) (fun t ht => by simpa using h t ht)
  simpa [sub_eq_add_neg] using this

/-- The error of the integrals of the products. -/
theorem leg_quad {x : List ℝ} (h2 : 2 ≤ x.length) (hst : ∀ i (h : i + 1 < x.length), 0 < x[i + 1] - x[i])
    (x0 : x.getD 0 0 = 0) (x1 : x.getD (x.length - 1) 0 = 1)
    {d : ℝ} (hd : ∀ i (h : i + 1 < x.length), x[i + 1] - x[i] ≤ d) {N a b : Nat} (ha : a ≤ N) (hb : b ≤ N) (hN : 0 < N) :
    |splIntegral x (List.zipWith (· * ·) (legArr x a) (legArr x b)) - if a = b then 1 / (2 * (a : ℝ) + 1) else 0| ≤
      (N : ℝ) * (N + 1) * (3 * (N * (N + 1)) - 2) / 3 * d ^ 2 := by
  have hN1 : (1 : ℝ) ≤ N := by exact_mod_cast hN
  have ha' : (a : ℝ) ≤ N := by exact_mod_cast ha
  have hb' : (b : ℝ) ≤ N := by exact_mod_cast hb
  have prod : ∀ n : Nat, (n : ℝ) ≤ N → (n : ℝ) * (n + 1) ≤ N * (N + 1) := by
    intro n hn
    have : (0 : ℝ) ≤ n := by positivity
    nlinarith
  have prod2 : ∀ n : Nat, (n : ℝ) ≤ N → ((n : ℝ) - 1) * n * (n + 1) * (n + 2) ≤ N * (N + 1) * (N * (N + 1) - 2) := by
    intro n hn
    have h := prod n hn
    have h0 : (0 : ℝ) ≤ n := by positivity
    have e : ((n : ℝ) - 1) * n * (n + 1) * (n + 2) = n * (n + 1) * (n * (n + 1) - 2) := by ring
    rw [e]
    have : (2 : ℝ) ≤ N * (N + 1) := by nlinarith
    have : (0 : ℝ) ≤ n * (n + 1) := by positivity
    nlinarith
  have bound : ∀ t : ℝ, |t| ≤ 1 → |(derivative (derivative (legPoly a * legPoly b))).eval t| ≤
      (N : ℝ) * (N + 1) * (3 * (N * (N + 1)) - 2) / 4 := by
    intro t ht
    have e : (derivative (derivative (legPoly a * legPoly b))).eval t =
        (derivative (derivative (legPoly a))).eval t * (legPoly b).eval t +
        2 * ((derivative (legPoly a)).eval t * (derivative (legPoly b)).eval t) +
        (legPoly a).eval t * (derivative (derivative (legPoly b))).eval t := by
      simp only [derivative_mul, derivative_add, eval_add, eval_mul]
      ring
    rw [e]
    have la := legPoly_le a ht
    have lb := legPoly_le b ht
    have da := (legPoly_der_le a ht).trans (div_le_div_of_nonneg_right (prod a ha') (by norm_num : (0 : ℝ) ≤ 2))
    have db := (legPoly_der_le b ht).trans (div_le_div_of_nonneg_right (prod b hb') (by norm_num : (0 : ℝ) ≤ 2))
    have ea := (legPoly_der2_le a ht).trans (div_le_div_of_nonneg_right (prod2 a ha') (by norm_num : (0 : ℝ) ≤ 8))
    have eb := (legPoly_der2_le b ht).trans (div_le_div_of_nonneg_right (prod2 b hb') (by norm_num : (0 : ℝ) ≤ 8))
    refine (abs_add_le _ _).trans ?_
    refine (add_le_add_left (abs_add_le _ _) _).trans ?_
    rw [abs_mul, abs_mul, abs_mul, abs_mul, abs_of_pos (by norm_num : (0 : ℝ) < 2)]
    have p1 := mul_le_mul ea lb (abs_nonneg _) ((abs_nonneg _).trans ea)
    have p2 := mul_le_mul da db (abs_nonneg _) ((abs_nonneg _).trans da)
    have p3 := mul_le_mul la eb (abs_nonneg _) zero_le_one
    refine (add_le_add (add_le_add p1 (mul_le_mul_of_nonneg_left p2 zero_le_two)) p3).trans (le_of_eq ?_)
    ring
  have hM : (0 : ℝ) ≤ 4 * ((N : ℝ) * (N + 1) * (3 * (N * (N + 1)) - 2) / 4) := by
    have : (2 : ℝ) ≤ N * (N + 1) := by nlinarith
    have : (0 : ℝ) ≤ (N : ℝ) * (N + 1) * (3 * (N * (N + 1)) - 2) := mul_nonneg (by positivity) (by linarith)
    linarith
  have key := splInt_error hM (curv_poly bound) (x := fun i => x.getD i 0) (last := x.length - 1) (by omega)
    (by intro i hi; rw [splStep_getD (by omega)]; exact hst i (by omega)) x0 x1 (d := d)
    (by intro i hi; rw [splStep_getD (by omega)]; exact hd i (by omega))
  have hint : (∫ t in (0 : ℝ)..1, (legPoly a * legPoly b).eval (2 * t - 1)) = if a = b then 1 / (2 * (a : ℝ) + 1) else 0 := by
    change legInt _ = _
    split
    · next e =>
      subst e
      have := legPoly_norm a
      rw [eq_div_iff (by positivity)]
      linarith
    · next e => exact legPoly_orth e
  have hc : splIntegral x (List.zipWith (· * ·) (legArr x a) (legArr x b)) =
      splInt (fun i => x.getD i 0) (fun i => (legPoly a * legPoly b).eval (2 * x.getD i 0 - 1)) (x.length - 1) := by
    unfold splIntegral
    refine splInt_congr fun i hi => ?_
    have hi' : i < x.length := by omega
    simp [legArr, legPoly_eval, List.getD_eq_getElem?_getD, hi']
  rw [hc, ← hint]
  refine key.trans (le_of_eq ?_)
  ring

end Verif.Proofs
