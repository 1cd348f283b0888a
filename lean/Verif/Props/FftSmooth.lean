import Verif.Proofs.FftSmooth
import Verif.Model.Smooth
import Mathlib.Probability.Distributions.Gaussian.Real
import Mathlib.Analysis.Real.Pi.Bounds

/-!
# C74: the FFT smoother
-/

namespace Verif.Props
open Verif Verif.Model Verif.Model.Fft Verif.Np Verif.Proofs
open scoped BigOperators NNReal

theorem padSize_pos (sigma : ℝ) : 0 < padSize sigma := by
  unfold padSize
  omega

theorem padEdge_ok {x : List ℝ} (hx : x ≠ []) (p : Nat) :
    padEdge x p = .ok (List.replicate p (x.head hx) ++ x ++ List.replicate p (x.getLast hx)) := by
  cases x with
  | nil => exact absurd rfl hx
  | cons a l => rfl

theorem smooth_eq {x : List ℝ} (hx : x ≠ []) (sigma : ℝ) : fftGaussianSmooth x sigma =
    .ok (slice (Fft.filter (List.replicate (padSize sigma) (x.head hx) ++ x ++ List.replicate (padSize sigma) (x.getLast hx))
      sigma) (padSize sigma) (padSize sigma + x.length)) := by
  unfold fftGaussianSmooth
  rw [padEdge_ok hx]
  have : ∀ (a b : Nat), (List.replicate a (x.head hx) ++ x ++ List.replicate b (x.getLast hx)).length - b = a + x.length := by
    intro a b
    simp
    omega
  change Except.ok _ = _
  dsimp only
  rw [this]

/-- **C74.** The smoothed array has the length of the array; an empty array is refused. -/
theorem C74_length (x : List ℝ) (sigma : ℝ) :
    (x = [] ∧ fftGaussianSmooth x sigma = .error .valueError) ∨
    ∃ y, fftGaussianSmooth x sigma = .ok y ∧ y.length = x.length := by
  by_cases hx : x = []
  · subst hx
    exact .inl ⟨rfl, rfl⟩
  · refine .inr ⟨_, smooth_eq hx sigma, ?_⟩
    unfold slice
    rw [List.length_drop, List.length_take, filter_length]
    simp only [List.length_append, List.length_replicate]
    omega

theorem filter_linear (a b : ℝ) {p q : List ℝ} (h : p.length = q.length) (sigma : ℝ) :
    Fft.filter (List.zipWith (fun x y => a * x + b * y) p q) sigma =
      List.zipWith (fun x y => a * x + b * y) (Fft.filter p sigma) (Fft.filter q sigma) := by
  have hl : (List.zipWith (fun x y => a * x + b * y) p q).length = p.length := by
    rw [List.length_zipWith, ← h, min_self]
  refine List.ext_getElem? fun m => ?_
  by_cases hm : m < p.length
  · rw [filter_get _ _ (by rw [hl]; exact hm), List.getElem?_zipWith, filter_get p _ hm, filter_get q _ (by rw [← h]; exact hm)]
    simp only [hl, ← h]
    congr 1
    rw [mul_div_assoc', mul_div_assoc', ← add_div, Finset.mul_sum, Finset.mul_sum, ← Finset.sum_add_distrib]
    congr 1
    refine Finset.sum_congr rfl fun j hj => ?_
    rw [Finset.mem_range] at hj
    have hp := List.getElem?_eq_getElem hj
    have hq := List.getElem?_eq_getElem (l := q) (by rw [← h]; exact hj)
    rw [List.getD_eq_getElem?_getD, List.getD_eq_getElem?_getD, List.getD_eq_getElem?_getD, List.getElem?_zipWith, hp, hq]
    simp only [Option.getD_some]
    ring
  · rw [List.getElem?_eq_none (by rw [filter_length, hl]; omega), List.getElem?_eq_none (by
      rw [List.length_zipWith, filter_length, filter_length]; omega)]

/-- **C74.** Smoothing is linear. -/
theorem C74_linear (a b sigma : ℝ) {x x' y y' : List ℝ} (h : x.length = x'.length) (hy : fftGaussianSmooth x sigma = .ok y)
    (hy' : fftGaussianSmooth x' sigma = .ok y') :
    fftGaussianSmooth (List.zipWith (fun u v => a * u + b * v) x x') sigma =
      .ok (List.zipWith (fun u v => a * u + b * v) y y') := by
  match x, x', h with
  | [], [], _ => cases hy
  | u :: l, u' :: l', h =>
    have hx : u :: l ≠ [] := by simp
    have hx' : u' :: l' ≠ [] := by simp
    have hz : List.zipWith (fun u v => a * u + b * v) (u :: l) (u' :: l') ≠ [] := by simp
    rw [smooth_eq hx] at hy
    rw [smooth_eq hx'] at hy'
    cases hy
    cases hy'
    have hzl : (List.zipWith (fun u v => a * u + b * v) (u :: l) (u' :: l')).length = (u :: l).length := by
      rw [List.length_zipWith, ← h, min_self]
    have hlast : (List.zipWith (fun u v => a * u + b * v) (u :: l) (u' :: l')).getLast hz =
        a * (u :: l).getLast hx + b * (u' :: l').getLast hx' := by
      rw [List.getLast_eq_getElem, List.getLast_eq_getElem, List.getLast_eq_getElem, List.getElem_zipWith]
      simp only [hzl, ← h]
    rw [smooth_eq hz, hlast, hzl]
    have hpad : List.replicate (padSize sigma) ((List.zipWith (fun u v => a * u + b * v) (u :: l) (u' :: l')).head hz) ++
        List.zipWith (fun u v => a * u + b * v) (u :: l) (u' :: l') ++
        List.replicate (padSize sigma) (a * (u :: l).getLast hx + b * (u' :: l').getLast hx') =
        List.zipWith (fun u v => a * u + b * v)
          (List.replicate (padSize sigma) ((u :: l).head hx) ++ (u :: l) ++ List.replicate (padSize sigma) ((u :: l).getLast hx))
          (List.replicate (padSize sigma) ((u' :: l').head hx') ++ (u' :: l') ++
            List.replicate (padSize sigma) ((u' :: l').getLast hx')) := by
      rw [List.zipWith_append (by simpa using h), List.zipWith_append (by simp)]
      simp only [List.zipWith_replicate', List.zipWith_cons_cons, List.head_cons]
    rw [hpad, filter_linear a b (by simp at h ⊢; omega)]
    unfold slice
    rw [List.take_zipWith, List.drop_zipWith, h]

theorem filter_const (n : Nat) (c sigma : ℝ) : Fft.filter (List.replicate n c) sigma = List.replicate n c := by
  have h1 : List.replicate n (1 : ℝ) =
      (List.range n).map (fun j : Nat => Real.cos (2 * Real.pi * (((0 : Nat) : ℝ) * j) / n + 0)) := by
    refine List.ext_getElem? fun m => ?_
    by_cases hm : m < n
    · rw [List.getElem?_map, List.getElem?_range hm, List.getElem?_replicate, if_pos hm]
      simp
    · rw [List.getElem?_eq_none (by simpa using hm), List.getElem?_eq_none (by simpa using hm)]
  have h2 : Fft.filter (List.replicate n (1 : ℝ)) sigma = List.replicate n 1 := by
    refine List.ext_getElem? fun m => ?_
    by_cases hm : m < n
    · rw [h1, filter_mode (by omega) (by omega) _ _ hm, ← h1, List.getElem?_replicate, if_pos hm]
      simp [gauss]
    · rw [List.getElem?_eq_none (by rw [filter_length]; simpa using hm), List.getElem?_eq_none (by simpa using hm)]
  have h3 := filter_linear c 0 (p := List.replicate n 1) (q := List.replicate n 1) rfl sigma
  rw [h2] at h3
  simpa [List.zipWith_replicate'] using h3

/-- **C74.** A constant array is not changed. -/
theorem C74_constant {n : Nat} (hn : 0 < n) (c sigma : ℝ) :
    fftGaussianSmooth (List.replicate n c) sigma = .ok (List.replicate n c) := by
  have hx : List.replicate n c ≠ [] := by
    rw [Ne, List.replicate_eq_nil_iff]
    omega
  rw [smooth_eq hx]
  have : List.replicate (padSize sigma) ((List.replicate n c).head hx) ++ List.replicate n c ++
      List.replicate (padSize sigma) ((List.replicate n c).getLast hx) =
      List.replicate (padSize sigma + n + padSize sigma) c := by
    rw [List.head_replicate, List.getLast_replicate, List.replicate_append_replicate, List.replicate_append_replicate]
  rw [this, filter_const]
  unfold slice
  rw [List.take_replicate, List.drop_replicate]
  congr 2
  simp only [List.length_replicate]
  omega

/-- **C74**, what smoothing does. Full claim: Gaussian smoothing with sigma in pixels, which would multiply a mode of `q`
periods in `n` pixels by the characteristic function of the Gaussian with that sigma. Proved: the array (after the
padding) is convolved with a Gaussian of sigma over 2 pi. See `C74_scale_refuted`. -/
theorem C74_scale_partial {n q : Nat} (hq : 2 * q < n) (φ : ℝ) {sigma : ℝ} {v : ℝ≥0}
    (hv : (v : ℝ) = (sigma / (2 * Real.pi)) ^ 2) :
    ∃ y, Fft.filter ((List.range n).map (fun j : Nat => Real.cos (2 * Real.pi * (q * j) / n + φ))) sigma = y ∧
      ∀ m < n, ∃ f, y[m]? = some f ∧ (f : ℂ) = MeasureTheory.charFun (ProbabilityTheory.gaussianReal 0 v)
        (2 * Real.pi * (q / n)) * Real.cos (2 * Real.pi * (q * m) / n + φ) := by
  refine ⟨_, rfl, fun m hm => ⟨_, filter_mode (by omega) hq φ sigma hm, ?_⟩⟩
  rw [ProbabilityTheory.charFun_gaussianReal]
  unfold gauss
  have hpi := Real.pi_ne_zero
  have e : (((2 * Real.pi * (q / n) : ℝ) : ℂ) * ((0 : ℝ) : ℂ) * Complex.I - (v : ℂ) * ((2 * Real.pi * (q / n) : ℝ) : ℂ) ^ 2 / 2) =
      ((-((q : ℝ) / n * sigma) ^ 2 / 2 : ℝ) : ℂ) := by
    have : ((v : ℝ) : ℂ) = (((sigma / (2 * Real.pi)) ^ 2 : ℝ) : ℂ) := by rw [hv]
    have hv' : (v : ℂ) = (((sigma / (2 * Real.pi)) ^ 2 : ℝ) : ℂ) := this
    rw [hv', Complex.ofReal_zero, mul_zero, zero_mul, zero_sub, ← Complex.ofReal_pow, ← Complex.ofReal_mul,
      ← Complex.ofReal_ofNat, ← Complex.ofReal_div, ← Complex.ofReal_neg]
    congr 1
    field_simp
  rw [e, Complex.ofReal_mul, Complex.ofReal_exp]

/-- **C74** is false: no oscillation is suppressed as by a Gaussian of sigma pixels; every one is left larger. -/
theorem C74_scale_refuted {n q : Nat} (hq : 2 * q < n) (hq0 : 0 < q) (φ : ℝ) {sigma : ℝ} (hs : 0 < sigma) {v : ℝ≥0}
    (hv : (v : ℝ) = sigma ^ 2) {m : Nat} (hm : m < n) (h0 : Real.cos (2 * Real.pi * (q * m) / n + φ) ≠ 0) :
    ∃ f g : ℝ, (Fft.filter ((List.range n).map (fun j : Nat => Real.cos (2 * Real.pi * (q * j) / n + φ))) sigma)[m]? = some f ∧
      (g : ℂ) = MeasureTheory.charFun (ProbabilityTheory.gaussianReal 0 v)
        (2 * Real.pi * (q / n)) * Real.cos (2 * Real.pi * (q * m) / n + φ) ∧ |g| < |f| := by
  refine ⟨_, Real.exp (-(2 * Real.pi * (q / n) * sigma) ^ 2 / 2) * Real.cos (2 * Real.pi * (q * m) / n + φ),
    filter_mode (by omega) hq φ sigma hm, ?_, ?_⟩
  · rw [ProbabilityTheory.charFun_gaussianReal]
    have e : (((2 * Real.pi * (q / n) : ℝ) : ℂ) * ((0 : ℝ) : ℂ) * Complex.I -
        (v : ℂ) * ((2 * Real.pi * (q / n) : ℝ) : ℂ) ^ 2 / 2) = ((-(2 * Real.pi * (q / n) * sigma) ^ 2 / 2 : ℝ) : ℂ) := by
      have : ((v : ℝ) : ℂ) = ((sigma ^ 2 : ℝ) : ℂ) := by rw [hv]
      have hv' : (v : ℂ) = ((sigma ^ 2 : ℝ) : ℂ) := this
      rw [hv', Complex.ofReal_zero, mul_zero, zero_mul, zero_sub, ← Complex.ofReal_pow, ← Complex.ofReal_mul,
        ← Complex.ofReal_ofNat, ← Complex.ofReal_div, ← Complex.ofReal_neg]
      congr 1
      ring
    rw [e, Complex.ofReal_mul, Complex.ofReal_exp]
  · rw [abs_mul, abs_mul]
    refine mul_lt_mul_of_pos_right ?_ (abs_pos.mpr h0)
    unfold gauss
    rw [abs_of_pos (Real.exp_pos _), abs_of_pos (Real.exp_pos _), Real.exp_lt_exp]
    have hpi := Real.pi_gt_three
    have hn : (0 : ℝ) < n := by exact_mod_cast (by omega : 0 < n)
    have hqr : (0 : ℝ) < q := by exact_mod_cast hq0
    have ht : 0 < ((q : ℝ) / n * sigma) ^ 2 := by positivity
    have e : (2 * Real.pi * (q / n) * sigma) ^ 2 = (2 * Real.pi) ^ 2 * ((q : ℝ) / n * sigma) ^ 2 := by ring
    rw [e]
    have : 1 < (2 * Real.pi) ^ 2 := by nlinarith
    nlinarith

example : ∃ v : ℝ≥0, (v : ℝ) = (20 : ℝ) ^ 2 ∧ Real.cos (2 * Real.pi * ((1 : Nat) * (0 : Nat)) / (100 : Nat) + 0) ≠ 0 :=
  ⟨400, by norm_num, by simp⟩

/-- The smoothed array for a single one at the third of four pixels, in the first pixel. -/
theorem smooth_delta : ∃ y, fftGaussianSmooth [0, 0, 1, 0] (1 / 2) = .ok y ∧ y.length = 4 ∧
    y[0]? = some ((1 - Real.exp (-(1 / 288)) - Real.exp (-(4 / 288)) + Real.exp (-(9 / 288))) / 6) := by
  have hp : padSize (1 / 2 : ℝ) = 1 := by
    unfold padSize
    have : ⌊(3 : ℝ) * (1 / 2)⌋ = 1 := by
      rw [Int.floor_eq_iff]
      norm_num
    rw [this]
    rfl
  have hx : [(0 : ℝ), 0, 1, 0] ≠ [] := by simp
  refine ⟨_, smooth_eq hx _, ?_, ?_⟩
  · unfold slice
    rw [List.length_drop, List.length_take, filter_length, hp]
    rfl
  · rw [hp]
    unfold slice
    rw [List.getElem?_drop, List.getElem?_take_of_lt (by simp)]
    have ha : List.replicate 1 ([(0 : ℝ), 0, 1, 0].head hx) ++ [0, 0, 1, 0] ++
        List.replicate 1 ([(0 : ℝ), 0, 1, 0].getLast hx) = [0, 0, 0, 1, 0, 0] := rfl
    rw [ha, filter_get _ _ (by simp)]
    rw [Finset.sum_eq_single 3 (by
        intro j hj hj3
        simp only [List.length_cons, List.length_nil, Finset.mem_range] at hj
        have : j = 0 ∨ j = 1 ∨ j = 2 ∨ j = 4 ∨ j = 5 := by omega
        rcases this with rfl | rfl | rfl | rfl | rfl <;> exact zero_mul _) (by simp)]
    have c1 : Real.cos (2 * Real.pi / 3) = -(1 / 2) := by
      rw [show 2 * Real.pi / 3 = Real.pi - Real.pi / 3 by ring, Real.cos_pi_sub, Real.cos_pi_div_three]
    have e1 : Real.cos (2 * Real.pi * (((1 : Nat) : ℝ) * (((0 + 1 : Nat) : ℝ) - ((3 : Nat) : ℝ))) / ((6 : Nat) : ℝ)) = -(1 / 2) := by
      rw [← c1, ← Real.cos_neg]
      congr 1
      push_cast
      ring
    have e2 : Real.cos (2 * Real.pi * (((2 : Nat) : ℝ) * (((0 + 1 : Nat) : ℝ) - ((3 : Nat) : ℝ))) / ((6 : Nat) : ℝ)) = -(1 / 2) := by
      rw [← c1, ← Real.cos_two_pi_sub (2 * Real.pi / 3), ← Real.cos_neg]
      congr 1
      push_cast
      ring
    have e3 : Real.cos (2 * Real.pi * (((3 : Nat) : ℝ) * (((0 + 1 : Nat) : ℝ) - ((3 : Nat) : ℝ))) / ((6 : Nat) : ℝ)) = 1 := by
      rw [← Real.cos_two_pi, ← Real.cos_neg]
      congr 1
      push_cast
      ring
    have hl : [(0 : ℝ), 0, 0, 1, 0, 0].length = 6 := rfl
    have hg : [(0 : ℝ), 0, 0, 1, 0, 0].getD 3 0 = 1 := rfl
    rw [hl, hg, one_mul]
    rw [Finset.sum_range_succ, Finset.sum_range_succ, Finset.sum_range_succ, Finset.sum_range_succ, Finset.sum_range_zero,
      e1, e2, e3]
    unfold mult gauss
    norm_num
    ring

/-- **C74**: smoothing does not keep positive arrays positive. For a small sigma there are positive errors whose smoothed
error is exactly zero in a pixel, and so its smoothed ivar would be infinite (the assumption of `C33_positive_iff`). -/
theorem C74_positive_refuted : ∃ x y, (∀ e ∈ x, (0 : ℝ) < e) ∧ fftGaussianSmooth x (1 / 2) = .ok y ∧ y[0]? = some 0 := by
  obtain ⟨d, hd, hlen, hd0⟩ := smooth_delta
  set h := (1 - Real.exp (-(1 / 288)) - Real.exp (-(4 / 288)) + Real.exp (-(9 / 288))) / 6 with hh
  have hneg : h < 0 := by
    have q0 : 0 < Real.exp (-(1 / 288)) := Real.exp_pos _
    have q1 : Real.exp (-(1 / 288)) < 1 := by
      rw [Real.exp_lt_one_iff]
      norm_num
    have q2 : 1 - 1 / 288 ≤ Real.exp (-(1 / 288)) := by
      have := Real.add_one_le_exp (-(1 / 288) : ℝ)
      linarith
    have e4 : Real.exp (-(4 / 288)) = Real.exp (-(1 / 288)) ^ 4 := by
      rw [← Real.exp_nat_mul]
      norm_num
    have e9 : Real.exp (-(9 / 288)) = Real.exp (-(1 / 288)) ^ 9 := by
      rw [← Real.exp_nat_mul]
      norm_num
    rw [hh, e4, e9]
    generalize Real.exp (-(1 / 288)) = q at *
    have h8 : ((1 : ℝ) - 1 / 288) ^ 8 ≤ q ^ 8 := pow_le_pow_left₀ (by norm_num) q2 8
    have h8' : (1 / 2 : ℝ) < q ^ 8 := lt_of_lt_of_le (by norm_num) h8
    have hp : ∀ k ≤ 8, q ^ 8 ≤ q ^ k := fun k hk => pow_le_pow_of_le_one q0.le q1.le hk
    have e : 1 - q - q ^ 4 + q ^ 9 = (1 - q) * (1 - (q ^ 4 + q ^ 5 + q ^ 6 + q ^ 7 + q ^ 8)) := by ring
    rw [e]
    have := hp 4 (by norm_num)
    have := hp 5 (by norm_num)
    have := mul_neg_of_pos_of_neg (sub_pos.mpr q1) (show 1 - (q ^ 4 + q ^ 5 + q ^ 6 + q ^ 7 + q ^ 8) < 0 by
      have := pow_pos q0 6
      have := pow_pos q0 7
      linarith)
    linarith
  clear_value h
  have h1 : 0 < 1 - h := by linarith
  have he : 0 < -h / (1 - h) := div_pos (by linarith) h1
  have hc := C74_constant (n := 4) (by norm_num) 1 (1 / 2)
  refine ⟨_, _, ?_, C74_linear (-h / (1 - h)) (1 - -h / (1 - h)) (1 / 2) (by simp) hc hd, ?_⟩
  · intro e hm
    simp [List.replicate] at hm
    rcases hm with rfl | rfl | rfl
    · exact he
    · exact one_pos
    · exact he
  · rw [List.getElem?_zipWith, hd0]
    simp only [List.replicate, List.getElem?_cons_zero]
    congr 1
    field_simp
    ring

/-- **C74.** A constant positive inverse variance is not changed by `get_smooth_ivar`. -/
theorem C74_constant_ivar {n : Nat} (hn : 0 < n) {v : ℝ} (hv : 0 < v) {median : List ℝ → ℝ}
    (hm : ∀ c k, 0 < k → median (List.replicate k c) = c) (smooth : List ℝ → ℝ → List ℝ)
    (hs : ∀ x s y, fftGaussianSmooth x s = .ok y → smooth x s = y) (madScale sigma esigma : ℝ) :
    getSmoothIvar Real.sqrt median smooth madScale (List.replicate n v) sigma esigma = List.replicate n v := by
  have hf : (List.replicate n v).filter (fun v => decide (0 < v)) = List.replicate n v := by
    rw [List.filter_replicate, if_pos (by simpa using hv)]
  have hw : ∀ b x y, replaceWhere (List.replicate n b) (List.replicate n x) (List.replicate n y) =
      List.replicate n (if b then y else x : ℝ) := by
    intro b x y
    unfold replaceWhere
    rw [List.zip_replicate', List.zipWith_replicate']
  unfold getSmoothIvar errorOf
  simp only [hf, List.map_replicate, hm _ n hn, if_pos hv, sub_self, abs_zero, zero_mul, mul_zero, gt_iff_lt, lt_irrefl,
    decide_false, hw, Bool.false_eq_true, if_false]
  rw [hs _ _ _ (C74_constant hn _ _), hw, List.zipWith_replicate']
  simp only [Bool.false_eq_true, if_false, if_pos hv]
  congr 1
  have h := Real.sqrt_pos.mpr hv
  rw [div_pow, one_pow, Real.sq_sqrt hv.le, one_div_one_div]

example : ∃ median : List ℝ → ℝ, ∀ c k, 0 < k → median (List.replicate k c) = c :=
  ⟨fun l => l.headD 0, fun c k hk => by
    obtain ⟨k, rfl⟩ : ∃ k', k = k' + 1 := ⟨k - 1, by omega⟩
    rfl⟩

end Verif.Props
