import Verif.Model.FftSmooth
import Mathlib.RingTheory.RootsOfUnity.Complex
import Mathlib.Analysis.SpecialFunctions.Trigonometric.Deriv
import Mathlib.Tactic.FieldSimp
import Mathlib.Tactic.Linarith

/-!
# Sums of cosines and the kernel of the FFT smoother
-/

namespace Verif.Proofs
open Verif.Model.Fft Verif.Np
open scoped BigOperators

theorem sum_cos {n : Nat} (hn : 0 < n) (l : ℤ) (φ : ℝ) :
    ∑ j ∈ Finset.range n, Real.cos (2 * Real.pi * (l * j) / n + φ) = if (n : ℤ) ∣ l then n * Real.cos φ else 0 := by
  have hn' : (n : ℂ) ≠ 0 := by exact_mod_cast hn.ne'
  have hnr : (n : ℝ) ≠ 0 := by exact_mod_cast hn.ne'
  split
  · next h =>
    obtain ⟨q, rfl⟩ := h
    have : ∀ j ∈ Finset.range n, Real.cos (2 * Real.pi * (((n * q : ℤ) : ℝ) * j) / n + φ) = Real.cos φ := by
      intro j _
      have e : 2 * Real.pi * (((n * q : ℤ) : ℝ) * j) / n + φ = φ + ((q * j : ℤ) : ℝ) * (2 * Real.pi) := by
        push_cast
        field_simp
        ring
      rw [e, Real.cos_add_int_mul_two_pi]
    rw [Finset.sum_congr rfl this]
    simp
  · next h =>
    set z : ℂ := Complex.exp (2 * Real.pi * Complex.I * (l / n)) with hz
    have hzn : z ^ n = 1 := by
      rw [hz, ← Complex.exp_nat_mul, Complex.exp_eq_one_iff]
      exact ⟨l, by field_simp⟩
    have hz1 : z ≠ 1 := by
      intro h1
      rw [hz, Complex.exp_eq_one_iff] at h1
      obtain ⟨q, hq⟩ := h1
      apply h
      refine ⟨q, ?_⟩
      have h2 : (2 * (Real.pi : ℂ) * Complex.I) ≠ 0 := by
        simp [Real.pi_ne_zero]
      have h3 : (l : ℂ) / n = q := by
        apply mul_left_cancel₀ h2
        rw [hq]
        ring
      rw [div_eq_iff hn'] at h3
      have h4 : (l : ℂ) = ((n * q : ℤ) : ℂ) := by
        rw [h3]
        push_cast
        ring
      exact_mod_cast h4
    have hs : ∑ j ∈ Finset.range n, z ^ j = 0 := by
      have := mul_neg_geom_sum z n
      rw [hzn, sub_self] at this
      exact (mul_eq_zero.mp this).resolve_left (sub_ne_zero_of_ne hz1.symm)
    have hre : ∀ j ∈ Finset.range n, Real.cos (2 * Real.pi * (l * j) / n + φ) =
        (Complex.exp (φ * Complex.I) * z ^ j).re := by
      intro j _
      rw [hz, ← Complex.exp_nat_mul, ← Complex.exp_add]
      have e : (φ : ℂ) * Complex.I + j * (2 * Real.pi * Complex.I * (l / n)) =
          ((2 * Real.pi * (l * j) / n + φ : ℝ) : ℂ) * Complex.I := by
        push_cast
        ring
      rw [e, Complex.exp_ofReal_mul_I_re]
    rw [Finset.sum_congr rfl hre, ← Complex.re_sum, ← Finset.mul_sum, hs]
    simp

/-- How often a frequency counts in `irfft`. -/
def mult (n k : Nat) : ℝ := if k = 0 ∨ 2 * k = n then 1 else 2

/-- The factor of a frequency. -/
noncomputable def gauss (n : Nat) (sigma : ℝ) (k : Nat) : ℝ := Real.exp (-((k : ℝ) / n * sigma) ^ 2 / 2)

theorem rfft_get (a : List ℝ) {k : Nat} (hk : k < a.length / 2 + 1) : (rfft a)[k]? = some
    (∑ j ∈ Finset.range a.length, a.getD j 0 * Real.cos (2 * Real.pi * (j * k) / a.length),
      -∑ j ∈ Finset.range a.length, a.getD j 0 * Real.sin (2 * Real.pi * (j * k) / a.length)) := by
  unfold rfft
  rw [List.getElem?_map, List.getElem?_range hk]
  rfl

theorem filter_length (a : List ℝ) (sigma : ℝ) : (filter a sigma).length = a.length := by
  unfold filter irfft
  simp

/-- The filtered array is the circular convolution with the transform of the factors. -/
theorem filter_get (a : List ℝ) (sigma : ℝ) {m : Nat} (hm : m < a.length) : (filter a sigma)[m]? = some
    ((∑ j ∈ Finset.range a.length, a.getD j 0 * ∑ k ∈ Finset.range (a.length / 2 + 1), mult a.length k *
      (gauss a.length sigma k * Real.cos (2 * Real.pi * (k * ((m : ℝ) - j)) / a.length))) / a.length) := by
  unfold filter irfft
  rw [List.getElem?_map, List.getElem?_range hm, Option.map_some]
  congr 2
  have hX : ∀ k ∈ Finset.range (a.length / 2 + 1), (if k = 0 ∨ 2 * k = a.length then (1 : ℝ) else 2) *
      (((List.zipWith (fun X k => (X.1 * Real.exp (-(k * sigma) ^ 2 / 2), X.2 * Real.exp (-(k * sigma) ^ 2 / 2)))
        (rfft a) (rfftfreq a.length)).getD k (0, 0)).1 * Real.cos (2 * Real.pi * (k * m) / a.length) -
       ((List.zipWith (fun X k => (X.1 * Real.exp (-(k * sigma) ^ 2 / 2), X.2 * Real.exp (-(k * sigma) ^ 2 / 2)))
        (rfft a) (rfftfreq a.length)).getD k (0, 0)).2 * Real.sin (2 * Real.pi * (k * m) / a.length)) =
      ∑ j ∈ Finset.range a.length, a.getD j 0 * (mult a.length k *
        (gauss a.length sigma k * Real.cos (2 * Real.pi * (k * ((m : ℝ) - j)) / a.length))) := by
    intro k hk
    rw [Finset.mem_range] at hk
    have hf : (rfftfreq a.length)[k]? = some ((k : ℝ) / a.length) := by
      unfold rfftfreq
      rw [List.getElem?_map, List.getElem?_range hk]
      rfl
    rw [List.getD_eq_getElem?_getD, List.getElem?_zipWith, rfft_get a hk, hf]
    simp only [Option.getD_some]
    rw [Finset.sum_mul, Finset.sum_mul, neg_mul, neg_mul, sub_neg_eq_add, Finset.sum_mul, Finset.sum_mul,
      ← Finset.sum_add_distrib, Finset.mul_sum]
    refine Finset.sum_congr rfl fun j _ => ?_
    have e : 2 * Real.pi * ((k : ℝ) * ((m : ℝ) - j)) / a.length =
        2 * Real.pi * (k * m) / a.length - 2 * Real.pi * (j * k) / a.length := by ring
    rw [e, Real.cos_sub]
    unfold mult gauss
    ring
  rw [Finset.sum_congr rfl hX, Finset.sum_comm]
  refine Finset.sum_congr rfl fun j _ => ?_
  rw [Finset.mul_sum]

/-- A cosine with a frequency below the highest one is multiplied by the factor of its frequency. -/
theorem filter_mode {n : Nat} (hn : 0 < n) {q : Nat} (hq : 2 * q < n) (φ sigma : ℝ) {m : Nat} (hm : m < n) :
    (filter ((List.range n).map (fun j : Nat => Real.cos (2 * Real.pi * (q * j) / n + φ))) sigma)[m]? =
      some (gauss n sigma q * Real.cos (2 * Real.pi * (q * m) / n + φ)) := by
  have hnr : (n : ℝ) ≠ 0 := by exact_mod_cast hn.ne'
  have hl : ((List.range n).map (fun j : Nat => Real.cos (2 * Real.pi * (q * j) / n + φ))).length = n := by simp
  rw [filter_get _ _ (by rw [hl]; exact hm)]
  simp only [hl]
  congr 1
  rw [div_eq_iff hnr]
  have h1 : ∀ j ∈ Finset.range n, ((List.range n).map (fun j : Nat => Real.cos (2 * Real.pi * (q * j) / n + φ))).getD j 0 *
      ∑ k ∈ Finset.range (n / 2 + 1), mult n k * (gauss n sigma k * Real.cos (2 * Real.pi * (k * ((m : ℝ) - j)) / n)) =
      ∑ k ∈ Finset.range (n / 2 + 1), mult n k * gauss n sigma k / 2 *
        (Real.cos (2 * Real.pi * (((q - k : ℤ) : ℝ) * j) / n + (φ + 2 * Real.pi * (k * m) / n)) +
          Real.cos (2 * Real.pi * (((q + k : ℤ) : ℝ) * j) / n + (φ - 2 * Real.pi * (k * m) / n))) := by
    intro j hj
    rw [Finset.mem_range] at hj
    rw [List.getD_eq_getElem?_getD, List.getElem?_map, List.getElem?_range hj, Option.map_some, Option.getD_some,
      Finset.mul_sum]
    refine Finset.sum_congr rfl fun k _ => ?_
    have e1 : 2 * Real.pi * (((q - k : ℤ) : ℝ) * j) / n + (φ + 2 * Real.pi * (k * m) / n) =
        (2 * Real.pi * (q * j) / n + φ) + 2 * Real.pi * (k * ((m : ℝ) - j)) / n := by
      push_cast
      ring
    have e2 : 2 * Real.pi * (((q + k : ℤ) : ℝ) * j) / n + (φ - 2 * Real.pi * (k * m) / n) =
        (2 * Real.pi * (q * j) / n + φ) - 2 * Real.pi * (k * ((m : ℝ) - j)) / n := by
      push_cast
      ring
    rw [e1, e2]
    generalize 2 * Real.pi * ((q : ℝ) * j) / n + φ = A
    generalize 2 * Real.pi * ((k : ℝ) * ((m : ℝ) - j)) / n = B
    rw [Real.cos_add, Real.cos_sub]
    ring
  rw [Finset.sum_congr rfl h1, Finset.sum_comm]
  have h2 : ∀ k ∈ Finset.range (n / 2 + 1), ∑ j ∈ Finset.range n, mult n k * gauss n sigma k / 2 *
        (Real.cos (2 * Real.pi * (((q - k : ℤ) : ℝ) * j) / n + (φ + 2 * Real.pi * (k * m) / n)) +
          Real.cos (2 * Real.pi * (((q + k : ℤ) : ℝ) * j) / n + (φ - 2 * Real.pi * (k * m) / n))) =
      if k = q then gauss n sigma q * Real.cos (2 * Real.pi * (q * m) / n + φ) * n else 0 := by
    intro k hk
    rw [Finset.mem_range] at hk
    rw [← Finset.mul_sum, Finset.sum_add_distrib, sum_cos hn, sum_cos hn]
    have d1 : (n : ℤ) ∣ (q - k : ℤ) ↔ k = q := by
      constructor
      · intro h
        have := Int.eq_zero_of_abs_lt_dvd h (by rw [abs_lt]; omega)
        omega
      · rintro rfl
        simp
    have d2 : (n : ℤ) ∣ (q + k : ℤ) ↔ k = 0 ∧ q = 0 := by
      constructor
      · intro h
        by_cases h0 : (q : ℤ) + k = 0
        · omega
        · have := Int.le_of_dvd (by omega) h
          omega
      · rintro ⟨rfl, rfl⟩
        simp
    simp only [d1, d2]
    by_cases hkq : k = q
    · subst hkq
      by_cases hk0 : k = 0
      · subst hk0
        simp [mult]
        ring
      · rw [if_pos rfl, if_neg (by tauto), if_pos rfl]
        unfold mult
        rw [if_neg (by omega), add_comm φ]
        ring
    · rw [if_neg hkq, if_neg (by omega), if_neg hkq]
      ring
  rw [Finset.sum_congr rfl h2, Finset.sum_ite_eq' , if_pos (by rw [Finset.mem_range]; omega)]

end Verif.Proofs
