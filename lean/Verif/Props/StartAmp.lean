import Mathlib.Algebra.BigOperators.Ring.List
import Mathlib.Algebra.Order.BigOperators.Group.List
import Mathlib.Data.Rat.Floor
import Mathlib.Tactic.Linarith
import Mathlib.Tactic.Ring
import Verif.Model.FullFit

/-!
# C68: starting amplitude of the continuum fit
-/

namespace Verif.Props
open Verif Verif.Np Verif.Model

variable {K : Type} [Field K] [LinearOrder K] [IsStrictOrderedRing K]

/-- All pixels of a spectrum: flux and smoothed ivar. -/
def fluxPixels (s : Spectrum K) : List (K × K) :=
  s.fivarSm.flatMap (fun a => (s.fflux.arr a.1).zip a.2)

/-- The sum of squares of a constant continuum `a`, with a weak preference for zero. -/
def constCost (s : Spectrum K) (a : K) : K :=
  ((fluxPixels s).map (fun p => p.2 * (p.1 - a) ^ 2)).sum + 1 / 1000000 * a ^ 2

omit [LinearOrder K] [IsStrictOrderedRing K] in
theorem sum_zip_snd : ∀ {l m : List K}, l.length = m.length → ((l.zip m).map Prod.snd).sum = m.sum := by
  intro l m h
  rw [List.map_snd_zip (by omega)]

omit [LinearOrder K] [IsStrictOrderedRing K] in
theorem start_sums {s : Spectrum K} (hl : ∀ a ∈ s.fivarSm, (s.fflux.arr a.1).length = a.2.length) :
    (s.fivarSm.map (fun a => (List.zipWith (· * ·) (s.fflux.arr a.1) a.2).sum)).sum =
      ((fluxPixels s).map (fun p => p.1 * p.2)).sum ∧
    (s.fivarSm.map (fun a => a.2.sum)).sum = ((fluxPixels s).map Prod.snd).sum := by
  unfold fluxPixels
  generalize s.fivarSm = d at hl
  induction d with
  | nil => simp
  | cons a d ih =>
    obtain ⟨h1, h2⟩ := ih fun b hb => hl b (by simp [hb])
    constructor
    · rw [List.map_cons, List.sum_cons, List.flatMap_cons, List.map_append, List.sum_append, h1]
      congr 2
      rw [List.zip, List.map_zipWith]
    · rw [List.map_cons, List.sum_cons, List.flatMap_cons, List.map_append, List.sum_append, h2,
        sum_zip_snd (hl a (by simp))]

omit [LinearOrder K] [IsStrictOrderedRing K] in
theorem cost_expand (l : List (K × K)) (a : K) : (l.map (fun p => p.2 * (p.1 - a) ^ 2)).sum =
    (l.map (fun p => p.2 * p.1 ^ 2)).sum - 2 * a * (l.map (fun p => p.1 * p.2)).sum + a ^ 2 * (l.map Prod.snd).sum := by
  induction l with
  | nil => simp
  | cons p l ih =>
    simp only [List.map_cons, List.sum_cons, ih]
    ring

/-- **C68.** The fit starts at the constant continuum that fits the flux best, that is, with the least sum of squares
weighted by the smoothed ivar, with a weak preference for zero; no other amplitude is as good. -/
theorem C68_start {s : Spectrum K} (hl : ∀ a ∈ s.fivarSm, (s.fflux.arr a.1).length = a.2.length)
    (hv : ∀ a ∈ s.fivarSm, ∀ v ∈ a.2, 0 ≤ v) (a : K) :
    constCost s (startA0 s) ≤ constCost s a ∧ (constCost s a = constCost s (startA0 s) → a = startA0 s) := by
  obtain ⟨h1, h2⟩ := start_sums hl
  have hW : 0 ≤ ((fluxPixels s).map Prod.snd).sum := by
    rw [← h2]
    refine List.sum_nonneg fun x hx => ?_
    obtain ⟨b, hb, rfl⟩ := List.mem_map.mp hx
    exact List.sum_nonneg (hv b hb)
  have hS : startA0 s = ((fluxPixels s).map (fun p => p.1 * p.2)).sum / (1 / 1000000 + ((fluxPixels s).map Prod.snd).sum) := by
    unfold startA0
    rw [h1, h2]
  unfold constCost
  rw [cost_expand, cost_expand]
  generalize ((fluxPixels s).map (fun p => p.2 * p.1 ^ 2)).sum = Q
  generalize ((fluxPixels s).map (fun p => p.1 * p.2)).sum = N at hS ⊢
  generalize ((fluxPixels s).map Prod.snd).sum = W at hW hS ⊢
  generalize startA0 s = a0 at hS
  have hp : (0 : K) < 1 / 1000000 + W := by
    have : (0 : K) < 1 / 1000000 := by norm_num
    linarith
  have hN : N = a0 * (1 / 1000000 + W) := by rw [hS, div_mul_cancel₀ _ hp.ne']
  have e : Q - 2 * a * N + a ^ 2 * W + 1 / 1000000 * a ^ 2 - (Q - 2 * a0 * N + a0 ^ 2 * W + 1 / 1000000 * a0 ^ 2) =
      (1 / 1000000 + W) * (a - a0) ^ 2 := by
    rw [hN]; ring
  refine ⟨?_, fun h => ?_⟩
  · have := mul_nonneg hp.le (sq_nonneg (a - a0))
    linarith
  · rw [h, sub_self] at e
    have := (mul_eq_zero.mp e.symm).resolve_left hp.ne'
    exact sub_eq_zero.mp (pow_eq_zero_iff (two_ne_zero) |>.mp this)

/-- **C68.** The starting amplitude is within the range of the fluxes and zero. -/
theorem C68_start_range {s : Spectrum K} (hl : ∀ a ∈ s.fivarSm, (s.fflux.arr a.1).length = a.2.length)
    (hv : ∀ a ∈ s.fivarSm, ∀ v ∈ a.2, 0 ≤ v) {A B : K} (hA : A ≤ 0) (hB : 0 ≤ B)
    (hf : ∀ a ∈ s.fivarSm, ∀ f ∈ s.fflux.arr a.1, A ≤ f ∧ f ≤ B) : A ≤ startA0 s ∧ startA0 s ≤ B := by
  obtain ⟨h1, h2⟩ := start_sums hl
  have hpix : ∀ p ∈ fluxPixels s, A ≤ p.1 ∧ p.1 ≤ B ∧ 0 ≤ p.2 := by
    intro p hp
    obtain ⟨a, ha, hp⟩ := List.mem_flatMap.mp hp
    obtain ⟨q1, q2⟩ := List.of_mem_zip (a := p.1) (b := p.2) hp
    exact ⟨(hf a ha _ q1).1, (hf a ha _ q1).2, hv a ha _ q2⟩
  unfold startA0
  rw [h1, h2]
  have hW : 0 ≤ ((fluxPixels s).map Prod.snd).sum :=
    List.sum_nonneg fun x hx => by
      obtain ⟨p, hp, rfl⟩ := List.mem_map.mp hx
      exact (hpix p hp).2.2
  have hp : (0 : K) < 1 / 1000000 + ((fluxPixels s).map Prod.snd).sum := by
    have : (0 : K) < 1 / 1000000 := by norm_num
    linarith
  have u1 : ((fluxPixels s).map (fun p => p.1 * p.2)).sum ≤ B * ((fluxPixels s).map Prod.snd).sum := by
    rw [← List.sum_map_mul_left]
    exact List.sum_le_sum fun p hp => mul_le_mul_of_nonneg_right (hpix p hp).2.1 (hpix p hp).2.2
  have u2 : A * ((fluxPixels s).map Prod.snd).sum ≤ ((fluxPixels s).map (fun p => p.1 * p.2)).sum := by
    rw [← List.sum_map_mul_left]
    exact List.sum_le_sum fun p hp => mul_le_mul_of_nonneg_right (hpix p hp).1 (hpix p hp).2.2
  constructor
  · rw [le_div_iff₀ hp]
    nlinarith
  · rw [div_le_iff₀ hp]
    nlinarith

/-- Two arms with one masked pixel. -/
example :
    let s : Spectrum ℚ := { Spectrum.blank 2 1 [] [] [] [] with
      fflux := [("b", [2, 100]), ("r", [4])], fivar := [("b", [1, 0]), ("r", [3])], ivarSm := some [("b", [1, 0]), ("r", [3])] }
    (∀ a ∈ s.fivarSm, (s.fflux.arr a.1).length = a.2.length) ∧ (∀ a ∈ s.fivarSm, ∀ v ∈ a.2, 0 ≤ v) ∧
      startA0 s = 14 / (4 + 1 / 1000000) := by
  decide +kernel

end Verif.Props
