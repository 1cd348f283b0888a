import Verif.Proofs.Interp
import Mathlib.Analysis.Calculus.Deriv.Basic
import Mathlib.Analysis.Calculus.Deriv.Add
import Mathlib.Analysis.Calculus.Deriv.Mul
import Mathlib.Analysis.Calculus.Deriv.Pow
import Mathlib.Analysis.Calculus.Deriv.Comp
import Mathlib.Data.Finset.Max
import Mathlib.Topology.Order.OrderClosed

/-! # Gluing of cubics and the tridiagonal system -/

namespace Verif.Proofs
open Verif.Model

section
variable {K : Type} [Field K] [LinearOrder K] [IsStrictOrderedRing K]

/-- The tridiagonal system is diagonally dominant. -/
theorem dominance {e : Nat → K} {a b : Nat} (ha : e a = 0) (hb : e b = 0) {r : K} (hr : 0 ≤ r)
    (h : ∀ i, a < i → i < b → |e (i - 1) + 4 * e i + e (i + 1)| ≤ r) :
    ∀ i, a ≤ i → i ≤ b → |e i| ≤ r / 2 := by
  intro i hai hib
  obtain ⟨k, hk, hmax⟩ := (Finset.Icc a b).exists_max_image (fun j => |e j|)
    ⟨i, Finset.mem_Icc.mpr ⟨hai, hib⟩⟩
  rw [Finset.mem_Icc] at hk
  have hi : |e i| ≤ |e k| := hmax i (Finset.mem_Icc.mpr ⟨hai, hib⟩)
  refine hi.trans ?_
  by_cases hka : k = a
  · rw [hka, ha, abs_zero]; linarith
  by_cases hkb : k = b
  · rw [hkb, hb, abs_zero]; linarith
  have h1 := hmax (k - 1) (Finset.mem_Icc.mpr ⟨by omega, by omega⟩)
  have h2 := hmax (k + 1) (Finset.mem_Icc.mpr ⟨by omega, by omega⟩)
  have h3 := h k (by omega) (by omega)
  have h4 : 4 * |e k| = |(e (k - 1) + 4 * e k + e (k + 1)) - e (k - 1) - e (k + 1)| := by
    rw [show (e (k - 1) + 4 * e k + e (k + 1)) - e (k - 1) - e (k + 1) = 4 * e k by ring, abs_mul,
      abs_of_pos (by norm_num : (0 : K) < 4)]
  have h5 := abs_sub ((e (k - 1) + 4 * e k + e (k + 1)) - e (k - 1)) (e (k + 1))
  have h6 := abs_sub (e (k - 1) + 4 * e k + e (k + 1)) (e (k - 1))
  linarith

end

/-! ### Gluing -/

theorem glue2 {f g f' g' : ℝ → ℝ} {c : ℝ} (hf : ∀ x, HasDerivAt f (f' x) x)
    (hg : ∀ x, HasDerivAt g (g' x) x) (h0 : f c = g c) (h1 : f' c = g' c) (x : ℝ) :
    HasDerivAt (fun t => if t < c then f t else g t) (if x < c then f' x else g' x) x := by
  rcases lt_trichotomy x c with h | h | h
  · rw [if_pos h]
    refine (hf x).congr_of_eventuallyEq ?_
    filter_upwards [Iio_mem_nhds h] with t ht
    rw [if_pos (Set.mem_Iio.mp ht)]
  · subst h
    rw [if_neg (lt_irrefl x)]
    rw [← hasDerivWithinAt_univ, ← Set.Iic_union_Ici (a := x)]
    refine HasDerivWithinAt.union ?_ ?_
    · refine HasDerivWithinAt.congr (h1 ▸ (hf x).hasDerivWithinAt) ?_ ?_
      · intro t ht
        rcases lt_or_eq_of_le (Set.mem_Iic.mp ht) with h | h
        · rw [if_pos h]
        · rw [if_neg (by rw [h]; exact lt_irrefl _), h, h0]
      · rw [if_neg (lt_irrefl x), h0]
    · refine HasDerivWithinAt.congr (hg x).hasDerivWithinAt ?_ ?_
      · intro t ht
        rw [if_neg (not_lt.mpr ht)]
      · rw [if_neg (lt_irrefl x)]
  · rw [if_neg (not_lt.mpr h.le)]
    refine (hg x).congr_of_eventuallyEq ?_
    filter_upwards [Ioi_mem_nhds h] with t ht
    rw [if_neg (not_lt.mpr (Set.mem_Ioi.mp ht).le)]

/-- Pieces `P 0, P 1, ...`, changing at the integers `1 .. m`. -/
noncomputable def glued (P : Nat → ℝ → ℝ) : Nat → ℝ → ℝ
  | 0 => P 0
  | m + 1 => fun t => if t < (m : ℝ) + 1 then glued P m t else P (m + 1) t

theorem glued_at (P : Nat → ℝ → ℝ) (m : Nat) {t : ℝ} (h : (m : ℝ) ≤ t) : glued P m t = P m t := by
  cases m with
  | zero => rfl
  | succ m =>
    unfold glued
    rw [if_neg (by push_cast at h; linarith)]

theorem glued_deriv {P P' : Nat → ℝ → ℝ} (hP : ∀ i x, HasDerivAt (P i) (P' i x) x) (m : Nat)
    (h0 : ∀ i, i < m → P i ((i : ℝ) + 1) = P (i + 1) ((i : ℝ) + 1))
    (h1 : ∀ i, i < m → P' i ((i : ℝ) + 1) = P' (i + 1) ((i : ℝ) + 1)) (x : ℝ) :
    HasDerivAt (glued P m) (glued P' m x) x := by
  induction m generalizing x with
  | zero => exact hP 0 x
  | succ m ih =>
    have hm := ih (fun i hi => h0 i (by omega)) (fun i hi => h1 i (by omega))
    have := glue2 (c := (m : ℝ) + 1) hm (hP (m + 1))
      (by rw [glued_at P m (by linarith)]; exact h0 m (by omega))
      (by rw [glued_at P' m (by linarith)]; exact h1 m (by omega)) x
    exact this

theorem glued_continuous {P : Nat → ℝ → ℝ} (hP : ∀ i, Continuous (P i)) (m : Nat)
    (h0 : ∀ i, i < m → P i ((i : ℝ) + 1) = P (i + 1) ((i : ℝ) + 1)) : Continuous (glued P m) := by
  induction m with
  | zero => exact hP 0
  | succ m ih =>
    have hm := ih (fun i hi => h0 i (by omega))
    have e : glued P (m + 1) = fun t => if (m : ℝ) + 1 ≤ t then P (m + 1) t else glued P m t := by
      funext t
      unfold glued
      by_cases h : t < (m : ℝ) + 1
      · rw [if_pos h, if_neg (not_le.mpr h)]; cases m <;> rfl
      · rw [if_neg h, if_pos (not_lt.mp h)]
    rw [e]
    refine Continuous.if_le (hP _) hm continuous_const continuous_id ?_
    intro t ht
    subst ht
    rw [glued_at P m (by linarith)]
    exact (h0 m (by omega)).symm

/-- The pieces by the index of the code. -/
theorem glued_idx (P : Nat → ℝ → ℝ) {n : Nat} (hn : 2 ≤ n) (t : ℝ) {k : Nat}
    (hk : interpIdx n t = (k : Int)) : glued P (n - 2) t = P k t := by
  obtain ⟨m, rfl⟩ : ∃ m, n = m + 2 := ⟨n - 2, by omega⟩
  rw [interpIdx_eq hn] at hk
  simp only [Nat.add_sub_cancel]
  have hk' : min (max ⌊t⌋ 0) (m : Int) = k := by rw [← hk]; congr 1; push_cast; ring
  clear hk hn
  induction m with
  | zero =>
    have : k = 0 := by omega
    subst this; rfl
  | succ m ih =>
    unfold glued
    by_cases h : t < (m : ℝ) + 1
    · rw [if_pos h]
      have : ⌊t⌋ ≤ m := by
        rw [← Int.lt_add_one_iff, Int.floor_lt]; push_cast; exact h
      exact ih (by omega)
    · rw [if_neg h]
      have : (m : Int) + 1 ≤ ⌊t⌋ := by rw [Int.le_floor]; push_cast; exact not_lt.mp h
      have : k = m + 1 := by omega
      subst this; rfl

/-- A piece in units of the spacing, its slope and its curvature. -/
noncomputable def pieceAt (dxp : ℝ) (f y : Nat → ℝ) (i : Nat) (t : ℝ) : ℝ :=
  cubicPiece dxp (f i) (f (i + 1)) (y i) (y (i + 1)) (t - i)

noncomputable def pieceAt' (dxp : ℝ) (f y : Nat → ℝ) (i : Nat) (t : ℝ) : ℝ :=
  (f (i + 1) - f i) + dxp ^ 2 / 6 * (y i * (-3 * (1 - (t - i)) ^ 2 + 1) + y (i + 1) * (3 * (t - i) ^ 2 - 1))

noncomputable def pieceAt'' (dxp : ℝ) (y : Nat → ℝ) (i : Nat) (t : ℝ) : ℝ :=
  dxp ^ 2 * (y i * (1 - (t - i)) + y (i + 1) * (t - i))

theorem pieceAt_deriv (dxp : ℝ) (f y : Nat → ℝ) (i : Nat) (t : ℝ) :
    HasDerivAt (pieceAt dxp f y i) (pieceAt' dxp f y i t) t := by
  have e : pieceAt dxp f y i = fun t => f i + (f (i + 1) - f i) * (t - i) + dxp ^ 2 / 6 *
      (y i * ((1 - (t - i)) ^ 3 - (1 - (t - i))) + y (i + 1) * ((t - i) ^ 3 - (t - i))) := by
    funext t
    unfold pieceAt cubicPiece
    dsimp only
    ring
  rw [e]
  have hb : HasDerivAt (fun t : ℝ => t - i) 1 t := (hasDerivAt_id t).sub_const _
  have ha : HasDerivAt (fun t : ℝ => 1 - (t - i)) (-1) t := by
    simpa using hb.const_sub (1 : ℝ)
  have h := ((hb.const_mul (f (i + 1) - f i)).const_add (f i)).add
    ((((ha.pow 3).sub ha).const_mul (y i)).add (((hb.pow 3).sub hb).const_mul (y (i + 1))) |>.const_mul
      (dxp ^ 2 / 6))
  refine h.congr_deriv ?_
  unfold pieceAt'
  push_cast
  ring

theorem pieceAt'_deriv (dxp : ℝ) (f y : Nat → ℝ) (i : Nat) (t : ℝ) :
    HasDerivAt (pieceAt' dxp f y i) (pieceAt'' dxp y i t) t := by
  have hb : HasDerivAt (fun t : ℝ => t - i) 1 t := (hasDerivAt_id t).sub_const _
  have ha : HasDerivAt (fun t : ℝ => 1 - (t - i)) (-1) t := by
    simpa using hb.const_sub (1 : ℝ)
  have h := (((((ha.pow 2).const_mul (-3)).add_const 1).const_mul (y i)).add
    ((((hb.pow 2).const_mul 3).sub_const 1).const_mul (y (i + 1))) |>.const_mul
      (dxp ^ 2 / 6)).const_add (f (i + 1) - f i)
  refine h.congr_deriv ?_
  unfold pieceAt''
  push_cast
  ring

theorem pieceAt''_continuous (dxp : ℝ) (y : Nat → ℝ) (i : Nat) : Continuous (pieceAt'' dxp y i) := by
  unfold pieceAt''
  fun_prop

theorem pieceAt_left (dxp : ℝ) (f y : Nat → ℝ) (i : Nat) : pieceAt dxp f y i i = f i := by
  unfold pieceAt cubicPiece; simp

theorem pieceAt_right (dxp : ℝ) (f y : Nat → ℝ) (i : Nat) : pieceAt dxp f y i ((i : ℝ) + 1) = f (i + 1) := by
  unfold pieceAt cubicPiece; simp

/-- The jump of the slope at a node is the residual of its row. -/
theorem pieceAt'_jump {dxp : ℝ} (f y : Nat → ℝ) (i : Nat) :
    pieceAt' dxp f y i ((i : ℝ) + 1) - pieceAt' dxp f y (i + 1) ((i : ℝ) + 1) =
      dxp ^ 2 / 6 * (y i + 4 * y (i + 1) + y (i + 2)) - (f i - 2 * f (i + 1) + f (i + 2)) := by
  unfold pieceAt'
  push_cast
  ring

theorem pieceAt''_joins (dxp : ℝ) (y : Nat → ℝ) (i : Nat) :
    pieceAt'' dxp y i ((i : ℝ) + 1) = pieceAt'' dxp y (i + 1) ((i : ℝ) + 1) := by
  unfold pieceAt''
  push_cast
  ring

end Verif.Proofs
