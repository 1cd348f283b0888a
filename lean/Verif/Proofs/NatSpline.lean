import Verif.Model.MeanCont
import Verif.Spec.NatSpline
import Mathlib.Analysis.SpecialFunctions.Integrals.Basic
import Mathlib.Tactic.LinearCombination
import Mathlib.Tactic.Linarith
import Mathlib.Tactic.FieldSimp

/-! Natural cubic splines: linearity, the system of equations, bounds, the integral. -/

namespace Verif.Proofs
open Verif.Model Verif.Spec

section
variable {K : Type} [Field K]

/-! ### Linearity -/

theorem splRhs_lin (x y y' : Nat → K) (a b : K) (i : Nat) :
    splRhs x (fun i => a * y i + b * y' i) i = a * splRhs x y i + b * splRhs x y' i := by
  unfold splRhs
  ring

theorem splD_lin (x y y' : Nat → K) (a b : K) (i : Nat) :
    splD x (fun i => a * y i + b * y' i) i = a * splD x y i + b * splD x y' i := by
  induction i with
  | zero => simp [splD]
  | succ i ih =>
    simp only [splD]
    rw [ih, splRhs_lin]
    ring

theorem splBack_lin (x y y' : Nat → K) (a b : K) (last k : Nat) :
    splBack x (fun i => a * y i + b * y' i) last k = a * splBack x y last k + b * splBack x y' last k := by
  induction k with
  | zero => simp [splBack]
  | succ k ih =>
    simp only [splBack]
    rw [ih, splD_lin]
    ring

theorem splInt_lin (x y y' : Nat → K) (a b : K) (last : Nat) :
    splInt x (fun i => a * y i + b * y' i) last = a * splInt x y last + b * splInt x y' last := by
  unfold splInt
  induction List.range last with
  | nil => simp
  | cons i l ih =>
    simp only [List.map_cons, List.sum_cons]
    rw [ih]
    unfold splPiece splM
    rw [splBack_lin, splBack_lin]
    ring

/-- Only the values at the nodes matter. -/
theorem splInt_congr {x y y' : Nat → K} {last : Nat} (h : ∀ i ≤ last, y i = y' i) :
    splInt x y last = splInt x y' last := by
  have hD : ∀ i, i < last → splD x y i = splD x y' i := by
    intro i
    induction i with
    | zero => intro _; rfl
    | succ i ih =>
      intro hi
      simp only [splD, splRhs, Nat.add_sub_cancel]
      rw [ih (by omega), h (i + 1 + 1) (by omega), h (i + 1) (by omega), h i (by omega)]
  have hB : ∀ k, k ≤ last → splBack x y last k = splBack x y' last k := by
    intro k
    induction k with
    | zero => intro _; rfl
    | succ k ih =>
      intro hk
      simp only [splBack]
      rw [ih (by omega), hD _ (by omega)]
  unfold splInt
  refine congrArg _ (List.map_congr_left fun i hi => ?_)
  have hi := List.mem_range.mp hi
  unfold splPiece splM
  rw [hB _ (by omega), hB _ (by omega), h i (by omega), h (i + 1) (by omega)]

theorem splIntegral_sub_mul {x m l : List K} (hm : m.length = l.length) (B : K) :
    splIntegral x (List.zipWith (fun a l => a - B * l) m l) = splIntegral x m - B * splIntegral x l := by
  unfold splIntegral
  have : (fun i : Nat => (List.zipWith (fun a l => a - B * l) m l).getD i 0) =
      fun i : Nat => 1 * m.getD i 0 + (-B) * l.getD i 0 := by
    funext i
    rcases Nat.lt_or_ge i m.length with h | h
    · have h' : i < l.length := hm ▸ h
      simp [List.getD_eq_getElem?_getD, h, h']
      ring
    · have h' : l.length ≤ i := hm ▸ h
      simp [List.getD_eq_getElem?_getD, h, h']
  rw [this, splInt_lin]
  ring

theorem splIntegral_div (x m : List K) (c : K) :
    splIntegral x (m.map (· / c)) = splIntegral x m / c := by
  unfold splIntegral
  have : (fun i : Nat => (m.map (· / c)).getD i 0) = fun i : Nat => (1 / c) * m.getD i 0 + 0 * m.getD i 0 := by
    funext i
    rcases Nat.lt_or_ge i m.length with h | h
    · simp [List.getD_eq_getElem?_getD, h]
      ring
    · simp [List.getD_eq_getElem?_getD, h]
  rw [this, splInt_lin]
  ring

end

section
variable {K : Type} [Field K] [LinearOrder K] [IsStrictOrderedRing K]

/-! ### The system of equations -/

/-- The equations of the second derivatives `m` of the natural spline. -/
structure SplSystem (x y : Nat → K) (last : Nat) (m : Nat → K) : Prop where
  atFirst : m 0 = 0
  atLast : m last = 0
  eqn : ∀ i, i + 1 < last → splStep x i * m i + 2 * (splStep x i + splStep x (i + 1)) * m (i + 1) +
    splStep x (i + 1) * m (i + 2) = splRhs x y (i + 1)

theorem splC_bound {x : Nat → K} {last : Nat} (hx : ∀ i < last, 0 < splStep x i) (i : Nat) (hi : i < last) :
    0 ≤ splC x i ∧ splC x i < 1 := by
  induction i with
  | zero => simp [splC]
  | succ i ih =>
    obtain ⟨h1, h2⟩ := ih (by omega)
    have a := hx i (by omega)
    have b := hx (i + 1) hi
    have hp : 0 < 2 * (splStep x i + splStep x (i + 1)) - splStep x i * splC x i := by nlinarith
    simp only [splC]
    constructor
    · positivity
    · rw [div_lt_one hp]
      nlinarith

theorem splDen_pos {x : Nat → K} {last : Nat} (hx : ∀ i < last, 0 < splStep x i) {i : Nat} (hi : i + 1 < last) :
    0 < 2 * (splStep x i + splStep x (i + 1)) - splStep x i * splC x i := by
  obtain ⟨h1, h2⟩ := splC_bound hx i (by omega)
  have a := hx i (by omega)
  have b := hx (i + 1) hi
  nlinarith

/-- A solution of the system is that of the elimination. -/
theorem splSystem_unique {x y : Nat → K} {last : Nat} (hx : ∀ i < last, 0 < splStep x i) {m : Nat → K}
    (h : SplSystem x y last m) (i : Nat) (hi : i ≤ last) : m i = splM x y last i := by
  have fwd : ∀ i, i < last → m i = splD x y i - splC x i * m (i + 1) := by
    intro i
    induction i with
    | zero => intro _; simp [splD, splC, h.atFirst]
    | succ i ih =>
      intro hi
      have e := h.eqn i hi
      have hm := ih (by omega)
      have hp := (splDen_pos hx hi).ne'
      simp only [splD, splC]
      rw [hm] at e
      field_simp
      linear_combination e
  have back : ∀ k, k ≤ last → m (last - k) = splBack x y last k := by
    intro k
    induction k with
    | zero => intro _; simpa [splBack] using h.atLast
    | succ k ih =>
      intro hk
      simp only [splBack]
      rw [fwd (last - (k + 1)) (by omega), show last - (k + 1) + 1 = last - k by omega, ih (by omega)]
  unfold splM
  rw [← back (last - i) (by omega), show last - (last - i) = i by omega]

/-- The elimination solves the system. -/
theorem splSystem_splM {x : Nat → K} (y : Nat → K) {last : Nat} (h0 : 0 < last) (hx : ∀ i < last, 0 < splStep x i) :
    SplSystem x y last (splM x y last) := by
  have step : ∀ i, i < last → splM x y last i = splD x y i - splC x i * splM x y last (i + 1) := by
    intro i hi
    unfold splM
    obtain ⟨k, hk⟩ : ∃ k, last - i = k + 1 := ⟨last - i - 1, by omega⟩
    rw [hk, splBack, show last - (k + 1) = i by omega, show last - (i + 1) = k by omega]
  refine ⟨?_, ?_, ?_⟩
  · rw [step 0 h0]; simp [splD, splC]
  · unfold splM; simp [splBack]
  · intro i hi
    have e0 := step i (by omega)
    have e1 := step (i + 1) hi
    have hp := (splDen_pos hx hi).ne'
    rw [e0]
    simp only [splD, splC] at e1
    rw [show i + 1 + 1 = i + 2 from rfl] at e1
    generalize splM x y last (i + 2) = m2 at *
    generalize splM x y last (i + 1) = m1 at *
    field_simp at e1
    linear_combination e1

/-- Diagonal dominance: a bound of the values at the ends and of the right sides is a bound of all values. -/
theorem tri_bound {x : Nat → K} {last : Nat} (hx : ∀ i < last, 0 < splStep x i) {m : Nat → K} {R : K}
    (h0 : |m 0| ≤ R) (hl : |m last| ≤ R)
    (hr : ∀ i, i + 1 < last → |splStep x i * m i + 2 * (splStep x i + splStep x (i + 1)) * m (i + 1) +
      splStep x (i + 1) * m (i + 2)| ≤ R * (splStep x i + splStep x (i + 1))) :
    ∀ i ≤ last, |m i| ≤ R := by
  obtain ⟨j, hj, hmax⟩ := Finset.exists_max_image (Finset.range (last + 1)) (fun i => |m i|) ⟨0, by simp⟩
  have hj' : j ≤ last := by simpa [Nat.lt_succ_iff] using hj
  have key : |m j| ≤ R := by
    rcases Nat.eq_zero_or_pos j with rfl | hp
    · exact h0
    rcases Nat.eq_or_lt_of_le hj' with rfl | hlt
    · exact hl
    obtain ⟨i, rfl⟩ : ∃ i, j = i + 1 := ⟨j - 1, by omega⟩
    have b0 : |m i| ≤ |m (i + 1)| := hmax i (by simp; omega)
    have b2 : |m (i + 2)| ≤ |m (i + 1)| := hmax (i + 2) (by simp; omega)
    have a := hx i (by omega)
    have b := hx (i + 1) hlt
    have r := hr i hlt
    set s := splStep x i
    set t := splStep x (i + 1)
    set r' := s * m i + 2 * (s + t) * m (i + 1) + t * m (i + 2) with hr'
    have e' : 2 * (s + t) * m (i + 1) = r' - s * m i - t * m (i + 2) := by rw [hr']; ring
    have : |2 * (s + t) * m (i + 1)| ≤ |r'| + |s * m i| + |t * m (i + 2)| := by
      rw [e']
      refine (abs_sub _ _).trans ?_
      linarith [abs_sub r' (s * m i)]
    rw [abs_mul (2 * (s + t)), abs_mul s, abs_mul t, abs_of_pos a, abs_of_pos b,
      abs_of_pos (by linarith : 0 < 2 * (s + t))] at this
    have k1 : s * |m i| ≤ s * |m (i + 1)| := mul_le_mul_of_nonneg_left b0 a.le
    have k2 : t * |m (i + 2)| ≤ t * |m (i + 1)| := mul_le_mul_of_nonneg_left b2 b.le
    have : (s + t) * |m (i + 1)| ≤ (s + t) * R := by linarith
    exact le_of_mul_le_mul_left this (by linarith)
  exact fun i hi => (hmax i (by simp; omega)).trans key

theorem telescope (F : Nat → K) (n : Nat) : ((List.range n).map (fun i => F (i + 1) - F i)).sum = F n - F 0 := by
  induction n with
  | zero => simp
  | succ n ih => rw [List.range_succ, List.map_append, List.sum_append, ih]; simp

theorem abs_sum_range_le {f g : Nat → K} {n : Nat} (h : ∀ i < n, |f i| ≤ g i) :
    |((List.range n).map f).sum| ≤ ((List.range n).map g).sum := by
  induction n with
  | zero => simp
  | succ n ih =>
    rw [List.range_succ, List.map_append, List.sum_append, List.map_append, List.sum_append]
    refine (abs_add_le _ _).trans (add_le_add (ih fun i hi => h i (by omega)) ?_)
    simpa using h n (by omega)

/-- The integral of the natural spline through a constant. -/
theorem splInt_const (x : Nat → K) (c : K) (last : Nat) : splInt x (fun _ => c) last = c * (x last - x 0) := by
  have hD : ∀ i, splD x (fun _ => c) i = 0 := by
    intro i
    induction i with
    | zero => rfl
    | succ i ih => simp [splD, splRhs, ih]
  have hB : ∀ k, splBack x (fun _ => c) last k = 0 := by
    intro k
    induction k with
    | zero => rfl
    | succ k ih => simp [splBack, hD, ih]
  unfold splInt
  have : splPiece x (fun _ => c) (splM x (fun _ => c) last) = fun i => c * (x (i + 1) - x i) := by
    funext i
    unfold splPiece splM splStep
    rw [hB, hB]
    ring
  rw [this, List.sum_map_mul_left, telescope x]

/-- The integral of the natural spline through a tilt squared. -/
theorem splInt_tilt_sq {x : Nat → K} {last : Nat} (h0 : 0 < last) (hx : ∀ i < last, 0 < splStep x i) (hx0 : x 0 = 0)
    (hx1 : x last = 1) {d : K} (hd : ∀ i < last, splStep x i ≤ d) :
    |splInt x (fun i => (2 * x i - 1) * (2 * x i - 1)) last - 1 / 3| ≤ 2 / 3 * d ^ 2 := by
  set y : Nat → K := fun i => (2 * x i - 1) * (2 * x i - 1) with hy
  have hs := splSystem_splM y h0 hx
  generalize hm : splM x y last = m at hs
  have hb : ∀ i ≤ last, |m i - 8| ≤ 8 := by
    refine tri_bound (m := fun i => m i - 8) hx ?_ ?_ ?_
    · rw [hs.atFirst]; norm_num
    · rw [hs.atLast]; norm_num
    · intro i hi
      have e := hs.eqn i hi
      have a := hx i (by omega)
      have b := hx (i + 1) hi
      have r : splRhs x y (i + 1) = 24 * (splStep x i + splStep x (i + 1)) := by
        unfold splRhs
        simp only [Nat.add_sub_cancel, hy]
        have e1 : (2 * x (i + 1 + 1) - 1) * (2 * x (i + 1 + 1) - 1) - (2 * x (i + 1) - 1) * (2 * x (i + 1) - 1) =
            splStep x (i + 1) * (4 * (x (i + 1 + 1) + x (i + 1)) - 4) := by unfold splStep; ring
        have e2 : (2 * x (i + 1) - 1) * (2 * x (i + 1) - 1) - (2 * x i - 1) * (2 * x i - 1) =
            splStep x i * (4 * (x (i + 1) + x i) - 4) := by unfold splStep; ring
        rw [e1, e2, mul_div_cancel_left₀ _ b.ne', mul_div_cancel_left₀ _ a.ne']
        unfold splStep
        ring
      have : splStep x i * (m i - 8) + 2 * (splStep x i + splStep x (i + 1)) * (m (i + 1) - 8) +
          splStep x (i + 1) * (m (i + 2) - 8) = 0 := by
        rw [r] at e
        linear_combination e
      rw [this, abs_zero]
      positivity
  have t : (1 : K) / 3 = ((List.range last).map (fun i => (2 * x (i + 1) - 1) ^ 3 / 6 - (2 * x i - 1) ^ 3 / 6)).sum := by
    rw [telescope (fun i => (2 * x i - 1) ^ 3 / 6), hx0, hx1]
    norm_num
  have sub : ∀ (l : List Nat) (f g : Nat → K), (l.map f).sum - (l.map g).sum = (l.map (fun i => f i - g i)).sum := by
    intro l f g
    induction l with
    | nil => simp
    | cons a l ih => simp only [List.map_cons, List.sum_cons]; rw [← ih]; ring
  unfold splInt
  rw [hm, t, sub]
  refine (abs_sum_range_le (g := fun i => 2 / 3 * d ^ 2 * (x (i + 1) - x i)) ?_).trans ?_
  · intro i hi
    have a := hx i hi
    have b := hd i hi
    have b1 := hb i hi.le
    have b2 := hb (i + 1) hi
    have e : splPiece x y m i - ((2 * x (i + 1) - 1) ^ 3 / 6 - (2 * x i - 1) ^ 3 / 6) =
        splStep x i ^ 3 * ((8 - m i) + (8 - m (i + 1))) / 24 := by
      unfold splPiece splStep
      simp only [hy]
      ring
    rw [e]
    change _ ≤ 2 / 3 * d ^ 2 * splStep x i
    rw [abs_div, abs_mul, abs_of_pos (pow_pos a 3), abs_of_pos (by norm_num : (0 : K) < 24)]
    have b3 : |8 - m i + (8 - m (i + 1))| ≤ 16 := by
      refine (abs_add_le _ _).trans ?_
      rw [abs_sub_comm 8, abs_sub_comm 8]
      linarith
    have b4 : splStep x i ^ 2 ≤ d ^ 2 := pow_le_pow_left₀ a.le b 2
    rw [div_le_iff₀ (by norm_num)]
    calc splStep x i ^ 3 * |8 - m i + (8 - m (i + 1))| ≤ splStep x i ^ 3 * 16 :=
          mul_le_mul_of_nonneg_left b3 (by positivity)
      _ = 16 * splStep x i * splStep x i ^ 2 := by ring
      _ ≤ 16 * splStep x i * d ^ 2 := mul_le_mul_of_nonneg_left b4 (by positivity)
      _ = 2 / 3 * d ^ 2 * splStep x i * 24 := by ring
  · have : ((List.range last).map (fun i => 2 / 3 * d ^ 2 * (x (i + 1) - x i))).sum = 2 / 3 * d ^ 2 * (x last - x 0) := by
      rw [List.sum_map_mul_left, telescope x]
    rw [this, hx0, hx1, sub_zero, mul_one]

end

/-! ### The integral -/

theorem cubic_integral (p : Cubic) (h : ℝ) :
    ∫ u in (0 : ℝ)..h, p.val u = p.a * h + p.b * h ^ 2 / 2 + p.c * h ^ 3 / 3 + p.d * h ^ 4 / 4 := by
  unfold Cubic.val
  have i1 : IntervalIntegrable (fun _ : ℝ => p.a) MeasureTheory.volume 0 h := by
    apply Continuous.intervalIntegrable; fun_prop
  have i2 : IntervalIntegrable (fun u : ℝ => p.b * u) MeasureTheory.volume 0 h := by
    apply Continuous.intervalIntegrable; fun_prop
  have i3 : IntervalIntegrable (fun u : ℝ => p.c * u ^ 2) MeasureTheory.volume 0 h := by
    apply Continuous.intervalIntegrable; fun_prop
  have i4 : IntervalIntegrable (fun u : ℝ => p.d * u ^ 3) MeasureTheory.volume 0 h := by
    apply Continuous.intervalIntegrable; fun_prop
  rw [intervalIntegral.integral_add ((i1.add i2).add i3) i4, intervalIntegral.integral_add (i1.add i2) i3,
    intervalIntegral.integral_add i1 i2]
  rw [intervalIntegral.integral_const_mul, intervalIntegral.integral_const_mul, intervalIntegral.integral_const_mul,
    intervalIntegral.integral_const, integral_pow, integral_pow, integral_id]
  norm_num
  ring

theorem splStep_getD {x : List ℝ} {i : Nat} (h : i + 1 < x.length) :
    splStep (fun i => x.getD i 0) i = x[i + 1] - x[i] := by
  unfold splStep
  simp [List.getD_eq_getElem?_getD, h, show i < x.length by omega]

/-- The second derivatives at the nodes of a natural spline. -/
noncomputable def nodeDer2 (x : List ℝ) (p : Nat → Cubic) (i : Nat) : ℝ :=
  if i + 1 < x.length then (p i).der2 0 else 0

/-- On an interval of a natural spline. -/
theorem natSpline_piece {x y : List ℝ} {p : Nat → Cubic} (h : IsNatSpline x y p) {i : Nat} (hi : i + 1 < x.length)
    (hpos : 0 < x[i + 1] - x[i]) :
    let s := x[i + 1] - x[i]
    (p i).a = y.getD i 0 ∧ 2 * (p i).c = nodeDer2 x p i ∧ 6 * (p i).d * s = nodeDer2 x p (i + 1) - nodeDer2 x p i ∧
    (p i).b * s = y.getD (i + 1) 0 - y.getD i 0 - s ^ 2 * (2 * nodeDer2 x p i + nodeDer2 x p (i + 1)) / 6 := by
  intro s
  have hl := h.left i hi
  have hr := h.right i hi
  have e2 : (p i).der2 s = nodeDer2 x p (i + 1) := by
    unfold nodeDer2
    split
    · next h2 => exact h.der2 i h2
    · next h2 => exact h.last i (by omega)
  have e1 : nodeDer2 x p i = (p i).der2 0 := by unfold nodeDer2; rw [if_pos hi]
  rw [e1, ← e2, ← hl, ← hr]
  change (p i).a = (p i).val 0 ∧ 2 * (p i).c = (p i).der2 0 ∧ 6 * (p i).d * s = (p i).der2 s - (p i).der2 0 ∧
    (p i).b * s = (p i).val s - (p i).val 0 - s ^ 2 * (2 * (p i).der2 0 + (p i).der2 s) / 6
  unfold Cubic.val Cubic.der2
  refine ⟨by ring, by ring, by ring, by ring⟩

/-- The second derivatives of a natural spline solve the system. -/
theorem natSpline_system {x y : List ℝ} {p : Nat → Cubic} (h : IsNatSpline x y p) (h2 : 2 ≤ x.length)
    (hx : ∀ i (h : i + 1 < x.length), 0 < x[i + 1] - x[i]) :
    SplSystem (fun i => x.getD i 0) (fun i => y.getD i 0) (x.length - 1) (nodeDer2 x p) := by
  refine ⟨?_, ?_, ?_⟩
  · unfold nodeDer2; rw [if_pos (by omega)]; exact h.first
  · unfold nodeDer2; rw [if_neg (by omega)]
  · intro i hi
    have a := hx i (by omega)
    have b := hx (i + 1) (by omega)
    obtain ⟨-, A2, A3, A4⟩ := natSpline_piece h (i := i) (by omega) a
    obtain ⟨-, -, -, B4⟩ := natSpline_piece h (i := i + 1) (by omega) b
    have D := h.der i (by omega)
    unfold splRhs
    simp only [Nat.add_sub_cancel]
    rw [splStep_getD (show i + 1 < x.length by omega), splStep_getD (show i + 1 + 1 < x.length by omega)]
    unfold Cubic.der at D
    have A4' := A4
    have B4' := B4
    generalize x[i + 1] - x[i] = s at *
    generalize x[i + 1 + 1] - x[i + 1] = t at *
    rw [show i + 1 + 1 = i + 2 from rfl] at B4' ⊢
    rw [← eq_div_iff a.ne'] at A4'
    rw [← eq_div_iff b.ne'] at B4'
    generalize nodeDer2 x p i = m0 at *
    generalize nodeDer2 x p (i + 1) = m1 at *
    generalize nodeDer2 x p (i + 2) = m2 at *
    have k : 3 * (p i).d * s ^ 2 = s * (m1 - m0) / 2 := by linear_combination s / 2 * A3
    rw [k, A4', B4'] at D
    have a' := a.ne'
    have b' := b.ne'
    have e1 : (y.getD (i + 1) 0 - y.getD i 0 - s ^ 2 * (2 * m0 + m1) / 6) / s =
        (y.getD (i + 1) 0 - y.getD i 0) / s - s * (2 * m0 + m1) / 6 := by field_simp
    have e2 : (y.getD (i + 2) 0 - y.getD (i + 1) 0 - t ^ 2 * (2 * m1 + m2) / 6) / t =
        (y.getD (i + 2) 0 - y.getD (i + 1) 0) / t - t * (2 * m1 + m2) / 6 := by field_simp
    rw [e1, e2] at D
    linear_combination 6 * D - 6 * s * A2

theorem sum_map_range {α : Type} [AddCommMonoid α] {f g : Nat → α} {n : Nat} (h : ∀ i < n, f i = g i) :
    ((List.range n).map f).sum = ((List.range n).map g).sum := by
  rw [List.map_congr_left fun i hi => h i (List.mem_range.mp hi)]

/-- The integral of the natural spline is that of the model. -/
theorem splineArea_eq {x y : List ℝ} {p : Nat → Cubic} (h : IsNatSpline x y p) (h2 : 2 ≤ x.length)
    (hx : ∀ i (h : i + 1 < x.length), 0 < x[i + 1] - x[i]) : splineArea x p = splIntegral x y := by
  have hx' : ∀ i < x.length - 1, 0 < splStep (fun i => x.getD i 0) i := by
    intro i hi
    rw [splStep_getD (by omega)]
    exact hx i (by omega)
  have hs := natSpline_system h h2 hx
  unfold splineArea splIntegral splInt
  refine sum_map_range fun i hi => ?_
  have hi' : i + 1 < x.length := by omega
  rw [cubic_integral]
  unfold splPiece
  rw [← splSystem_unique hx' hs i (by omega), ← splSystem_unique hx' hs (i + 1) (by omega), splStep_getD hi']
  have e : x.getD (i + 1) 0 - x.getD i 0 = x[i + 1] - x[i] := splStep_getD hi'
  rw [e]
  obtain ⟨A1, A2, A3, A4⟩ := natSpline_piece h hi' (hx i hi')
  dsimp only
  set s := x[i + 1] - x[i]
  linear_combination s * A1 + s / 2 * A4 + s ^ 3 / 6 * A2 + s ^ 3 / 24 * A3

/-- The cubics with the second derivatives of the model. -/
noncomputable def splCubic (x y : List ℝ) (i : Nat) : Cubic :=
  let X := fun i : Nat => x.getD i 0
  let Y := fun i : Nat => y.getD i 0
  let m := splM X Y (x.length - 1)
  let s := splStep X i
  { a := Y i, b := (Y (i + 1) - Y i) / s - s * (2 * m i + m (i + 1)) / 6, c := m i / 2, d := (m (i + 1) - m i) / (6 * s) }

/-- A natural spline exists. -/
theorem natSpline_exists {x : List ℝ} (y : List ℝ) (h2 : 2 ≤ x.length)
    (hx : ∀ i (h : i + 1 < x.length), 0 < x[i + 1] - x[i]) : IsNatSpline x y (splCubic x y) := by
  have hx' : ∀ i < x.length - 1, 0 < splStep (fun i => x.getD i 0) i := by
    intro i hi
    rw [splStep_getD (by omega)]
    exact hx i (by omega)
  have hs := splSystem_splM (fun i => y.getD i 0) (last := x.length - 1) (by omega) hx'
  refine ⟨?_, ?_, ?_, ?_, ?_, ?_⟩
  · intro i hi
    unfold splCubic Cubic.val
    ring
  · intro i hi
    have a := hx' i (by omega)
    rw [← splStep_getD hi]
    unfold splCubic Cubic.val
    dsimp only
    have a' := a.ne'
    field_simp
    ring
  · intro i hi
    have a := (hx' i (by omega)).ne'
    have b := (hx' (i + 1) (by omega)).ne'
    have e := hs.eqn i (by omega)
    rw [← splStep_getD (show i + 1 < x.length by omega)]
    unfold splRhs at e
    simp only [Nat.add_sub_cancel] at e
    unfold splCubic Cubic.der
    dsimp only
    rw [show i + 1 + 1 = i + 2 from rfl] at *
    have k : ∀ q : ℝ, 3 * (q / (6 * splStep (fun i => x.getD i 0) i)) * splStep (fun i => x.getD i 0) i ^ 2 =
        q * splStep (fun i => x.getD i 0) i / 2 := by intro q; field_simp; ring
    rw [k]
    linear_combination e / 6
  · intro i hi
    have a := (hx' i (by omega)).ne'
    rw [← splStep_getD (show i + 1 < x.length by omega)]
    unfold splCubic Cubic.der2
    dsimp only
    field_simp
    ring
  · have := hs.atFirst
    unfold splCubic Cubic.der2
    dsimp only
    rw [this]; ring
  · intro i hi
    have a := (hx' i (by omega)).ne'
    have e := hs.atLast
    rw [← splStep_getD (show i + 1 < x.length by omega)]
    rw [show x.length - 1 = i + 1 by omega] at e
    unfold splCubic Cubic.der2
    dsimp only
    rw [show x.length - 1 = i + 1 by omega, e]
    field_simp
    ring

end Verif.Proofs
