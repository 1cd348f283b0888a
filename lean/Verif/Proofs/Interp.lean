import Verif.Model.Interp
import Mathlib.Algebra.Order.Floor.Semiring
import Mathlib.Tactic.Linarith
import Mathlib.Tactic.FieldSimp
import Mathlib.Tactic.Ring
import Mathlib.Tactic.NormNum
import Mathlib.Tactic.LinearCombination
import Mathlib.Tactic.IntervalCases

/-! # Lemmas on the interpolators -/

namespace Verif.Proofs
open Verif.Model

variable {K : Type} [Field K] [LinearOrder K] [IsStrictOrderedRing K]

section
variable [FloorRing K]

/-- The index is the floor, kept between the first and the last but one node. -/
theorem interpIdx_eq {n : Nat} (hn : 2 ≤ n) (xx : K) :
    interpIdx n xx = min (max ⌊xx⌋ 0) ((n : Int) - 2) := by
  unfold interpIdx
  rw [Int.floor_mono.map_min, Int.floor_mono.map_max, Int.floor_zero]
  congr 1
  rw [Int.floor_eq_iff]
  have : ((2 : Nat) : K) ≤ n := by exact_mod_cast hn
  push_cast
  constructor <;> norm_num <;> linarith

/-- It is a natural number below `n - 1`. -/
theorem interpIdx_nat {n : Nat} (hn : 2 ≤ n) (xx : K) :
    ∃ k : Nat, interpIdx n xx = (k : Int) ∧ k + 1 < n := by
  rw [interpIdx_eq hn]
  refine ⟨(min (max ⌊xx⌋ 0) ((n : Int) - 2)).toNat, ?_, ?_⟩ <;> omega

/-- Position in segment `k`. -/
theorem interpIdx_segment {n k : Nat} (hk : k + 1 < n) {xx : K} (h0 : (k : K) ≤ xx) (h1 : xx < k + 1) :
    interpIdx n xx = (k : Int) := by
  rw [interpIdx_eq (by omega)]
  have : ⌊xx⌋ = (k : Int) := by
    rw [Int.floor_eq_iff]; exact ⟨by exact_mod_cast h0, by exact_mod_cast h1⟩
  rw [this]; omega

theorem interpIdx_left {n : Nat} (hn : 2 ≤ n) {xx : K} (h : xx < 1) : interpIdx n xx = 0 := by
  rw [interpIdx_eq hn]
  have : ⌊xx⌋ ≤ 0 := by rw [← Int.lt_add_one_iff, Int.floor_lt]; simpa using h
  omega

theorem interpIdx_right {n k : Nat} (hn : n = k + 2) {xx : K} (h : (k : K) ≤ xx) :
    interpIdx n xx = (k : Int) := by
  rw [interpIdx_eq (by omega)]
  have : (k : Int) ≤ ⌊xx⌋ := by rw [Int.le_floor]; exact_mod_cast h
  omega

omit [IsStrictOrderedRing K] [FloorRing K] in
theorem at?_nat (fp : List K) (k : Nat) : at? fp (k : Int) = fp[k]? := by
  unfold at?
  rw [if_neg (by omega)]
  simp

omit [IsStrictOrderedRing K] in
theorem evalLin_of_idx {x xp0 dxp : K} {fp : List K} {k : Nat} {y1 y2 : K}
    (hi : interpIdx fp.length ((x - xp0) / dxp) = (k : Int)) (h1 : fp[k]? = some y1)
    (h2 : fp[k + 1]? = some y2) :
    evalLin x xp0 dxp fp = some (y1 + (y2 - y1) * ((x - xp0) / dxp - k)) := by
  unfold evalLin
  dsimp only
  rw [hi, at?_nat, h1, show ((k : Int) + 1) = ((k + 1 : Nat) : Int) by omega, at?_nat, h2]
  simp only [Option.bind_some, Option.map_some, Int.cast_natCast]
  congr 1
  ring

omit [IsStrictOrderedRing K] in
theorem evalCubic_of_idx {x xp0 dxp : K} {fp y2p : List K} {k : Nat} {y1 y2 z1 z2 : K}
    (hi : interpIdx fp.length ((x - xp0) / dxp) = (k : Int)) (h1 : fp[k]? = some y1)
    (h2 : fp[k + 1]? = some y2) (h3 : y2p[k]? = some z1) (h4 : y2p[k + 1]? = some z2) :
    evalCubic x xp0 dxp fp y2p = some (cubicPiece dxp y1 y2 z1 z2 ((x - xp0) / dxp - k)) := by
  unfold evalCubic
  dsimp only
  rw [hi, at?_nat, h1, show ((k : Int) + 1) = ((k + 1 : Nat) : Int) by omega, at?_nat, h2, at?_nat,
    at?_nat, h3, h4]
  simp only [Option.bind_some, Option.map_some, Int.cast_natCast]

end

/-! ### The natural spline -/

omit [IsStrictOrderedRing K] [LinearOrder K] in
theorem update_of_ne' {y : Nat → K} {i j : Nat} (v : K) (h : j ≠ i) : Function.update y i v j = y j :=
  Function.update_of_ne h v y

/-- Coefficients of the elimination. -/
def natC : Nat → K
  | 0 => 0
  | i + 1 => (1 / 2 - 1) / (1 / 2 * natC i + 2)

def natU (fp : Nat → K) (dxp : K) : Nat → K
  | 0 => 0
  | i + 1 => (3 * ((fp (i + 2) + fp i - 2 * fp (i + 1)) / dxp) / dxp - 1 / 2 * natU fp dxp i) /
      (1 / 2 * natC i + 2)

theorem natC_bounds (i : Nat) : -1 ≤ (natC i : K) ∧ (natC i : K) ≤ 0 := by
  induction i with
  | zero => simp [natC]
  | succ i ih =>
    have hp : (0 : K) < 1 / 2 * natC i + 2 := by linarith [ih.1]
    unfold natC
    constructor
    · rw [le_div_iff₀ hp]; linarith [ih.1]
    · exact div_nonpos_of_nonpos_of_nonneg (by norm_num) hp.le

theorem natC_pos (i : Nat) : (0 : K) < 1 / 2 * natC i + 2 := by linarith [(natC_bounds (K := K) i).1]

omit [IsStrictOrderedRing K] in
theorem natural_forward (fp : Nat → K) (dxp : K) (m : Nat) {y u : Nat → K} (h0 : y 0 = 0)
    (hu : u 0 = 0) :
    let s := (List.range' 1 m).foldl (naturalStep fp dxp) (y, u)
    (∀ i ≤ m, s.1 i = natC i ∧ s.2 i = natU fp dxp i) ∧ ∀ i, m < i → s.1 i = y i := by
  induction m with
  | zero =>
    refine ⟨fun i hi => ?_, fun _ _ => rfl⟩
    obtain rfl : i = 0 := by omega
    exact ⟨h0, hu⟩
  | succ m ih =>
    have e : List.range' 1 (m + 1) = List.range' 1 m ++ [m + 1] := by
      rw [List.range'_concat]; congr 2; omega
    dsimp only at ih ⊢
    rw [e, List.foldl_append]
    generalize (List.range' 1 m).foldl (naturalStep fp dxp) (y, u) = s at ih ⊢
    simp only [List.foldl_cons, List.foldl_nil]
    unfold naturalStep
    dsimp only
    obtain ⟨h1, h2⟩ := ih
    constructor
    · intro i hi
      by_cases hm : i = m + 1
      · subst hm
        rw [Function.update_self, Function.update_self]
        simp only [Nat.add_sub_cancel, (h1 m le_rfl).1, (h1 m le_rfl).2]
        exact ⟨rfl, rfl⟩
      · rw [update_of_ne' _ hm, update_of_ne' _ hm]
        exact h1 i (by omega)
    · intro i hi
      rw [update_of_ne' _ (by omega)]
      exact h2 i (by omega)

omit [IsStrictOrderedRing K] [LinearOrder K] in
/-- Back substitution from `m` down to 1. -/
theorem back_sub (u : Nat → K) (m : Nat) (y : Nat → K) :
    let t := (List.range' 1 m).reverse.foldl (backStep u) y
    (∀ i, 1 ≤ i → i ≤ m → t i = y i * t (i + 1) + u i) ∧ t 0 = y 0 ∧ ∀ i, m < i → t i = y i := by
  induction m generalizing y with
  | zero => exact ⟨fun i h1 h2 => by omega, rfl, fun _ _ => rfl⟩
  | succ m ih =>
    have e : List.range' 1 (m + 1) = List.range' 1 m ++ [m + 1] := by
      rw [List.range'_concat]; congr 2; omega
    dsimp only
    rw [e, List.reverse_append, List.foldl_append]
    simp only [List.reverse_cons, List.reverse_nil, List.nil_append, List.foldl_cons, List.foldl_nil]
    obtain ⟨h1, h2, h3⟩ := ih (backStep u y (m + 1))
    generalize (List.range' 1 m).reverse.foldl (backStep u) (backStep u y (m + 1)) = t at h1 h2 h3 ⊢
    have hb : ∀ i, i ≠ m + 1 → backStep u y (m + 1) i = y i := fun i hi => update_of_ne' _ hi
    refine ⟨fun i hi hm => ?_, by rw [h2, hb 0 (by omega)], fun i hi => by
      rw [h3 i (by omega), hb i (by omega)]⟩
    by_cases hmi : i = m + 1
    · subst hmi
      rw [h3 (m + 1) (by omega), h3 (m + 2) (by omega), hb (m + 2) (by omega)]
      unfold backStep
      rw [Function.update_self]
    · rw [h1 i hi (by omega), hb i hmi]

/-- The natural spline: zero at the ends and the equations of continuous slope. -/
theorem splineNatural_spec (junk junk' : Nat → K) {n : Nat} (hn : 2 ≤ n) (fp : Nat → K) {dxp : K} :
    let y := splineNatural junk junk' n fp dxp
    y 0 = 0 ∧ y (n - 1) = 0 ∧ ∀ i, 1 ≤ i → i ≤ n - 2 →
      y (i - 1) + 4 * y i + y (i + 1) = 6 * ((fp (i + 1) + fp (i - 1) - 2 * fp i) / dxp) / dxp := by
  dsimp only
  unfold splineNatural
  generalize hy0 : Function.update (Function.update junk (n - 1) 0) 0 0 = y0
  generalize hu0 : Function.update junk' 0 0 = u0
  have hy00 : y0 0 = 0 := by rw [← hy0, Function.update_self]
  have hy0n : y0 (n - 1) = 0 := by rw [← hy0, update_of_ne' _ (by omega), Function.update_self]
  have hu00 : u0 0 = 0 := by rw [← hu0, Function.update_self]
  obtain ⟨f1, f2⟩ := natural_forward fp dxp (n - 2) hy00 hu00
  generalize (List.range' 1 (n - 2)).foldl (naturalStep fp dxp) (y0, u0) = s at f1 f2 ⊢
  obtain ⟨b1, b2, b3⟩ := back_sub s.2 (n - 2) s.1
  generalize (List.range' 1 (n - 2)).reverse.foldl (backStep s.2) s.1 = t at b1 b2 b3 ⊢
  have ht0 : t 0 = 0 := by rw [b2, (f1 0 (by omega)).1]; rfl
  have htn : t (n - 1) = 0 := by rw [b3 _ (by omega), f2 _ (by omega), hy0n]
  refine ⟨ht0, htn, fun i h1 h2 => ?_⟩
  have hrow : ∀ j ≤ n - 2, t j = natC j * t (j + 1) + natU fp dxp j := by
    intro j hj
    by_cases hj0 : j = 0
    · subst hj0; rw [ht0]; simp [natC, natU]
    · rw [b1 j (by omega) hj, (f1 j hj).1, (f1 j hj).2]
  obtain ⟨j, rfl⟩ : ∃ j, i = j + 1 := ⟨i - 1, by omega⟩
  have ha := hrow j (by omega)
  have hb := hrow (j + 1) h2
  have hp := natC_pos (K := K) j
  simp only [Nat.add_sub_cancel]
  have hb' : t (j + 1) * (1 / 2 * natC j + 2) =
      (1 / 2 - 1) * t (j + 2) +
        (3 * ((fp (j + 2) + fp j - 2 * fp (j + 1)) / dxp) / dxp - 1 / 2 * natU fp dxp j) := by
    rw [hb]
    change ((1 / 2 - 1) / (1 / 2 * natC j + 2) * t (j + 1 + 1) +
      (3 * ((fp (j + 2) + fp j - 2 * fp (j + 1)) / dxp) / dxp - 1 / 2 * natU fp dxp j) /
      (1 / 2 * natC j + 2)) * (1 / 2 * natC j + 2) = _
    have hp' := hp.ne'
    generalize (1 / 2 * natC j + 2 : K) = p at hp' ⊢
    rw [add_mul, div_mul_cancel₀ _ hp', div_mul_eq_mul_div, div_mul_cancel₀ _ hp']
  rw [ha]
  have : 6 * ((fp (j + 1 + 1) + fp j - 2 * fp (j + 1)) / dxp) / dxp =
      2 * (3 * ((fp (j + 2) + fp j - 2 * fp (j + 1)) / dxp) / dxp) := by ring
  rw [this]
  linear_combination 2 * hb'

/-! ### The not-a-knot spline -/

omit [IsStrictOrderedRing K] [LinearOrder K] in
theorem secondDifferences_spec (junk : Nat → K) (n : Nat) (fp : Nat → K) {i : Nat} (h1 : 1 ≤ i)
    (h2 : i ≤ n - 2) : secondDifferences junk n fp i = fp (i - 1) - 2 * fp i + fp (i + 1) := by
  unfold secondDifferences
  generalize n - 2 = m at h2
  induction m with
  | zero => omega
  | succ m ih =>
    have e : List.range' 1 (m + 1) = List.range' 1 m ++ [m + 1] := by
      rw [List.range'_concat]; congr 2; omega
    rw [e, List.foldl_append]
    simp only [List.foldl_cons, List.foldl_nil]
    by_cases hm : i = m + 1
    · subst hm; rw [Function.update_self]
    · rw [update_of_ne' _ hm]; exact ih (by omega)

omit [IsStrictOrderedRing K] [LinearOrder K] in
/-- Elimination: rows `2 .. m + 1`. -/
theorem nak_forward (m : Nat) (d : Nat → K) :
    let y := (List.range' 1 m).foldl nakForward d
    y 1 = d 1 ∧ (∀ i, 1 ≤ i → i ≤ m → y (i + 1) = d (i + 1) - pAt i * y i) ∧
      ∀ i, m + 1 < i → y i = d i := by
  induction m with
  | zero => exact ⟨rfl, fun i h1 h2 => by omega, fun _ _ => rfl⟩
  | succ m ih =>
    have e : List.range' 1 (m + 1) = List.range' 1 m ++ [m + 1] := by
      rw [List.range'_concat]; congr 2; omega
    dsimp only at ih ⊢
    rw [e, List.foldl_append]
    generalize (List.range' 1 m).foldl nakForward d = y at ih ⊢
    simp only [List.foldl_cons, List.foldl_nil]
    unfold nakForward
    obtain ⟨h1, h2, h3⟩ := ih
    refine ⟨by rw [update_of_ne' _ (by omega)]; exact h1, fun i hi hm => ?_, fun i hi => ?_⟩
    · by_cases hmi : i = m + 1
      · subst hmi
        rw [Function.update_self, update_of_ne' _ (by omega), h3 (m + 1 + 1) (by omega)]
      · rw [update_of_ne' _ (by omega), update_of_ne' _ (by omega)]
        exact h2 i hi (by omega)
    · rw [update_of_ne' _ (by omega)]; exact h3 i (by omega)

omit [IsStrictOrderedRing K] [LinearOrder K] in
/-- Back substitution: rows `m + 1` down to 2. -/
theorem nak_backward (m : Nat) (y : Nat → K) :
    let t := (List.range' 1 m).reverse.foldl nakBackward y
    (∀ i, 1 ≤ i → i ≤ m → t (i + 1) = (y (i + 1) - t (i + 2)) / uAt i) ∧ t 1 = y 1 ∧
      ∀ i, m + 1 < i → t i = y i := by
  induction m generalizing y with
  | zero => exact ⟨fun i h1 h2 => by omega, rfl, fun _ _ => rfl⟩
  | succ m ih =>
    have e : List.range' 1 (m + 1) = List.range' 1 m ++ [m + 1] := by
      rw [List.range'_concat]; congr 2; omega
    dsimp only
    rw [e, List.reverse_append, List.foldl_append]
    simp only [List.reverse_cons, List.reverse_nil, List.nil_append, List.foldl_cons, List.foldl_nil]
    obtain ⟨h1, h2, h3⟩ := ih (nakBackward y (m + 1))
    generalize (List.range' 1 m).reverse.foldl nakBackward (nakBackward y (m + 1)) = t at h1 h2 h3 ⊢
    have hb : ∀ i, i ≠ m + 2 → nakBackward y (m + 1) i = y i := fun i hi => update_of_ne' _ hi
    refine ⟨fun i hi hm => ?_, by rw [h2, hb 1 (by omega)], fun i hi => by
      rw [h3 i (by omega), hb i (by omega)]⟩
    by_cases hmi : i = m + 1
    · subst hmi
      rw [h3 (m + 2) (by omega), h3 (m + 3) (by omega), hb (m + 3) (by omega)]
      unfold nakBackward
      rw [Function.update_self]
    · rw [h1 i hi (by omega), hb (i + 1) (by omega)]

/-- The decimals of the tables are the pivots `4, 4 - 1/4, ...` of the elimination to 15 digits. -/
theorem tables_close (i : Nat) (hi : 1 ≤ i) :
    (0 : K) < uAt i ∧ |pAt (i + 1) * uAt i - 1| ≤ (1 : K) / 10 ^ 15 ∧
      |uAt (i + 1) + pAt (i + 1) - 4| ≤ (1 : K) / 10 ^ 15 := by
  by_cases h : i ≤ 15
  · interval_cases i <;>
      simp only [uAt, pAt, uTable, pTable] <;>
      norm_num [abs_le]
  · have e1 : (uAt i : K) = uAt 15 := by unfold uAt; rw [min_eq_right (by omega)]; rfl
    have e2 : (uAt (i + 1) : K) = uAt 15 := by unfold uAt; rw [min_eq_right (by omega)]; rfl
    have e3 : (pAt (i + 1) : K) = pAt 16 := by unfold pAt; rw [min_eq_right (by omega)]; rfl
    rw [e1, e2, e3]
    simp only [uAt, pAt, uTable, pTable]
    norm_num [abs_le]

/-- Before scaling. -/
def nakRaw (junk : Nat → K) (n : Nat) (fp : Nat → K) : Nat → K :=
  divSix ((List.range' 1 (n - 4)).reverse.foldl nakBackward
    (divSix ((List.range' 1 (n - 4)).foldl nakForward (secondDifferences junk n fp)) (n - 2))) 1

omit [LinearOrder K] [IsStrictOrderedRing K] in
theorem uAt_zero : (uAt 0 : K) = 6 := rfl

theorem uAt_one : (uAt 1 : K) = 4 := by
  simp [uAt, uTable]

/-- The rows that the elimination solves. -/
theorem nakRaw_spec (junk : Nat → K) {n : Nat} (hn : 4 ≤ n) (fp : Nat → K) :
    let d := fun i => fp (i - 1) - 2 * fp i + fp (i + 1)
    let t := nakRaw junk n fp
    6 * t 1 = d 1 ∧ 6 * t (n - 2) = d (n - 2) ∧
    (∀ i, 2 ≤ i → i ≤ n - 3 →
      |t (i - 1) + 4 * t i + t (i + 1) - d i| ≤ 1 / 10 ^ 15 * (|t (i - 1)| + |t i|)) := by
  dsimp only
  unfold nakRaw
  have hd : ∀ i, 1 ≤ i → i ≤ n - 2 →
      secondDifferences junk n fp i = fp (i - 1) - 2 * fp i + fp (i + 1) :=
    fun i h1 h2 => secondDifferences_spec junk n fp h1 h2
  generalize secondDifferences junk n fp = d at hd ⊢
  obtain ⟨f1, f2, f3⟩ := nak_forward (n - 4) d
  generalize (List.range' 1 (n - 4)).foldl nakForward d = y at f1 f2 f3 ⊢
  have hy : ∀ i, i ≠ n - 2 → divSix y (n - 2) i = y i := fun i hi => update_of_ne' _ hi
  have hy2 : divSix y (n - 2) (n - 2) = y (n - 2) / 6 := by
    unfold divSix; rw [Function.update_self]; rfl
  obtain ⟨b1, b2, b3⟩ := nak_backward (n - 4) (divSix y (n - 2))
  generalize divSix y (n - 2) = y' at hy hy2 b1 b2 b3 ⊢
  generalize (List.range' 1 (n - 4)).reverse.foldl nakBackward y' = t at b1 b2 b3 ⊢
  have ht : ∀ i, i ≠ 1 → divSix t 1 i = t i := fun i hi => update_of_ne' _ hi
  have ht1 : divSix t 1 1 = t 1 / 6 := by unfold divSix; rw [Function.update_self]; rfl
  generalize divSix t 1 = w at ht ht1 ⊢
  have hw1 : 6 * w 1 = d 1 := by
    rw [ht1, b2, hy 1 (by omega), f1]; ring
  refine ⟨by rw [hw1, hd 1 le_rfl (by omega)], ?_, fun i h2 h3 => ?_⟩
  · rw [ht _ (by omega), b3 _ (by omega), hy2, f3 _ (by omega), hd _ (by omega) le_rfl]; ring
  · rw [← hd i (by omega) (by omega)]
    -- the rows after elimination
    have hrow : ∀ j, 2 ≤ j → j ≤ n - 3 → uAt (j - 1) * w j + w (j + 1) = y j := by
      intro j hj hj'
      obtain ⟨k, rfl⟩ : ∃ k, j = k + 1 := ⟨j - 1, by omega⟩
      have := b1 k (by omega) (by omega)
      have hu : (uAt k : K) ≠ 0 := (tables_close k (by omega)).1.ne'
      rw [Nat.add_sub_cancel, ht _ (by omega), ht _ (by omega), this, hy _ (by omega)]
      field_simp
      ring
    obtain ⟨k, rfl⟩ : ∃ k, i = k + 2 := ⟨i - 2, by omega⟩
    have hi := hrow (k + 2) (by omega) h3
    have hf := f2 (k + 1) (by omega) (by omega)
    simp only [show k + 2 - 1 = k + 1 by omega] at hi ⊢
    by_cases hk : k = 0
    · subst hk
      have hy1 : y 1 = 6 * w 1 := by rw [f1, hw1]
      have hp : |(pAt 1 : K) * 6 - 1| ≤ 1 / 10 ^ 15 := by
        simp only [pAt, pTable]; norm_num [abs_le]
      rw [hy1] at hf
      rw [uAt_one] at hi
      have e : w 1 + 4 * w 2 + w (2 + 1) - d 2 = -((pAt 1 * 6 - 1) * w 1) := by
        linear_combination hi + hf
      simp only [Nat.zero_add]
      rw [e, abs_neg, abs_mul]
      nlinarith [mul_le_mul_of_nonneg_right hp (abs_nonneg (w 1)), abs_nonneg (w 2)]
    · have hi' := hrow (k + 1) (by omega) (by omega)
      simp only [show k + 1 - 1 = k by omega] at hi'
      obtain ⟨-, c1, c2⟩ := tables_close (K := K) k (by omega)
      have e : w (k + 1) + 4 * w (k + 2) + w (k + 2 + 1) - d (k + 2) =
          -((pAt (k + 1) * uAt k - 1) * w (k + 1) + (uAt (k + 1) + pAt (k + 1) - 4) * w (k + 2)) := by
        rw [← hi'] at hf
        linear_combination hi + hf
      rw [e, abs_neg]
      refine (abs_add_le _ _).trans ?_
      rw [abs_mul, abs_mul, mul_add]
      exact add_le_add (mul_le_mul_of_nonneg_right c1 (abs_nonneg _))
        (mul_le_mul_of_nonneg_right c2 (abs_nonneg _))

/-- The not-a-knot spline of four or more nodes. -/
theorem splineNotaknot_spec (junk : Nat → K) {n : Nat} (hn : 4 ≤ n) (fp : Nat → K) {dxp : K} :
    let y := splineNotaknot junk n fp dxp
    let rhs := fun i => 6 * (fp (i - 1) - 2 * fp i + fp (i + 1)) / dxp ^ 2
    y 0 - 2 * y 1 + y 2 = 0 ∧ y (n - 3) - 2 * y (n - 2) + y (n - 1) = 0 ∧
    y 0 + 4 * y 1 + y 2 = rhs 1 ∧ y (n - 3) + 4 * y (n - 2) + y (n - 1) = rhs (n - 2) ∧
    (∀ i, 2 ≤ i → i ≤ n - 3 →
      |y (i - 1) + 4 * y i + y (i + 1) - rhs i| ≤ 1 / 10 ^ 15 * (|y (i - 1)| + |y i|)) := by
  dsimp only
  obtain ⟨h1, h2, h3⟩ := nakRaw_spec junk hn fp
  have e : ∀ i, splineNotaknot junk n fp dxp i = nakEnds n (nakRaw junk n fp) i * (6 / dxp ^ 2) :=
    fun _ => rfl
  simp only [e]
  generalize nakRaw junk n fp = t at h1 h2 h3
  have e0 : nakEnds n t 0 = 2 * t 1 - t 2 := by
    unfold nakEnds; rw [update_of_ne' _ (by omega), Function.update_self]
  have en : nakEnds n t (n - 1) = 2 * t (n - 2) - t (n - 3) := by
    unfold nakEnds
    rw [Function.update_self, update_of_ne' _ (by omega), update_of_ne' _ (by omega)]
  have ei : ∀ i, 1 ≤ i → i ≤ n - 2 → nakEnds n t i = t i := by
    intro i hi hi'
    unfold nakEnds
    rw [update_of_ne' _ (by omega), update_of_ne' _ (by omega)]
  rw [e0, en, ei 1 le_rfl (by omega), ei 2 (by omega) (by omega), ei (n - 2) (by omega) le_rfl,
    ei (n - 3) (by omega) (by omega)]
  dsimp only at h1 h2 h3
  refine ⟨by ring, by ring, ?_, ?_, fun i hi hi' => ?_⟩
  · rw [← h1]; ring
  · rw [← h2]; ring
  · rw [ei (i - 1) (by omega) (by omega), ei i (by omega) (by omega), ei (i + 1) (by omega) (by omega)]
    have := h3 i hi hi'
    generalize fp (i - 1) - 2 * fp i + fp (i + 1) = D at this ⊢
    have e2 : t (i - 1) * (6 / dxp ^ 2) + 4 * (t i * (6 / dxp ^ 2)) + t (i + 1) * (6 / dxp ^ 2) -
        6 * D / dxp ^ 2 = (t (i - 1) + 4 * t i + t (i + 1) - D) * (6 / dxp ^ 2) := by ring
    rw [e2, abs_mul, abs_mul, abs_mul, ← add_mul, ← mul_assoc]
    exact mul_le_mul_of_nonneg_right this (abs_nonneg _)

omit [IsStrictOrderedRing K] [LinearOrder K] in
theorem nak_agree {f : (Nat → K) → Nat → Nat → K} {m : Nat}
    (hf : ∀ y y' : Nat → K, ∀ i, 1 ≤ i → i + 2 ≤ m → (∀ j, 1 ≤ j → j ≤ m → y j = y' j) →
      ∀ j, 1 ≤ j → j ≤ m → f y i j = f y' i j) (l : List Nat) (hl : ∀ i ∈ l, 1 ≤ i ∧ i + 2 ≤ m)
    {y y' : Nat → K} (h : ∀ j, 1 ≤ j → j ≤ m → y j = y' j) :
    ∀ j, 1 ≤ j → j ≤ m → l.foldl f y j = l.foldl f y' j := by
  induction l generalizing y y' with
  | nil => exact h
  | cons i l ih =>
    have hi := hl i List.mem_cons_self
    exact ih (fun k hk => hl k (List.mem_cons_of_mem _ hk)) (hf y y' i hi.1 hi.2 h)

omit [IsStrictOrderedRing K] [LinearOrder K] in
theorem update_agree {m k : Nat} {y y' : Nat → K} {v v' : K} (hv : v = v')
    (h : ∀ j, 1 ≤ j → j ≤ m → y j = y' j) :
    ∀ j, 1 ≤ j → j ≤ m → Function.update y k v j = Function.update y' k v' j := by
  intro j h1 h2
  by_cases hj : j = k
  · subst hj; rw [Function.update_self, Function.update_self, hv]
  · rw [update_of_ne' _ hj, update_of_ne' _ hj]; exact h j h1 h2

omit [IsStrictOrderedRing K] [LinearOrder K] in
/-- What `np.empty` held does not matter with four or more nodes. -/
theorem splineNotaknot_junk (junk junk' : Nat → K) {n : Nat} (hn : 4 ≤ n) (fp : Nat → K) (dxp : K)
    {i : Nat} (hi : i < n) : splineNotaknot junk n fp dxp i = splineNotaknot junk' n fp dxp i := by
  have hmem : ∀ i ∈ List.range' 1 (n - 4), 1 ≤ i ∧ i + 2 ≤ n - 2 := by
    intro i hi
    rw [List.mem_range'_1] at hi
    omega
  have h0 : ∀ j, 1 ≤ j → j ≤ n - 2 → secondDifferences junk n fp j = secondDifferences junk' n fp j :=
    fun j h1 h2 => by rw [secondDifferences_spec _ _ _ h1 h2, secondDifferences_spec _ _ _ h1 h2]
  have h1 := nak_agree (f := nakForward) (m := n - 2)
    (fun y y' i hi hi' h => update_agree (by rw [h i hi (by omega), h (i + 1) (by omega) (by omega)]) h)
    (List.range' 1 (n - 4)) hmem h0
  have h2 := update_agree (k := n - 2) (congrArg (· / uAt 0) (h1 (n - 2) (by omega) le_rfl)) h1
  have h3 := nak_agree (f := nakBackward) (m := n - 2)
    (fun y y' i hi hi' h => update_agree
      (by rw [h (i + 1) (by omega) (by omega), h (i + 2) (by omega) (by omega)]) h)
    (List.range' 1 (n - 4)).reverse (fun i hi => hmem i (List.mem_reverse.mp hi)) h2
  have h4 := update_agree (k := 1) (congrArg (· / uAt 0) (h3 1 le_rfl (by omega))) h3
  change ∀ j, 1 ≤ j → j ≤ n - 2 → nakRaw junk n fp j = nakRaw junk' n fp j at h4
  change nakEnds n (nakRaw junk n fp) i * _ = nakEnds n (nakRaw junk' n fp) i * _
  congr 1
  unfold nakEnds
  by_cases hin : i = n - 1
  · subst hin
    rw [Function.update_self, Function.update_self, update_of_ne' _ (by omega),
      update_of_ne' _ (by omega), update_of_ne' _ (by omega), update_of_ne' _ (by omega),
      h4 _ (by omega) le_rfl, h4 (n - 3) (by omega) (by omega)]
  · rw [update_of_ne' _ hin, update_of_ne' _ hin]
    by_cases hi0 : i = 0
    · subst hi0
      rw [Function.update_self, Function.update_self, h4 1 le_rfl (by omega), h4 2 (by omega) (by omega)]
    · rw [update_of_ne' _ hi0, update_of_ne' _ hi0]
      exact h4 i (by omega) (by omega)

end Verif.Proofs
