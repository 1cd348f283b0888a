import Mathlib.Algebra.Order.Field.Rat
import Mathlib.Tactic.Linarith
import Mathlib.Tactic.Positivity
import Verif.Model.Smooth
import Verif.Spec.Outlier

/-!
# C94: outlier mask
-/

namespace Verif.Props
open Verif Verif.Np Verif.Model Verif.Spec

variable {K : Type} [Field K] [LinearOrder K]

omit [Field K] in
theorem length_medianFilter [Zero K] (l : List K) (size : Nat) : (medianFilter l size).length = l.length := by
  unfold medianFilter
  rw [List.length_map, List.length_range]

omit [Field K] in
theorem getD_nonneg [Zero K] {l : List K} (h : ∀ x ∈ l, 0 ≤ x) (i : Nat) : 0 ≤ l.getD i 0 := by
  rw [List.getD_eq_getElem?_getD]
  cases e : l[i]? with
  | none => exact le_refl _
  | some x => exact h x (List.mem_of_getElem? e)

omit [Field K] in
theorem medianFilter_nonneg [Zero K] {l : List K} (h : ∀ x ∈ l, 0 ≤ x) (size : Nat) :
    ∀ x ∈ medianFilter l size, 0 ≤ x := by
  intro x hx
  obtain ⟨i, -, rfl⟩ := List.mem_map.mp hx
  refine getD_nonneg (fun y hy => ?_) _
  rw [List.mem_insertionSort] at hy
  obtain ⟨k, -, rfl⟩ := List.mem_map.mp hy
  exact getD_nonneg h _

/-- The mask at pixel `i`: true for masked pixels, else what the mask of the good pixels says. -/
theorem scatterMask_get : ∀ (ivar : List K) (m : List Bool) (i : Nat), i < ivar.length →
    (scatterMask ivar m).getD i false =
      if ivar.getD i 0 = 0 then true else (m.drop (goodBefore ivar i)).headD true := by
  intro ivar
  induction ivar with
  | nil => intro m i h; simp at h
  | cons v vs ih =>
    intro m i h
    cases i with
    | zero =>
      unfold scatterMask goodBefore
      by_cases hv : v = 0
      · simp [hv]
      · simp [hv]
    | succ i =>
      have hb : goodBefore (v :: vs) (i + 1) = goodBefore vs i + if v = 0 then 0 else 1 := by
        unfold goodBefore
        rw [List.take_succ_cons, List.countP_cons]
        by_cases hv : v = 0 <;> simp [hv]
      unfold scatterMask
      rw [hb]
      by_cases hv : v = 0
      · rw [if_pos hv, if_pos hv, Nat.add_zero, List.getD_cons_succ, List.getD_cons_succ]
        exact ih m i (by simpa using h)
      · rw [if_neg hv, if_neg hv, List.getD_cons_succ, List.getD_cons_succ, ih m.tail i (by simpa using h),
          List.drop_tail, Nat.add_comm]

theorem length_scatterMask (ivar : List K) : ∀ m, (scatterMask ivar m).length = ivar.length := by
  induction ivar with
  | nil => intro m; rfl
  | cons v vs ih =>
    intro m
    unfold scatterMask
    split <;> simp [ih]

/-- Good pixel number `goodBefore ivar i` is pixel `i`. -/
theorem good_get {flux ivar : List K} (hl : flux.length = ivar.length) {i : Nat} (hi : i < ivar.length)
    (hv : ivar.getD i 0 ≠ 0) : ((flux.zip ivar).filter (fun p => decide (p.2 ≠ 0)))[goodBefore ivar i]? =
      some (flux.getD i 0, ivar.getD i 0) := by
  induction ivar generalizing flux i with
  | nil => simp at hi
  | cons v vs ih =>
    cases flux with
    | nil => simp at hl
    | cons f fs =>
      cases i with
      | zero =>
        rw [List.getD_cons_zero] at hv
        rw [List.zip_cons_cons, List.filter_cons, if_pos (by simpa using hv)]
        rfl
      | succ i =>
        have hb : goodBefore (v :: vs) (i + 1) = goodBefore vs i + if v = 0 then 0 else 1 := by
          unfold goodBefore
          rw [List.take_succ_cons, List.countP_cons]
          by_cases hv : v = 0 <;> simp [hv]
        rw [hb, List.zip_cons_cons, List.filter_cons, List.getD_cons_succ, List.getD_cons_succ]
        have := ih (flux := fs) (i := i) (by simpa using hl) (by simpa using hi) (by simpa using hv)
        by_cases h0 : v = 0
        · rw [if_neg (by simpa using h0), if_pos h0]
          exact this
        · rw [if_pos (by simpa using h0), if_neg h0]
          exact this

/-- The cut in terms of inverse errors and in terms of errors. -/
theorem cut_iff [IsStrictOrderedRing K] {d r s e : K} (hr : 0 < r) (hs : 0 < s) (he : 0 < e) :
    d * (min r (min 1 (1 / s)) / e) > 1 ↔ e * max (1 / r) (max 1 s) < d := by
  have h1 : min 1 (1 / s) = 1 / max 1 s := by
    rcases le_total 1 s with h | h
    · rw [max_eq_right h, min_eq_right (by rw [div_le_one hs]; exact h)]
    · rw [max_eq_left h, min_eq_left (by rw [le_div_iff₀ hs]; linarith), div_one]
  have hm : 0 < max 1 s := lt_of_lt_of_le one_pos (le_max_left _ _)
  have h2 : min r (1 / max 1 s) = 1 / max (1 / r) (max 1 s) := by
    rcases le_total (1 / r) (max 1 s) with h | h
    · rw [max_eq_right h, min_eq_right]
      rw [div_le_iff₀ hm]
      rw [div_le_iff₀ hr] at h
      linarith [mul_comm r (max 1 s)]
    · rw [max_eq_left h, one_div_one_div, min_eq_left]
      rw [le_div_iff₀ hm]
      rw [le_div_iff₀ hr] at h
      linarith [mul_comm r (max 1 s)]
  rw [h1, h2]
  have hM : 0 < max (1 / r) (max 1 s) := lt_of_lt_of_le hm (le_max_right _ _)
  generalize max (1 / r) (max 1 s) = M at hM
  rw [gt_iff_lt, ← mul_div_assoc, lt_div_iff₀ he, one_mul, mul_one_div, lt_div_iff₀ hM]

/-- **C94.** A pixel is masked exactly if it was masked before, or if its flux is further away from the moving median than
`esigma` times the larger one of its error and of the scatter around the median, where the scatter is never less than one
unit of flux. -/
theorem C94_mask_partial [IsStrictOrderedRing K] (sqrt : K → K) (hq : ∀ v, 0 < v → 0 < sqrt v) {madScale eps esigma : K}
    (hm : 0 ≤ madScale) (hp : 0 < eps) (he : 0 < esigma) (size : Nat) {flux ivar : List K}
    (hl : flux.length = ivar.length) (hv : ∀ v ∈ ivar, 0 ≤ v) {i : Nat} (hi : i < flux.length) :
    (medianOutlierMask sqrt madScale eps flux ivar esigma size).length = flux.length ∧
    ((medianOutlierMask sqrt madScale eps flux ivar esigma size).getD i false = true ↔ ivar.getD i 0 = 0 ∨
      esigma * max (1 / sqrt (ivar.getD i 0))
        (max 1 (madScale * mad (goodFlux flux ivar) size (goodBefore ivar i) + eps)) <
        distance (goodFlux flux ivar) size (goodBefore ivar i)) := by
  refine ⟨by unfold medianOutlierMask; rw [length_scatterMask, hl], ?_⟩
  unfold medianOutlierMask
  dsimp only
  rw [scatterMask_get _ _ _ (hl ▸ hi)]
  by_cases h0 : ivar.getD i 0 = 0
  · rw [if_pos h0]
    exact iff_of_true rfl (Or.inl h0)
  rw [if_neg h0, or_iff_right h0]
  have hg := good_get hl (hl ▸ hi) h0
  unfold mad distance distances goodFlux
  generalize hP : (flux.zip ivar).filter (fun p => decide (p.2 ≠ 0)) = P at hg ⊢
  generalize goodBefore ivar i = q at hg ⊢
  generalize hA : List.zipWith (fun x m => |x - m|) (P.map Prod.fst) (medianFilter (P.map Prod.fst) size) = A
  have hAq : A[q]? = some (|(P.map Prod.fst).getD q 0 - (medianFilter (P.map Prod.fst) size).getD q 0|) := by
    have hlen : q < (P.map Prod.fst).length := by
      rw [List.length_map]
      exact (List.getElem?_eq_some_iff.mp hg).1
    rw [← hA, List.getElem?_zipWith, List.getElem?_eq_getElem hlen,
      List.getElem?_eq_getElem (by rw [length_medianFilter]; exact hlen)]
    simp [List.getD_eq_getElem?_getD, List.getElem?_eq_getElem hlen,
      List.getElem?_eq_getElem (l := medianFilter (P.map Prod.fst) size) (by rw [length_medianFilter]; exact hlen)]
  have hA0 : ∀ x ∈ A, 0 ≤ x := by
    rw [← hA]
    intro x hx
    rw [← List.map_uncurry_zip_eq_zipWith] at hx
    obtain ⟨a, -, rfl⟩ := List.mem_map.mp hx
    exact abs_nonneg _
  have hM := getD_nonneg (medianFilter_nonneg hA0 size) q
  have hMq : (medianFilter A size)[q]? = some ((medianFilter A size).getD q 0) := by
    have : q < (medianFilter A size).length := by
      rw [length_medianFilter]
      exact (List.getElem?_eq_some_iff.mp hAq).1
    rw [List.getD_eq_getElem?_getD, List.getElem?_eq_getElem this]
    rfl
  have hvi : 0 < ivar.getD i 0 := by
    refine lt_of_le_of_ne ?_ (Ne.symm h0)
    exact getD_nonneg hv i
  generalize (medianFilter A size).getD q 0 = M at hM hMq
  generalize |(P.map Prod.fst).getD q 0 - (medianFilter (P.map Prod.fst) size).getD q 0| = D at hAq
  rw [← cut_iff (hq _ hvi) (by positivity) he, List.headD_eq_head?_getD, List.head?_drop, List.getElem?_zipWith, hAq,
    List.getElem?_zipWith, hg, List.getElem?_map, hMq]
  simp only [Option.map_some, Option.getD_some, decide_eq_true_eq]

/-- **C94.** With flux of order one unit or less nothing is an outlier, whatever the errors say. -/
theorem C94_small_flux [IsStrictOrderedRing K] (sqrt : K → K) (hq : ∀ v, 0 < v → 0 < sqrt v) {madScale eps esigma : K}
    (hm : 0 ≤ madScale) (hp : 0 < eps) (he : 0 < esigma) (size : Nat) {flux ivar : List K}
    (hl : flux.length = ivar.length) (hv : ∀ v ∈ ivar, 0 ≤ v) {i : Nat} (hi : i < flux.length)
    (hd : distance (goodFlux flux ivar) size (goodBefore ivar i) ≤ esigma) :
    (medianOutlierMask sqrt madScale eps flux ivar esigma size).getD i false = true ↔ ivar.getD i 0 = 0 := by
  rw [(C94_mask_partial sqrt hq hm hp he size hl hv hi).2, or_iff_left]
  rw [not_lt]
  refine le_trans hd (le_mul_of_one_le_right he.le ?_)
  exact le_trans (le_max_left _ _) (le_max_right _ _)

/-- **C94.** So the documented condition is not what is computed: a pixel five hundred standard deviations away from
constant neighbours is not masked. -/
theorem C94_documented_refuted : ∃ (flux ivar : List ℚ) (i : Nat) (sqrt : ℚ → ℚ), (∀ v, 0 < v → 0 < sqrt v) ∧
    sqrt 1000000 = 1000 ∧ (∀ v ∈ ivar, v = 1000000) ∧ flux.length = ivar.length ∧ i < flux.length ∧
    Documented sqrt (14826 / 10000) flux ivar (7 / 2) 5 i ∧
    (medianOutlierMask sqrt (14826 / 10000) (1 / 10 ^ 12) flux ivar (7 / 2) 5).getD i false = false := by
  refine ⟨[1, 1, 1, 3 / 2, 1, 1, 1], List.replicate 7 1000000, 3, fun v => if v = 1000000 then 1000 else 1, ?_, ?_⟩
  · intro v _
    dsimp only
    split <;> norm_num
  · unfold Documented
    decide +kernel

/-- An outlier and a masked pixel. -/
example : medianOutlierMask (fun _ : ℚ => 1) (14826 / 10000) (1 / 10 ^ 12) [1, 1, 7, 1, 3, 1, 1] [1, 1, 1, 1, 0, 1, 1]
    (7 / 2) 5 = [false, false, true, false, true, false, false] := by
  decide +kernel

end Verif.Props
