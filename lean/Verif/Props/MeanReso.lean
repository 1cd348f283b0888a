import Verif.Model.MeanReso
import Mathlib.Analysis.SpecialFunctions.Log.Basic
import Mathlib.Analysis.SpecialFunctions.Sqrt
import Mathlib.Data.List.GetD

/-!
# C82: mean resolution
-/

namespace Verif.Props
open Verif.Model Verif.Np

/-- A pixel whose column of the resolution matrix is a Gaussian with `sigma` pixels. -/
structure ResoPixel where
  wave : ℝ
  weight : ℝ
  amp : ℝ
  sigma : ℝ

/-- Row `k` of the resolution matrix, where the middle row is `c`. -/
noncomputable def gaussRow (c : Nat) (pix : List ResoPixel) (k : Nat) : List (Option ℝ) :=
  pix.map (fun p => some (p.amp * Real.exp (-((k : ℝ) - c) ^ 2 / (2 * p.sigma ^ 2))))

/-- Weighted mean of the wavelength. -/
noncomputable def meanWave (pix : List ResoPixel) : ℝ :=
  (pix.map (fun p => p.weight * p.wave)).sum / (pix.map (fun p => p.weight)).sum

theorem firstMax_of {l : List ℝ} {c : Nat} {m : ℝ} (hc : l[c]? = some m)
    (h : ∀ k x, l[k]? = some x → k ≠ c → x < m) : firstMax l = c := by
  unfold firstMax
  obtain ⟨hcl, hm⟩ := List.getElem?_eq_some_iff.mp hc
  rw [List.findIdx_eq hcl]
  constructor
  · rw [List.all_eq_true]
    intro b hb
    obtain ⟨k, hk⟩ := List.getElem?_of_mem hb
    rw [hm]
    by_cases e : k = c
    · rw [e, hc] at hk
      simpa using (Option.some.inj hk).ge
    · simpa using (h k b hk e).le
  · intro j hj
    have hjl : j < l.length := by omega
    have := h j l[j] (List.getElem?_eq_getElem hjl) (by omega)
    rw [List.all_eq_false]
    exact ⟨m, List.mem_of_getElem? hc, by simpa using this⟩

theorem nanArgmax_of {f : Nat → ℝ} {n c : Nat} (hc : c < n) (h : ∀ k, k ≠ c → f k < f c) :
    nanArgmax ((List.range n).map (fun k => some (f k))) = c := by
  unfold nanArgmax
  have : ((List.range n).map (fun k => some (f k))).findIdx? (fun a => a.isNone) = none := by
    rw [List.findIdx?_eq_none_iff]
    intro x hx
    obtain ⟨k, -, rfl⟩ := List.mem_map.mp hx
    rfl
  rw [this]
  dsimp only
  rw [List.map_map]
  refine firstMax_of (m := f c) (by simp [hc]) ?_
  intro k x hk hne
  rw [List.getElem?_map, Option.map_eq_some_iff] at hk
  obtain ⟨j, hj, rfl⟩ := hk
  obtain ⟨_, e⟩ := List.getElem?_eq_some_iff.mp hj
  rw [List.getElem_range] at e
  subst e
  exact h _ hne

theorem mapM_some (l : List ℝ) : (l.map some).mapM id = some l := by
  induction l with
  | nil => rfl
  | cons a l ih => simp [ih]

/-- The sum of weight and amplitude times the Gaussian in row `k`. -/
noncomputable def rowSum (c : Nat) (pix : List ResoPixel) (k : Nat) : ℝ :=
  (pix.map (fun p => p.weight * p.amp * Real.exp (-((k : ℝ) - c) ^ 2 / (2 * p.sigma ^ 2)))).sum

theorem meanRows_gauss (c n : Nat) (pix : List ResoPixel) (hw : (pix.map (fun p => p.weight)).sum ≠ 0) :
    meanRows ((List.range n).map (gaussRow c pix)) (pix.map (fun p => p.weight)) =
      (List.range n).map (fun k => some (rowSum c pix k / (pix.map (fun p => p.weight)).sum)) := by
  unfold meanRows
  rw [List.map_map]
  refine List.map_congr_left fun k _ => ?_
  rw [Function.comp_apply, if_neg hw]
  have e : gaussRow c pix k = (pix.map (fun p => p.amp * Real.exp (-((k : ℝ) - c) ^ 2 / (2 * p.sigma ^ 2)))).map some := by
    rw [List.map_map]; rfl
  unfold nanDot
  rw [e, mapM_some, Option.map_some, Option.map_some]
  congr 2
  unfold dot rowSum
  rw [List.zipWith_map, List.zipWith_self]
  congr 1
  refine List.map_congr_left fun p _ => ?_
  ring

/-- Sums of positive terms with factors. -/
theorem sum_between {pix : List ResoPixel} (h0 : ∀ p ∈ pix, 0 ≤ p.weight ∧ 0 < p.amp) {g : ResoPixel → ℝ} {lo hi : ℝ}
    (hg : ∀ p ∈ pix, lo ≤ g p ∧ g p ≤ hi) :
    lo * (pix.map (fun p => p.weight * p.amp)).sum ≤ (pix.map (fun p => p.weight * p.amp * g p)).sum ∧
    (pix.map (fun p => p.weight * p.amp * g p)).sum ≤ hi * (pix.map (fun p => p.weight * p.amp)).sum := by
  induction pix with
  | nil => simp
  | cons p l ih =>
    obtain ⟨i1, i2⟩ := ih (fun q hq => h0 q (List.mem_cons_of_mem _ hq)) (fun q hq => hg q (List.mem_cons_of_mem _ hq))
    obtain ⟨a, b⟩ := h0 p List.mem_cons_self
    obtain ⟨c, d⟩ := hg p List.mem_cons_self
    have ab : 0 ≤ p.weight * p.amp := mul_nonneg a b.le
    simp only [List.map_cons, List.sum_cons]
    constructor
    · nlinarith [mul_le_mul_of_nonneg_left c ab]
    · nlinarith [mul_le_mul_of_nonneg_left d ab]

theorem amp_sum_pos {pix : List ResoPixel} (h0 : ∀ p ∈ pix, 0 ≤ p.weight ∧ 0 < p.amp)
    (hw : 0 < (pix.map (fun p => p.weight)).sum) : 0 < (pix.map (fun p => p.weight * p.amp)).sum := by
  induction pix with
  | nil => simp at hw
  | cons p l ih =>
    have h0' : ∀ q ∈ l, 0 ≤ q.weight ∧ 0 < q.amp := fun q hq => h0 q (List.mem_cons_of_mem _ hq)
    obtain ⟨a, b⟩ := h0 p List.mem_cons_self
    simp only [List.map_cons, List.sum_cons] at hw ⊢
    rcases a.eq_or_lt with e | e
    · rw [← e] at hw ⊢
      simpa using ih h0' (by simpa using hw)
    · have : 0 ≤ (l.map (fun p => p.weight * p.amp)).sum := by
        refine List.sum_nonneg fun x hx => ?_
        obtain ⟨q, hq, rfl⟩ := List.mem_map.mp hx
        exact mul_nonneg (h0' q hq).1 (h0' q hq).2.le
      have := mul_pos e b
      linarith

/-- One of the four terms: between `√2 s1 / |o|` and `√2 s2 / |o|`. -/
theorem ratioTerm_between {A B T o s1 s2 : ℝ} (hA : 0 < A) (hT : 0 < T) (ho : 0 < o) (h1 : 0 < s1) (h12 : s1 ≤ s2)
    (hl : Real.exp (-o ^ 2 / (2 * s1 ^ 2)) * A ≤ B) (hu : B ≤ Real.exp (-o ^ 2 / (2 * s2 ^ 2)) * A) :
    ∃ v, ratioTerm Real.log Real.sqrt (some (A / T)) (some (B / T)) = some v ∧ Real.sqrt 2 * s1 ≤ o * v ∧
      o * v ≤ Real.sqrt 2 * s2 := by
  have h2 : 0 < s2 := h1.trans_le h12
  have hB : 0 < B := lt_of_lt_of_le (by positivity) hl
  have e : A / T / (B / T) = A / B := by field_simp
  have lo : o ^ 2 / (2 * s2 ^ 2) ≤ Real.log (A / B) := by
    rw [Real.le_log_iff_exp_le (by positivity), le_div_iff₀ hB]
    calc _ ≤ Real.exp (o ^ 2 / (2 * s2 ^ 2)) * (Real.exp (-o ^ 2 / (2 * s2 ^ 2)) * A) :=
          mul_le_mul_of_nonneg_left hu (Real.exp_pos _).le
      _ = A := by rw [← mul_assoc, ← Real.exp_add, neg_div, add_neg_cancel, Real.exp_zero, one_mul]
  have up : Real.log (A / B) ≤ o ^ 2 / (2 * s1 ^ 2) := by
    rw [Real.log_le_iff_le_exp (by positivity), div_le_iff₀ hB]
    calc A = Real.exp (o ^ 2 / (2 * s1 ^ 2)) * (Real.exp (-o ^ 2 / (2 * s1 ^ 2)) * A) := by
          rw [← mul_assoc, ← Real.exp_add, neg_div, add_neg_cancel, Real.exp_zero, one_mul]
      _ ≤ _ := mul_le_mul_of_nonneg_left hl (Real.exp_pos _).le
  have lp : 0 < Real.log (A / B) := lt_of_lt_of_le (by positivity) lo
  have key : ∀ s : ℝ, 0 < s → Real.sqrt (o ^ 2 / (2 * s ^ 2)) = o / (Real.sqrt 2 * s) := by
    intro s hs
    rw [Real.sqrt_div (by positivity), Real.sqrt_mul (by norm_num), Real.sqrt_sq ho.le, Real.sqrt_sq hs.le]
  have r2 : 0 < Real.sqrt 2 := by positivity
  have sp : 0 < Real.sqrt (Real.log (A / B)) := Real.sqrt_pos.mpr lp
  refine ⟨1 / Real.sqrt (Real.log (A / B)), ?_, ?_, ?_⟩
  · unfold ratioTerm
    dsimp only
    rw [if_neg (div_pos hB hT).ne', e, if_pos ⟨by positivity, lp⟩]
  · have := Real.sqrt_le_sqrt up
    rw [key s1 h1, le_div_iff₀ (by positivity)] at this
    rw [mul_one_div, le_div_iff₀ sp]
    linarith
  · have := Real.sqrt_le_sqrt lo
    rw [key s2 h2, div_le_iff₀ (by positivity)] at this
    rw [mul_one_div, div_le_iff₀ sp]
    linarith

/-- **C82.** If the columns of the resolution matrix are Gaussians of any amplitude with sigmas between `s1` and `s2` pixels,
centered in a row with two rows on both sides, the result exists, and is between `s1` and `s2` pixels in km/s at the mean
wavelength. -/
theorem C82_between {pix : List ResoPixel} {n c : Nat} (h2 : 2 ≤ c) (hn : c + 2 < n) {dwave s1 s2 : ℝ} (hd : 0 < dwave)
    (h0 : ∀ p ∈ pix, 0 < p.wave ∧ 0 ≤ p.weight ∧ 0 < p.amp) (hw : 0 < (pix.map (fun p => p.weight)).sum)
    (h1 : 0 < s1) (hs : ∀ p ∈ pix, s1 ≤ p.sigma ∧ p.sigma ≤ s2) :
    ∃ v, meanResolution Real.log Real.sqrt dwave ((List.range n).map (gaussRow c pix)) (pix.map (fun p => p.wave))
        (pix.map (fun p => p.weight)) = .ok (some v) ∧
      s1 * dwave / meanWave pix * 300000 ≤ v ∧ v ≤ s2 * dwave / meanWave pix * 300000 := by
  have h0' : ∀ p ∈ pix, 0 ≤ p.weight ∧ 0 < p.amp := fun p hp => (h0 p hp).2
  have h12 : s1 ≤ s2 := by
    rcases pix with _ | ⟨p, l⟩
    · simp at hw
    · exact (hs p List.mem_cons_self).1.trans (hs p List.mem_cons_self).2
  have hs2 : 0 < s2 := h1.trans_le h12
  set T := (pix.map (fun p => p.weight)).sum with hT
  set A := (pix.map (fun p => p.weight * p.amp)).sum with hA
  have Ap : 0 < A := amp_sum_pos h0' hw
  have rc : rowSum c pix c = A := by
    unfold rowSum
    rw [hA]
    congr 1
    refine List.map_congr_left fun p _ => ?_
    simp
  have bd : ∀ k : Nat, Real.exp (-((k : ℝ) - c) ^ 2 / (2 * s1 ^ 2)) * A ≤ rowSum c pix k ∧
      rowSum c pix k ≤ Real.exp (-((k : ℝ) - c) ^ 2 / (2 * s2 ^ 2)) * A := by
    intro k
    refine sum_between h0' fun p hp => ?_
    obtain ⟨a, b⟩ := hs p hp
    have sp : 0 < p.sigma := h1.trans_le a
    constructor <;> apply Real.exp_le_exp.mpr <;> rw [neg_div, neg_div, neg_le_neg_iff]
    · exact div_le_div_of_nonneg_left (sq_nonneg _) (by positivity) (by gcongr)
    · exact div_le_div_of_nonneg_left (sq_nonneg _) (by positivity) (by gcongr)
  have hmax : ∀ k, k ≠ c → rowSum c pix k / T < rowSum c pix c / T := by
    intro k hk
    rw [div_lt_div_iff_of_pos_right hw, rc]
    refine lt_of_le_of_lt (bd k).2 ?_
    have : Real.exp (-((k : ℝ) - c) ^ 2 / (2 * s2 ^ 2)) < 1 := by
      rw [Real.exp_lt_one_iff, neg_div, neg_lt_zero]
      have : (k : ℝ) - c ≠ 0 := by
        rw [sub_ne_zero]; exact_mod_cast hk
      positivity
    nlinarith
  unfold meanResolution
  rw [if_neg (by rw [List.map_eq_nil_iff, List.range_eq_nil]; omega)]
  dsimp only
  rw [meanRows_gauss c n pix hw.ne', nanArgmax_of (f := fun k => rowSum c pix k / T) (by omega) hmax]
  have hi : [-2, -1, 1, 2].mapM (fun o : Int => normIdx ((List.range n).map
      (fun k => some (rowSum c pix k / T))).length ((c : Int) + o)) = .ok [c - 2, c - 1, c + 1, c + 2] := by
    have e : ∀ (o : Int) (j : Nat), (c : Int) + o = j → j < n → normIdx ((List.range n).map
        (fun k => some (rowSum c pix k / T))).length ((c : Int) + o) = .ok j := by
      intro o j h hj
      unfold normIdx
      rw [h, if_pos (by omega), if_pos (by simpa using hj)]
      rfl
    simp only [List.mapM_cons, List.mapM_nil]
    rw [e (-2) (c - 2) (by omega) (by omega), e (-1) (c - 1) (by omega) (by omega), e 1 (c + 1) (by omega) (by omega),
      e 2 (c + 2) (by omega) (by omega)]
    rfl
  rw [hi]
  have gd : ∀ j, j < n → ((List.range n).map (fun k => some (rowSum c pix k / T))).getD j none = some (rowSum c pix j / T) := by
    intro j hj
    rw [List.getD_eq_getElem?_getD]
    simp [hj]
  have tm : ∀ (j : Nat) (o : ℝ), 0 < o → ((j : ℝ) - c) ^ 2 = o ^ 2 → ∃ v, ratioTerm Real.log Real.sqrt
      (some (rowSum c pix c / T)) (some (rowSum c pix j / T)) = some v ∧ Real.sqrt 2 * s1 ≤ o * v ∧
      o * v ≤ Real.sqrt 2 * s2 := by
    intro j o ho he
    have b := bd j
    rw [neg_div, neg_div, he, ← neg_div, ← neg_div] at b
    rw [rc]
    exact ratioTerm_between Ap hw ho h1 h12 b.1 b.2
  obtain ⟨v1, e1, l1, u1⟩ := tm (c - 2) 2 (by norm_num) (by rw [Nat.cast_sub h2]; push_cast; ring)
  obtain ⟨v2, e2, l2, u2⟩ := tm (c - 1) 1 (by norm_num) (by rw [Nat.cast_sub (by omega)]; push_cast; ring)
  obtain ⟨v3, e3, l3, u3⟩ := tm (c + 1) 1 (by norm_num) (by push_cast; ring)
  obtain ⟨v4, e4, l4, u4⟩ := tm (c + 2) 2 (by norm_num) (by push_cast; ring)
  have hmw : dot (pix.map (fun p => p.wave)) (pix.map (fun p => p.weight)) / T = meanWave pix := by
    unfold dot meanWave
    rw [List.zipWith_map, List.zipWith_self]
    congr 2
    refine List.map_congr_left fun p _ => mul_comm _ _
  have hm : 0 < meanWave pix := by
    unfold meanWave
    refine div_pos ?_ hw
    have := amp_sum_pos (pix := pix.map (fun p => { p with amp := p.wave }))
      (by
        intro p hp
        obtain ⟨q, hq, rfl⟩ := List.mem_map.mp hp
        exact ⟨(h0 q hq).2.1, (h0 q hq).1⟩)
      (by rw [List.map_map]; exact hw)
    rw [List.map_map] at this
    exact this
  simp only [Except.map, List.map_cons, List.map_nil]
  rw [gd c (by omega), gd _ (by omega), gd _ (by omega), gd _ (by omega), gd _ (by omega), e1, e2, e3, e4, hmw]
  have r2 : 0 < Real.sqrt 2 := by positivity
  have hv : resoResult Real.sqrt dwave (meanWave pix) [some v1, some v2, some v3, some v4] =
      some ((2 * v1 + (1 * v2 + (1 * v3 + 2 * v4))) / Real.sqrt 2 / 4 * 300000 * dwave / meanWave pix) := by
    simp [resoResult]
  rw [hv]
  refine ⟨_, rfl, ?_, ?_⟩
  · have : s1 ≤ (2 * v1 + (1 * v2 + (1 * v3 + 2 * v4))) / Real.sqrt 2 / 4 := by
      rw [le_div_iff₀ (by norm_num), le_div_iff₀ r2]
      linarith
    calc s1 * dwave / meanWave pix * 300000 = s1 * 300000 * dwave / meanWave pix := by ring
      _ ≤ _ := by gcongr
  · have : (2 * v1 + (1 * v2 + (1 * v3 + 2 * v4))) / Real.sqrt 2 / 4 ≤ s2 := by
      rw [div_le_iff₀ (by norm_num), div_le_iff₀ r2]
      linarith
    calc _ ≤ s2 * 300000 * dwave / meanWave pix := by gcongr
      _ = s2 * dwave / meanWave pix * 300000 := by ring

/-- **C82.** With one sigma for all pixels, the result is this sigma in km/s at the mean wavelength, whatever the weights
and amplitudes are. -/
theorem C82_gaussian {pix : List ResoPixel} {n c : Nat} (h2 : 2 ≤ c) (hn : c + 2 < n) {dwave sigma : ℝ} (hd : 0 < dwave)
    (h0 : ∀ p ∈ pix, 0 < p.wave ∧ 0 ≤ p.weight ∧ 0 < p.amp) (hw : 0 < (pix.map (fun p => p.weight)).sum)
    (h1 : 0 < sigma) (hs : ∀ p ∈ pix, p.sigma = sigma) :
    meanResolution Real.log Real.sqrt dwave ((List.range n).map (gaussRow c pix)) (pix.map (fun p => p.wave))
        (pix.map (fun p => p.weight)) = .ok (some (sigma * dwave / meanWave pix * 300000)) := by
  obtain ⟨v, e, a, b⟩ := C82_between h2 hn hd h0 hw h1 (fun p hp => ⟨(hs p hp).ge, (hs p hp).le⟩)
  rw [e, le_antisymm b a]

/-- One of the four terms for one sigma: the row next to the center is Gaussian, or negative. -/
theorem ratioTerm_wing {A B T o s : ℝ} (hA : 0 < A) (hT : 0 < T) (ho : 0 < o) (hs : 0 < s)
    (h : B = Real.exp (-o ^ 2 / (2 * s ^ 2)) * A ∨ B < 0) :
    (∃ v, ratioTerm Real.log Real.sqrt (some (A / T)) (some (B / T)) = some v ∧ o * v = Real.sqrt 2 * s ∧ 0 < B) ∨
    (ratioTerm Real.log Real.sqrt (some (A / T)) (some (B / T)) = none ∧ B < 0) := by
  rcases h with h | h
  · left
    obtain ⟨v, e, a, b⟩ := ratioTerm_between hA hT ho hs (le_refl s) h.ge h.le
    exact ⟨v, e, le_antisymm b a, by rw [h]; positivity⟩
  · right
    refine ⟨?_, h⟩
    unfold ratioTerm
    dsimp only
    have hb : B / T < 0 := div_neg_of_neg_of_pos h hT
    have hq : A / T / (B / T) < 0 := div_neg_of_pos_of_neg (by positivity) hb
    rw [if_neg hb.ne, if_neg (fun q => absurd q.1 (not_lt.mpr hq.le))]

/-- **C82.** Rows that are negative on average, as the wings of the matrix can be, are left out: if the mean of each of the two
rows on both sides of the largest one either falls like a Gaussian of `sigma` pixels or is negative, and not all four are
negative, the result is `sigma` pixels in km/s at the mean wavelength. `rows k` is row `k` of the matrix. -/
theorem C82_wings {rows : Nat → List ℝ} {n c : Nat} (h2 : 2 ≤ c) (hn : c + 2 < n) {dwave sigma : ℝ}
    {wave weight : List ℝ} (hw : 0 < weight.sum) (h1 : 0 < sigma) (hA : 0 < dot (rows c) weight)
    (hmax : ∀ k, k ≠ c → dot (rows k) weight < dot (rows c) weight)
    (hg : ∀ k, k + 2 = c ∨ k + 1 = c ∨ k = c + 1 ∨ k = c + 2 → dot (rows k) weight < 0 ∨
      dot (rows k) weight = Real.exp (-((k : ℝ) - c) ^ 2 / (2 * sigma ^ 2)) * dot (rows c) weight)
    (he : ∃ k, (k + 2 = c ∨ k + 1 = c ∨ k = c + 1 ∨ k = c + 2) ∧ 0 ≤ dot (rows k) weight) :
    meanResolution Real.log Real.sqrt dwave ((List.range n).map (fun k => (rows k).map some)) wave weight =
      .ok (some (sigma * dwave / (dot wave weight / weight.sum) * 300000)) := by
  set T := weight.sum with hT
  have hr : meanRows ((List.range n).map (fun k => (rows k).map some)) weight =
      (List.range n).map (fun k => some (dot (rows k) weight / T)) := by
    unfold meanRows
    rw [List.map_map]
    refine List.map_congr_left fun k _ => ?_
    rw [Function.comp_apply, if_neg hw.ne']
    unfold nanDot
    rw [mapM_some]
    rfl
  unfold meanResolution
  rw [if_neg (by rw [List.map_eq_nil_iff, List.range_eq_nil]; omega)]
  dsimp only
  rw [hr, nanArgmax_of (f := fun k => dot (rows k) weight / T) (by omega)
    (fun k hk => (div_lt_div_iff_of_pos_right hw).mpr (hmax k hk))]
  have hi : [-2, -1, 1, 2].mapM (fun o : Int => normIdx ((List.range n).map
      (fun k => some (dot (rows k) weight / T))).length ((c : Int) + o)) = .ok [c - 2, c - 1, c + 1, c + 2] := by
    have e : ∀ (o : Int) (j : Nat), (c : Int) + o = j → j < n → normIdx ((List.range n).map
        (fun k => some (dot (rows k) weight / T))).length ((c : Int) + o) = .ok j := by
      intro o j h hj
      unfold normIdx
      rw [h, if_pos (by omega), if_pos (by simpa using hj)]
      rfl
    simp only [List.mapM_cons, List.mapM_nil]
    rw [e (-2) (c - 2) (by omega) (by omega), e (-1) (c - 1) (by omega) (by omega), e 1 (c + 1) (by omega) (by omega),
      e 2 (c + 2) (by omega) (by omega)]
    rfl
  rw [hi]
  have gd : ∀ j, j < n → ((List.range n).map (fun k => some (dot (rows k) weight / T))).getD j none =
      some (dot (rows j) weight / T) := by
    intro j hj
    rw [List.getD_eq_getElem?_getD]
    simp [hj]
  have tm : ∀ (j : Nat) (o : ℝ), (j + 2 = c ∨ j + 1 = c ∨ j = c + 1 ∨ j = c + 2) → 0 < o → ((j : ℝ) - c) ^ 2 = o ^ 2 →
      (∃ v, ratioTerm Real.log Real.sqrt (some (dot (rows c) weight / T)) (some (dot (rows j) weight / T)) = some v ∧
        o * v = Real.sqrt 2 * sigma ∧ 0 < dot (rows j) weight) ∨
      (ratioTerm Real.log Real.sqrt (some (dot (rows c) weight / T)) (some (dot (rows j) weight / T)) = none ∧
        dot (rows j) weight < 0) := by
    intro j o hj ho heq
    refine ratioTerm_wing hA hw ho h1 ?_
    rcases hg j hj with q | q
    · exact Or.inr q
    · left
      rw [neg_div, heq, ← neg_div] at q
      exact q
  have t1 := tm (c - 2) 2 (by omega) (by norm_num) (by rw [Nat.cast_sub h2]; push_cast; ring)
  have t2 := tm (c - 1) 1 (by omega) (by norm_num) (by rw [Nat.cast_sub (by omega)]; push_cast; ring)
  have t3 := tm (c + 1) 1 (by omega) (by norm_num) (by push_cast; ring)
  have t4 := tm (c + 2) 2 (by omega) (by norm_num) (by push_cast; ring)
  have hne : ¬ (dot (rows (c - 2)) weight < 0 ∧ dot (rows (c - 1)) weight < 0 ∧ dot (rows (c + 1)) weight < 0 ∧
      dot (rows (c + 2)) weight < 0) := by
    rintro ⟨a, b, d, e⟩
    obtain ⟨k, hk, h0⟩ := he
    rcases hk with q | q | q | q
    · rw [show k = c - 2 by omega] at h0; linarith
    · rw [show k = c - 1 by omega] at h0; linarith
    · rw [q] at h0; linarith
    · rw [q] at h0; linarith
  simp only [Except.map, List.map_cons, List.map_nil]
  rw [gd c (by omega), gd _ (by omega), gd _ (by omega), gd _ (by omega), gd _ (by omega)]
  have r2 : Real.sqrt 2 ≠ 0 := by positivity
  generalize dot wave weight / T = L
  have fin : ∀ (N S : ℝ), N ≠ 0 → S = N * (Real.sqrt 2 * sigma) →
      S / Real.sqrt 2 / N * 300000 * dwave / L = sigma * dwave / L * 300000 := by
    intro N S hN hS
    rw [hS]
    field_simp
  rcases t1 with ⟨v1, e1, q1, -⟩ | ⟨e1, z1⟩ <;> rcases t2 with ⟨v2, e2, q2, -⟩ | ⟨e2, z2⟩ <;>
    rcases t3 with ⟨v3, e3, q3, -⟩ | ⟨e3, z3⟩ <;> rcases t4 with ⟨v4, e4, q4, -⟩ | ⟨e4, z4⟩ <;>
    rw [e1, e2, e3, e4] <;> unfold resoResult
  case inr.inr.inr.inr => exact absurd ⟨z1, z2, z3, z4⟩ hne
  all_goals
    rw [if_neg (by simp)]
    refine congrArg Except.ok (congrArg some (fin _ _ (by simp) ?_))
    simp only [List.zipWith_cons_cons, List.zipWith_nil_right, List.sum_cons, List.sum_nil,
      Option.getD_some, Option.getD_none, List.filterMap_cons, List.filterMap_nil, id, List.length_cons,
      List.length_nil]
    push_cast
    linarith

/-- One pixel of weight one whose Gaussian of one pixel has negative wings. -/
example : meanResolution Real.log Real.sqrt (8 / 10) ((List.range 5).map (fun k =>
    ((if k = 1 ∨ k = 3 then [Real.exp (-1 / 2)] else if k = 2 then [1] else [-1 / 10] : List ℝ)).map some)) [4000] [1] =
    .ok (some (1 * (8 / 10) / (dot [4000] [1] / ([1] : List ℝ).sum) * 300000)) := by
  have hlt : Real.exp (-1 / 2) < 1 := by rw [Real.exp_lt_one_iff]; norm_num
  refine C82_wings (rows := fun k => if k = 1 ∨ k = 3 then [Real.exp (-1 / 2)] else if k = 2 then [1] else [-1 / 10])
    (c := 2) (le_refl _) (by norm_num) (by simp) one_pos (by simp [dot]) ?_ ?_ ⟨1, by norm_num, ?_⟩
  · intro k hk
    by_cases h : k = 1 ∨ k = 3
    · simpa [dot, h] using hlt
    · simp [dot, h, hk]; norm_num
  · intro k hk
    have : k = 0 ∨ k = 1 ∨ k = 3 ∨ k = 4 := by omega
    rcases this with rfl | rfl | rfl | rfl
    · left; simp [dot]; norm_num
    · right; simp [dot]; norm_num
    · right; simp [dot]; norm_num
    · left; simp [dot]; norm_num
  · simp [dot]; positivity

theorem mapM_id_none {K : Type} {l : List (Option K)} (h : none ∈ l) : l.mapM id = none := by
  induction l with
  | nil => simp at h
  | cons a l ih =>
    cases a with
    | none => simp
    | some a => simp [ih (by simpa using h)]

/-- **C82.** If the matrix has a pixel that is NaN in all rows, which is what coadding arms gives in the gap between two
arms (C27), the result is NaN, although the weight of the pixel is zero. -/
theorem C82_gap_refuted {K : Type} [Field K] [LinearOrder K] (log sqrt : K → K) (dwave : K) {reso : List (List (Option K))}
    (h3 : 3 ≤ reso.length) (hg : ∀ row ∈ reso, none ∈ row) (wave weight : List K) :
    meanResolution log sqrt dwave reso wave weight = .ok none := by
  have hr : meanRows reso weight = List.replicate reso.length none := by
    unfold meanRows
    rw [List.eq_replicate_iff]
    refine ⟨by simp, fun b hb => ?_⟩
    obtain ⟨row, hrow, rfl⟩ := List.mem_map.mp hb
    split
    · rfl
    · unfold nanDot
      rw [mapM_id_none (hg row hrow)]
      rfl
  have hc : nanArgmax (List.replicate reso.length (none : Option K)) = 0 := by
    obtain ⟨m, hm⟩ : ∃ m, reso.length = m + 1 := ⟨reso.length - 1, by omega⟩
    rw [hm, List.replicate_succ]
    rfl
  unfold meanResolution
  rw [if_neg (by intro e; simp [e] at h3)]
  dsimp only
  rw [hr, hc]
  have hi : [-2, -1, 1, 2].mapM (fun o : Int => normIdx (List.replicate reso.length (none : Option K)).length
      (((0 : Nat) : Int) + o)) = .ok [reso.length - 2, reso.length - 1, 1, 2] := by
    simp only [List.mapM_cons, List.mapM_nil, List.length_replicate, normIdx]
    rw [if_neg (by omega), if_pos (by omega), if_neg (by omega), if_pos (by omega), if_pos (by omega), if_pos (by omega),
      if_pos (by omega), if_pos (by omega)]
    have a : (((0 : Nat) : Int) + -2 + (reso.length : Int)).toNat = reso.length - 2 := by omega
    have b : (((0 : Nat) : Int) + -1 + (reso.length : Int)).toNat = reso.length - 1 := by omega
    rw [a, b]
    rfl
  rw [hi]
  have hz : ∀ j, (List.replicate reso.length (none : Option K)).getD j none = none := by
    intro j
    rw [List.getD_eq_getElem?_getD, List.getElem?_replicate]
    split <;> rfl
  simp only [Except.map, List.map_cons, List.map_nil, hz, ratioTerm]
  rfl

/-- **C82.** With three rows the function raises `IndexError`, whatever the matrix is, if the largest row is not the first. -/
theorem C82_rows_refuted {K : Type} [Field K] [LinearOrder K] (log sqrt : K → K) (dwave : K) {reso : List (List (Option K))}
    (h3 : reso.length = 3) (wave weight : List K) (hc : nanArgmax (meanRows reso weight) ≠ 0) :
    meanResolution log sqrt dwave reso wave weight = .error .indexError := by
  unfold meanResolution
  rw [if_neg (by intro e; simp [e] at h3)]
  dsimp only
  have hl : (meanRows reso weight).length = 3 := by simp [meanRows, h3]
  rw [hl]
  generalize nanArgmax (meanRows reso weight) = c at *
  have hlast : normIdx 3 ((c : Int) + 2) = .error .indexError := by
    unfold normIdx
    rw [if_pos (by omega), if_neg (by omega)]
  have hall : ∀ o : Int, (∃ j, normIdx 3 ((c : Int) + o) = .ok j) ∨ normIdx 3 ((c : Int) + o) = .error .indexError := by
    intro o
    unfold normIdx
    split_ifs
    · exact .inl ⟨_, rfl⟩
    · exact .inr rfl
    · exact .inl ⟨_, rfl⟩
    · exact .inr rfl
  simp only [List.mapM_cons, List.mapM_nil]
  rw [hlast]
  rcases hall (-2) with ⟨a, ha⟩ | ha <;> rcases hall (-1) with ⟨b, hb⟩ | hb <;> rcases hall 1 with ⟨d, hd⟩ | hd <;>
    rw [ha, hb, hd] <;> rfl

/-- The hypotheses of `C82_between`: two pixels of different resolution, five rows. -/
example : ∃ pix : List ResoPixel, 2 ≤ pix.length ∧ (∀ p ∈ pix, 0 < p.wave ∧ 0 ≤ p.weight ∧ 0 < p.amp) ∧
    0 < (pix.map (fun p => p.weight)).sum ∧ (∀ p ∈ pix, (1 : ℝ) ≤ p.sigma ∧ p.sigma ≤ 2) :=
  ⟨[⟨4000, 1, 1 / 2, 1⟩, ⟨4001, 0, 1, 1⟩, ⟨4002, 2, 1 / 3, 2⟩], by simp, by
    intro p hp
    simp only [List.mem_cons, List.not_mem_nil, or_false] at hp
    rcases hp with rfl | rfl | rfl <;> norm_num, by norm_num, by
    intro p hp
    simp only [List.mem_cons, List.not_mem_nil, or_false] at hp
    rcases hp with rfl | rfl | rfl <;> norm_num⟩

/-- A matrix with three rows whose largest row is the middle one; a matrix with a gap. -/
example : nanArgmax (meanRows [[some 1, some (1 : ℚ)], [some 2, some 2], [some 1, some 1]] [1, 1]) = 1 ∧
    (∀ row ∈ [[some 1, none], [some 2, none], [some (1 : ℚ), none]], none ∈ row) := by
  decide +kernel

end Verif.Props
