import Verif.Proofs.NatSpline
import Verif.Props.Interp
import Mathlib.Analysis.SpecialFunctions.Log.Basic
import Mathlib.Data.Rat.Floor
import Mathlib.Data.List.GetD

/-!
# The update of the mean continuum (C78), its convergence (C79)
-/

namespace Verif.Props
open Verif.Np Verif.Model Verif.Spec Verif.Proofs

section
variable {K : Type} [Field K]

theorem legArr_length (x : List K) (ci : Nat) : (legArr x ci).length = x.length := by simp [legArr]

theorem projectStep_length {x m : List K} (h : m.length = x.length) (ci : Nat) :
    (projectStep x m ci).length = x.length := by
  unfold projectStep
  simp [legArr_length, h]

theorem project_succ (x m : List K) (n : Nat) : project x (n + 1) m = projectStep x (project x n m) (n + 1) := by
  unfold project
  rw [List.range_succ, List.map_append, List.foldl_append]
  rfl

theorem project_length {x m : List K} (h : m.length = x.length) (n : Nat) : (project x n m).length = x.length := by
  induction n with
  | zero => exact h
  | succ n ih => rw [project_succ]; exact projectStep_length ih _

theorem zipWith_sub_mul {m l r : List K} (B : K) (h : m.length = l.length) :
    List.zipWith (· * ·) (List.zipWith (fun a l => a - B * l) m l) r =
      List.zipWith (fun a l => a - B * l) (List.zipWith (· * ·) m r) (List.zipWith (· * ·) l r) := by
  induction m generalizing l r with
  | nil => simp
  | cons a m ih =>
    cases l with
    | nil => simp at h
    | cons b l =>
      cases r with
      | nil => simp
      | cons c r =>
        simp only [List.zipWith_cons_cons]
        rw [ih (by simpa using h)]
        congr 1
        ring

/-- The component of a polynomial after one step. -/
theorem projectStep_coef {x m : List K} (h : m.length = x.length) (ci j : Nat) :
    splIntegral x (List.zipWith (· * ·) (projectStep x m ci) (legArr x j)) =
      splIntegral x (List.zipWith (· * ·) m (legArr x j)) -
      (2 * (ci : K) + 1) * splIntegral x (List.zipWith (· * ·) m (legArr x ci)) *
        splIntegral x (List.zipWith (· * ·) (legArr x ci) (legArr x j)) := by
  unfold projectStep
  dsimp only
  rw [zipWith_sub_mul _ (by rw [h, legArr_length]), splIntegral_sub_mul (by simp [legArr_length, h])]

/-- What is left of the polynomial `j` after the projections: the products of the removed parts with the errors of the
integrals of the products of polynomials. -/
theorem project_coef {x m : List K} (h : m.length = x.length) {j : Nat} (hj : 0 < j) (h2 : (2 * (j : K) + 1) ≠ 0) (k : Nat) :
    splIntegral x (List.zipWith (· * ·) (project x (j + k) m) (legArr x j)) =
      -((List.range (k + 1)).map (fun i : Nat => (2 * ((j + i : Nat) : K) + 1) *
        splIntegral x (List.zipWith (· * ·) (project x (j + i - 1) m) (legArr x (j + i))) *
        (splIntegral x (List.zipWith (· * ·) (legArr x (j + i)) (legArr x j)) -
          if i = 0 then 1 / (2 * (j : K) + 1) else 0))).sum := by
  induction k with
  | zero =>
    obtain ⟨j, rfl⟩ : ∃ i, j = i + 1 := ⟨j - 1, by omega⟩
    rw [Nat.add_zero, project_succ, projectStep_coef (project_length h _)]
    simp only [Nat.zero_add, List.range_one, List.map_cons, List.map_nil, List.sum_cons, List.sum_nil, Nat.add_zero,
      Nat.add_sub_cancel, if_true, add_zero]
    field_simp
    ring
  | succ k ih =>
    rw [← Nat.add_assoc, project_succ, projectStep_coef (project_length h _), ih, List.range_succ (n := k + 1),
      List.map_append, List.sum_append]
    simp only [List.map_cons, List.map_nil, List.sum_cons, List.sum_nil, add_zero, if_neg (Nat.succ_ne_zero k), sub_zero]
    rw [show j + (k + 1) - 1 = j + k by omega, show j + (k + 1) = j + k + 1 from rfl]
    ring

end

/-! ### The grid -/

theorem contGrid_length (log : ℝ → ℝ) (w : List ℝ) : (contGrid log w).length = w.length := by simp [contGrid]

/-- Positive and increasing wavelengths. -/
def RisingWaves (w : List ℝ) : Prop := 2 ≤ w.length ∧ (∀ x ∈ w, 0 < x) ∧ w.Pairwise (· < ·)

theorem contGrid_get {w : List ℝ} {i : Nat} (hi : i < w.length) :
    (contGrid Real.log w)[i]'(by rw [contGrid_length]; exact hi) =
      Real.log (w[i] / w.getD 0 0) / Real.log (w.getD (w.length - 1) 0 / w.getD 0 0) := by
  unfold contGrid
  simp

theorem rising_lt {w : List ℝ} (h : RisingWaves w) {i j : Nat} (hij : i < j) (hj : j < w.length) :
    w[i]'(by omega) < w[j] := List.pairwise_iff_getElem.mp h.2.2 i j (by omega) hj hij

theorem rising_denom {w : List ℝ} (h : RisingWaves w) : 0 < Real.log (w.getD (w.length - 1) 0 / w.getD 0 0) := by
  have h2 := h.1
  have e0 : w.getD 0 0 = w[0]'(by omega) := by simp [List.getD_eq_getElem?_getD, show 0 < w.length by omega]
  have e1 : w.getD (w.length - 1) 0 = w[w.length - 1]'(by omega) := by
    simp [List.getD_eq_getElem?_getD, show w.length - 1 < w.length by omega]
  rw [e0, e1]
  have p0 : (0 : ℝ) < w[0]'(by omega) := h.2.1 _ (List.getElem_mem _)
  refine Real.log_pos ?_
  rw [lt_div_iff₀ p0, one_mul]
  exact rising_lt h (by omega) _

theorem contGrid_step {w : List ℝ} (h : RisingWaves w) (i : Nat) (hi : i + 1 < (contGrid Real.log w).length) :
    0 < (contGrid Real.log w)[i + 1] - (contGrid Real.log w)[i] := by
  have hi' : i + 1 < w.length := by rw [contGrid_length] at hi; exact hi
  rw [contGrid_get hi', contGrid_get (show i < w.length by omega), ← sub_div]
  refine div_pos ?_ (rising_denom h)
  have e0 : w.getD 0 0 = w[0]'(by omega) := by simp [List.getD_eq_getElem?_getD, show 0 < w.length by omega]
  have p0 : 0 < w.getD 0 0 := by rw [e0]; exact h.2.1 _ (List.getElem_mem _)
  have p1 : 0 < w[i]'(by omega) := h.2.1 _ (List.getElem_mem _)
  rw [sub_pos]
  exact Real.log_lt_log (div_pos p1 p0) (div_lt_div_of_pos_right (rising_lt h (by omega) hi') p0)

theorem contGrid_ends {w : List ℝ} (h : RisingWaves w) :
    (contGrid Real.log w).getD 0 0 = 0 ∧ (contGrid Real.log w).getD (w.length - 1) 0 = 1 := by
  have h2 := h.1
  have e0 : w.getD 0 0 = w[0]'(by omega) := by simp [List.getD_eq_getElem?_getD, show 0 < w.length by omega]
  have p0 : 0 < w.getD 0 0 := by rw [e0]; exact h.2.1 _ (List.getElem_mem _)
  have hd := rising_denom h
  constructor
  · rw [List.getD_eq_getElem _ _ (by rw [contGrid_length]; omega), contGrid_get (by omega), ← e0, div_self p0.ne',
      Real.log_one, zero_div]
  · rw [List.getD_eq_getElem _ _ (by rw [contGrid_length]; omega), contGrid_get (by omega),
      ← List.getD_eq_getElem w 0 (show w.length - 1 < w.length by omega), div_self hd.ne']

theorem slope_bound {x m : List ℝ} (hl : m.length = x.length) (h2 : 2 ≤ x.length)
    (hst : ∀ i (h : i + 1 < x.length), 0 < x[i + 1] - x[i]) (x0 : x.getD 0 0 = 0) (x1 : x.getD (x.length - 1) 0 = 1)
    {d : ℝ} (hd : ∀ i (h : i + 1 < x.length), x[i + 1] - x[i] ≤ d) :
    |splIntegral x (List.zipWith (fun c t => c * (2 * t - 1)) (projectNormalize x 1 m).1 x)| *
      |(projectNormalize x 1 m).2| ≤
      2 * d ^ 2 * |splIntegral x (List.zipWith (fun c t => c * (2 * t - 1)) m x)| := by
  unfold projectNormalize
  dsimp only
  have leg : ∀ l : List ℝ, List.zipWith (fun c t => c * (2 * t - 1)) l x = List.zipWith (· * ·) l (legArr x 1) := by
    intro l
    unfold legArr
    rw [List.zipWith_map_right]
    rfl
  rw [leg, leg]
  generalize hM : splIntegral x (project x 1 m) = M
  have e1 : List.zipWith (· * ·) ((project x 1 m).map (· / M)) (legArr x 1) =
      (List.zipWith (· * ·) (project x 1 m) (legArr x 1)).map (· / M) := by
    rw [List.zipWith_map_left, List.map_zipWith]
    congr 1
    funext a b
    ring
  rw [e1, splIntegral_div]
  have e2 := project_coef hl (j := 1) one_pos (by norm_num) 0
  have e2' : splIntegral x (List.zipWith (· * ·) (project x 1 m) (legArr x 1)) =
      -(3 * splIntegral x (List.zipWith (· * ·) m (legArr x 1)) *
        (splIntegral x (List.zipWith (· * ·) (legArr x 1) (legArr x 1)) - 1 / 3)) := by
    rw [show (project x 1 m) = project x (1 + 0) m from rfl, e2]
    simp [project]
    norm_num
  have hb : |splIntegral x (List.zipWith (· * ·) (legArr x 1) (legArr x 1)) - 1 / 3| ≤ 2 / 3 * d ^ 2 := by
    have := splInt_tilt_sq (x := fun i => x.getD i 0) (last := x.length - 1) (by omega)
      (by intro i hi; rw [splStep_getD (by omega)]; exact hst i (by omega)) x0 x1 (d := d)
      (by intro i hi; rw [splStep_getD (by omega)]; exact hd i (by omega))
    have hc : splIntegral x (List.zipWith (· * ·) (legArr x 1) (legArr x 1)) =
        splInt (fun i => x.getD i 0) (fun i => (2 * x.getD i 0 - 1) * (2 * x.getD i 0 - 1)) (x.length - 1) := by
      unfold splIntegral
      refine splInt_congr fun i hi => ?_
      have hi' : i < x.length := by omega
      simp [legArr, legendre, List.getD_eq_getElem?_getD, hi']
    rw [hc]
    exact this
  rw [e2']
  generalize splIntegral x (List.zipWith (· * ·) m (legArr x 1)) = T
  generalize splIntegral x (List.zipWith (· * ·) (legArr x 1) (legArr x 1)) - 1 / 3 = E at hb
  rw [abs_div, abs_neg, abs_mul, abs_mul, abs_of_pos (by norm_num : (0 : ℝ) < 3)]
  rcases eq_or_ne M 0 with h0 | h0
  · rw [h0, abs_zero, mul_zero]; positivity
  · rw [div_mul_cancel₀ _ (abs_ne_zero.mpr h0)]
    nlinarith [abs_nonneg T, mul_le_mul_of_nonneg_left hb (abs_nonneg T)]

/-! ### C78 -/

section
variable (smooth : List ℝ → List ℝ → List ℝ) (order : Nat) (residual : Bool) {rfwave old flux std : List ℝ}

theorem raw_length (hs : ∀ f w, (smooth f w).length = f.length) {n : Nat} (ho : old.length = n) (hf : flux.length = n)
    (he : std.length = n) : (rawMeancont smooth residual old flux std).length = n := by
  unfold rawMeancont
  dsimp only
  split <;> simp [hs, fillFlux, ho, hf, he]

/-- **C78.** The new mean continuum is normalised: the integral over `ln` of the wavelength, in units of the range, of
the natural cubic spline through its values is one. -/
theorem C78_unit_mean (hw : RisingWaves rfwave)
    (hm : (projectNormalize (contGrid Real.log rfwave) order (rawMeancont smooth residual old flux std)).2 ≠ 0)
    {p : Nat → Cubic}
    (hp : IsNatSpline (contGrid Real.log rfwave)
      (meanUpdate smooth (contGrid Real.log rfwave) order residual old flux std).fp p) :
    splineArea (contGrid Real.log rfwave) p = 1 := by
  rw [splineArea_eq hp (by rw [contGrid_length]; exact hw.1) (contGrid_step hw)]
  unfold meanUpdate projectNormalize at *
  dsimp only at *
  rw [splIntegral_div, div_self hm]

/-- **C78.** With the default order one, what is left of the slope in the new mean continuum is at most the slope of the
estimate before the projection times twice the square of the largest step of the grid. -/
theorem C78_slope_partial (hw : RisingWaves rfwave) (hs : ∀ f w, (smooth f w).length = f.length)
    (ho : old.length = rfwave.length) (hf : flux.length = rfwave.length) (he : std.length = rfwave.length)
    {d : ℝ} (hd : ∀ i (h : i + 1 < (contGrid Real.log rfwave).length),
      (contGrid Real.log rfwave)[i + 1] - (contGrid Real.log rfwave)[i] ≤ d)
    {p q : Nat → Cubic}
    (hp : IsNatSpline (contGrid Real.log rfwave) (List.zipWith (fun c t => c * (2 * t - 1))
      (meanUpdate smooth (contGrid Real.log rfwave) 1 residual old flux std).fp (contGrid Real.log rfwave)) p)
    (hq : IsNatSpline (contGrid Real.log rfwave) (List.zipWith (fun c t => c * (2 * t - 1))
      (rawMeancont smooth residual old flux std) (contGrid Real.log rfwave)) q) :
    |splineArea (contGrid Real.log rfwave) p| *
      |(projectNormalize (contGrid Real.log rfwave) 1 (rawMeancont smooth residual old flux std)).2| ≤
      2 * d ^ 2 * |splineArea (contGrid Real.log rfwave) q| := by
  have h2 : 2 ≤ (contGrid Real.log rfwave).length := by rw [contGrid_length]; exact hw.1
  rw [splineArea_eq hp h2 (contGrid_step hw), splineArea_eq hq h2 (contGrid_step hw)]
  have hl : (rawMeancont smooth residual old flux std).length = (contGrid Real.log rfwave).length := by
    rw [contGrid_length]; exact raw_length smooth residual hs ho hf he
  obtain ⟨x0, x1⟩ := contGrid_ends hw
  rw [← contGrid_length Real.log rfwave] at x1
  exact slope_bound hl h2 (contGrid_step hw) x0 x1 hd

/-- **C78.** For any order: what is left of the Legendre polynomial `j` is at most the sum of the removed parts times the
error of the integrals of products of the polynomials. -/
theorem orders_bound (hw : RisingWaves rfwave) (hs : ∀ f w, (smooth f w).length = f.length)
    (ho : old.length = rfwave.length) (hf : flux.length = rfwave.length) (he : std.length = rfwave.length)
    {j : Nat} (hj : 0 < j) (hjo : j ≤ order) {e : ℝ}
    (hq : ∀ a b, 0 < a → a ≤ order → 0 < b → b ≤ order →
      |splIntegral (contGrid Real.log rfwave) (List.zipWith (· * ·) (legArr (contGrid Real.log rfwave) a)
        (legArr (contGrid Real.log rfwave) b)) - if a = b then 1 / (2 * (a : ℝ) + 1) else 0| ≤ e) :
    |splIntegral (contGrid Real.log rfwave) (List.zipWith (· * ·)
        (meanUpdate smooth (contGrid Real.log rfwave) order residual old flux std).fp
        (legArr (contGrid Real.log rfwave) j))| *
      |(projectNormalize (contGrid Real.log rfwave) order (rawMeancont smooth residual old flux std)).2| ≤
      e * ((List.range (order - j + 1)).map (fun i : Nat => (2 * ((j + i : Nat) : ℝ) + 1) *
        |splIntegral (contGrid Real.log rfwave) (List.zipWith (· * ·)
          (project (contGrid Real.log rfwave) (j + i - 1) (rawMeancont smooth residual old flux std))
          (legArr (contGrid Real.log rfwave) (j + i)))|)).sum := by
  have hl : (rawMeancont smooth residual old flux std).length = (contGrid Real.log rfwave).length := by
    rw [contGrid_length]; exact raw_length smooth residual hs ho hf he
  unfold meanUpdate projectNormalize
  dsimp only
  generalize rawMeancont smooth residual old flux std = m at *
  generalize contGrid Real.log rfwave = x at *
  generalize hM : splIntegral x (project x order m) = M
  have e1 : List.zipWith (· * ·) ((project x order m).map (· / M)) (legArr x j) =
      (List.zipWith (· * ·) (project x order m) (legArr x j)).map (· / M) := by
    rw [List.zipWith_map_left, List.map_zipWith]
    congr 1
    funext a b
    ring
  rw [e1, splIntegral_div]
  have e2 := project_coef hl hj (by positivity) (order - j)
  rw [show j + (order - j) = order by omega] at e2
  have hb : |splIntegral x (List.zipWith (· * ·) (project x order m) (legArr x j))| ≤
      e * ((List.range (order - j + 1)).map (fun i : Nat => (2 * ((j + i : Nat) : ℝ) + 1) *
        |splIntegral x (List.zipWith (· * ·) (project x (j + i - 1) m) (legArr x (j + i)))|)).sum := by
    rw [e2, abs_neg, ← List.sum_map_mul_left]
    refine abs_sum_range_le fun i hi => ?_
    have h := hq (j + i) j (by omega) (by omega) hj hjo
    have : (if i = 0 then 1 / (2 * (j : ℝ) + 1) else 0) = if j + i = j then 1 / (2 * ((j + i : Nat) : ℝ) + 1) else 0 := by
      rcases Nat.eq_zero_or_pos i with rfl | hp
      · simp
      · rw [if_neg (by omega), if_neg (by omega)]
    rw [this, abs_mul, abs_mul, abs_of_pos (by positivity : (0 : ℝ) < 2 * ((j + i : Nat) : ℝ) + 1)]
    rw [mul_comm e]
    exact mul_le_mul_of_nonneg_left h (by positivity)
  rcases eq_or_ne M 0 with h0 | h0
  · rw [h0, abs_zero, mul_zero]
    exact (abs_nonneg _).trans hb
  · rw [abs_div, div_mul_cancel₀ _ (abs_ne_zero.mpr h0)]
    exact hb

end

theorem contGrid_124 : contGrid Real.log [1, 2, 4] = [0, 1 / 2, 1] := by
  have h4 : Real.log 4 = 2 * Real.log 2 := by
    rw [show (4 : ℝ) = 2 ^ 2 by norm_num, Real.log_pow]; norm_num
  have h2 : Real.log 2 ≠ 0 := (Real.log_pos (by norm_num)).ne'
  simp [contGrid, h4]
  field_simp
  norm_num

/-- **C78.** The slope is not removed exactly: with three bins, the estimate `1, 2, 3` becomes `17/16, 1, 15/16`, and the
integral of the product with the Legendre polynomial of order one is not zero. -/
theorem C78_slope_refuted :
    RisingWaves [1, 2, 4] ∧
    (meanUpdate (fun f _ => f) (contGrid Real.log [1, 2, 4]) 1 false [1, 1, 1] [1, 2, 3] [1, 1, 1]).fp =
      [17 / 16, 1, 15 / 16] ∧
    ∀ p, IsNatSpline (contGrid Real.log [1, 2, 4]) (List.zipWith (fun c t => c * (2 * t - 1)) [17 / 16, 1, 15 / 16]
      (contGrid Real.log [1, 2, 4])) p → splineArea (contGrid Real.log [1, 2, 4]) p = -3 / 128 := by
  have hw : RisingWaves [1, 2, 4] := by
    refine ⟨by simp, ?_, ?_⟩
    · simp
    · simp; norm_num
  refine ⟨hw, ?_, ?_⟩
  · rw [contGrid_124]
    simp [meanUpdate, projectNormalize, project, projectStep, legArr, legendre, splIntegral, splInt, splPiece, splM,
      splBack, splD, splC, splRhs, splStep, rawMeancont, fillFlux, meanWhere, List.range_succ]
    norm_num
  · intro p hp
    rw [splineArea_eq hp (by rw [contGrid_length]; simp) (contGrid_step hw), contGrid_124]
    simp [splIntegral, splInt, splPiece, splM, splBack, splD, splC, splRhs, splStep, List.range_succ]
    norm_num


/-- The hypotheses of `C78_unit_mean` and `C78_slope_partial` hold for three bins, with steps of one half. -/
example : (projectNormalize (contGrid Real.log [1, 2, 4]) 1 (rawMeancont (fun f _ => f) false [1, 1, 1] [1, 2, 3]
    [1, 1, 1])).2 = 2 ∧ (∀ f w : List ℝ, ((fun f _ => f) f w : List ℝ).length = f.length) ∧
    (∀ i (h : i + 1 < (contGrid Real.log [1, 2, 4]).length),
      (contGrid Real.log [1, 2, 4])[i + 1] - (contGrid Real.log [1, 2, 4])[i] ≤ 1 / 2) ∧
    ∀ y, ∃ p, IsNatSpline (contGrid Real.log [1, 2, 4]) y p := by
  refine ⟨?_, fun _ _ => rfl, ?_, fun y => ⟨_, natSpline_exists y ?_ (contGrid_step C78_slope_refuted.1)⟩⟩
  · rw [contGrid_124]
    simp [projectNormalize, project, projectStep, legArr, legendre, splIntegral, splInt, splPiece, splM,
      splBack, splD, splC, splRhs, splStep, rawMeancont, fillFlux, meanWhere, List.range_succ]
    norm_num
  · simp only [contGrid_124]
    intro i hi
    match i, hi with
    | 0, _ => norm_num
    | 1, _ => norm_num
  · rw [contGrid_length]; simp

/-! ### C79 -/

section
variable {K : Type} [Field K] [LinearOrder K] [IsStrictOrderedRing K]
  (smooth : List K → List K → List K) (x : List K) (order : Nat) (residual : Bool) {old flux std : List K}

theorem mem_zip_sum_le (f : K → K → K) (hf : ∀ a b, 0 ≤ f a b) {u v : List K} {i : Nat} {a b : K}
    (ha : u[i]? = some a) (hb : v[i]? = some b) : f a b ≤ (List.zipWith f u v).sum := by
  have hm : f a b ∈ List.zipWith f u v := by
    apply List.mem_of_getElem? (i := i)
    rw [List.getElem?_zipWith, ha, hb]
  refine List.single_le_sum ?_ _ hm
  intro c hc
  obtain ⟨i, hi, rfl⟩ := List.getElem_of_mem hc
  rw [List.getElem_zipWith]
  exact hf _ _

/-- **C79.** If the fit is said to have converged, the square of every update, in units of the square of its error, is
below `0.33²` or below the number of bins over 1000. -/
theorem C79_bound (hc : (meanUpdate smooth x order residual old flux std).converged = true) {i : Nat} {n o e : K}
    (hn : (meanUpdate smooth x order residual old flux std).fp[i]? = some n) (ho : old[i]? = some o)
    (he : (meanUpdate smooth x order residual old flux std).ep[i]? = some e) (hp : 0 < e) :
    (n / o - 1) ^ 2 < max ((33 / 100) ^ 2) ((old.length : K) / 1000) * e ^ 2 := by
  have hu : (contUpdates old (meanUpdate smooth x order residual old flux std).fp)[i]? = some (n / o - 1) := by
    unfold contUpdates
    rw [List.getElem?_zipWith, hn, ho]
  have hl : 0 < old.length := by
    have := (List.getElem?_eq_some_iff.mp ho).1
    omega
  change hasConverged old.length (contUpdates old (meanUpdate smooth x order residual old flux std).fp)
    (meanUpdate smooth x order residual old flux std).ep = true at hc
  generalize contUpdates old (meanUpdate smooth x order residual old flux std).fp = u at *
  generalize (meanUpdate smooth x order residual old flux std).ep = v at *
  unfold hasConverged at hc
  rw [Bool.or_eq_true, decide_eq_true_eq] at hc
  have hp2 : 0 < e ^ 2 := by positivity
  rcases hc with hc | hc
  · have h1 : ((n / o - 1) / e) ^ 2 ≤ (List.zipWith (fun n e => (n / e) ^ 2) u v).sum :=
      mem_zip_sum_le (fun n e => (n / e) ^ 2) (fun a b => sq_nonneg _) hu he
    unfold chi2Change at hc
    have hl' : (0 : K) < (old.length : K) := by exact_mod_cast hl
    rw [div_lt_iff₀ hl'] at hc
    have h2 : ((n / o - 1) / e) ^ 2 < (old.length : K) / 1000 := by linarith
    rw [div_pow, div_lt_iff₀ hp2] at h2
    exact lt_of_lt_of_le h2 (mul_le_mul_of_nonneg_right (le_max_right _ _) hp2.le)
  · unfold allPtTest at hc
    rw [List.all_eq_true] at hc
    have hm : decide (|n / o - 1| < 33 / 100 * e) ∈ List.zipWith (fun n e => decide (|n| < 33 / 100 * e)) u v := by
      apply List.mem_of_getElem? (i := i)
      rw [List.getElem?_zipWith, hu, he]
    have h1 : |n / o - 1| < 33 / 100 * e := by simpa using hc _ hm
    have h2 : (n / o - 1) ^ 2 < (33 / 100 * e) ^ 2 := by
      rw [← sq_abs (n / o - 1)]
      exact pow_lt_pow_left₀ h1 (abs_nonneg _) two_ne_zero
    rw [mul_pow] at h2
    exact lt_of_lt_of_le h2 (mul_le_mul_of_nonneg_right (le_max_left _ _) hp2.le)

/-- **C79.** With at most 108 bins, convergence means what is documented: every update is below 0.33 times its error. -/
theorem C79_points_partial (hb : old.length ≤ 108)
    (hc : (meanUpdate smooth x order residual old flux std).converged = true) {i : Nat} {n o e : K}
    (hn : (meanUpdate smooth x order residual old flux std).fp[i]? = some n) (ho : old[i]? = some o)
    (he : (meanUpdate smooth x order residual old flux std).ep[i]? = some e) (hp : 0 < e) :
    |n / o - 1| < 33 / 100 * e := by
  have h := C79_bound smooth x order residual hc hn ho he hp
  have hl : (old.length : K) / 1000 ≤ (33 / 100) ^ 2 := by
    have : (old.length : K) ≤ 108 := by exact_mod_cast hb
    norm_num
    linarith
  rw [max_eq_left hl, ← mul_pow, ← sq_abs (n / o - 1)] at h
  exact lt_of_pow_lt_pow_left₀ 2 (by positivity) h

/-- **C79.** Conversely, the fit has converged when every update is below 0.33 times its error. -/
theorem C79_complete (h : ∀ (i : Nat) (n o e : K), (meanUpdate smooth x order residual old flux std).fp[i]? = some n →
      old[i]? = some o → (meanUpdate smooth x order residual old flux std).ep[i]? = some e → |n / o - 1| < 33 / 100 * e) :
    (meanUpdate smooth x order residual old flux std).converged = true := by
  change hasConverged old.length (contUpdates old (meanUpdate smooth x order residual old flux std).fp)
    (meanUpdate smooth x order residual old flux std).ep = true
  unfold hasConverged
  rw [Bool.or_eq_true]
  right
  unfold allPtTest
  rw [List.all_eq_true]
  intro b hb
  obtain ⟨i, hi, rfl⟩ := List.getElem_of_mem hb
  rw [List.length_zipWith, lt_min_iff] at hi
  rw [List.getElem_zipWith]
  have h1 := hi.1
  unfold contUpdates at h1
  rw [List.length_zipWith, lt_min_iff] at h1
  simp only [id, decide_eq_true_eq]
  unfold contUpdates
  rw [List.getElem_zipWith]
  exact h i _ _ _ (List.getElem?_eq_getElem h1.1) (List.getElem?_eq_getElem h1.2) (List.getElem?_eq_getElem hi.2)

omit [IsStrictOrderedRing K] in
theorem converged_eq : (meanUpdate smooth x order residual old flux std).converged = hasConverged old.length
    (contUpdates old (meanUpdate smooth x order residual old flux std).fp)
    (meanUpdate smooth x order residual old flux std).ep := rfl

theorem splIntegral_ones {x : List K} {n : Nat} (hn : x.length = n + 1) (h0 : x.getD 0 0 = 0) (h1 : x.getD n 0 = 1) :
    splIntegral x (List.replicate (n + 1) 1) = 1 := by
  unfold splIntegral
  rw [splInt_congr (y' := fun _ => 1), splInt_const]
  · rw [hn, Nat.add_sub_cancel, h0, h1]; ring
  · intro i hi
    have : i < n + 1 := by omega
    simp [List.getD_eq_getElem?_getD, this]

/-- **C79.** With 109 bins or more (the default is 162), the fit can be said to have converged although an update is not
below 0.33 times its error. -/
theorem C79_points_refuted {n : Nat} (hb : 109 ≤ n + 1) {x : List K} (hn : x.length = n + 1) (h0 : x.getD 0 0 = 0)
    (h1 : x.getD n 0 = 1) :
    ∃ old flux std : List K, old.length = n + 1 ∧ flux.length = n + 1 ∧ std.length = n + 1 ∧ (∀ o ∈ old, 0 < o) ∧
      (∀ e ∈ std, 0 < e) ∧ (meanUpdate (fun f _ => f) x 0 false old flux std).converged = true ∧
      ∃ a o e, (meanUpdate (fun f _ => f) x 0 false old flux std).fp[0]? = some a ∧ old[0]? = some o ∧
        (meanUpdate (fun f _ => f) x 0 false old flux std).ep[0]? = some e ∧ 0 < e ∧ ¬ |a / o - 1| < 33 / 100 * e := by
  have hraw : ∀ old : List K, rawMeancont (fun f _ => f) false old (List.replicate (n + 1) 1) (List.replicate (n + 1) 1) =
      List.replicate (n + 1) 1 := by
    intro old
    unfold rawMeancont fillFlux
    simp
  have hpn : ∀ old : List K, projectNormalize x 0 (rawMeancont (fun f _ => f) false old (List.replicate (n + 1) 1)
      (List.replicate (n + 1) 1)) = (List.replicate (n + 1) 1, 1) := by
    intro old
    rw [hraw]
    unfold projectNormalize project
    simp only [List.range_zero, List.map_nil, List.foldl_nil]
    rw [splIntegral_ones hn h0 h1]
    simp
  have hfp : ∀ old : List K, (meanUpdate (fun f _ => f) x 0 false old (List.replicate (n + 1) 1)
      (List.replicate (n + 1) 1)).fp = List.replicate (n + 1) 1 := by
    intro old
    unfold meanUpdate
    rw [hpn]
  have hep : ∀ old : List K, (meanUpdate (fun f _ => f) x 0 false old (List.replicate (n + 1) 1)
      (List.replicate (n + 1) 1)).ep = List.replicate (n + 1) 1 := by
    intro old
    unfold meanUpdate
    rw [hpn]
    simp [fillStd]
  refine ⟨100 / 133 :: List.replicate n 1, List.replicate (n + 1) 1, List.replicate (n + 1) 1, by simp, by simp, by simp,
    ?_, ?_, ?_, 1, 100 / 133, 1, ?_, rfl, ?_, one_pos, ?_⟩
  · intro o ho
    rcases List.mem_cons.mp ho with rfl | ho
    · norm_num
    · rw [List.eq_of_mem_replicate ho]; exact one_pos
  · intro e he
    rw [List.eq_of_mem_replicate he]; exact one_pos
  · rw [converged_eq, hfp, hep]
    unfold hasConverged
    rw [Bool.or_eq_true, decide_eq_true_eq]
    left
    have hu : contUpdates (100 / 133 :: List.replicate n 1) (List.replicate (n + 1) (1 : K)) =
        33 / 100 :: List.replicate n 0 := by
      unfold contUpdates
      rw [List.replicate_succ, List.zipWith_cons_cons]
      simp
      norm_num
    rw [hu]
    unfold chi2Change
    rw [List.replicate_succ, List.zipWith_cons_cons]
    simp only [List.length_cons, List.length_replicate]
    rw [div_lt_iff₀ (by positivity)]
    have : (109 : K) ≤ ((n + 1 : Nat) : K) := by exact_mod_cast hb
    simp
    push_cast at this
    linarith
  · rw [hfp]; rfl
  · rw [hep]; rfl
  · norm_num

end

/-- The default number of bins. -/
example : linGrid (1050 : ℚ) 1180 (8 / 10) = .ok ⟨1050 + 65 / 162, 130 / 162, 162⟩ := by decide +kernel

end Verif.Props
