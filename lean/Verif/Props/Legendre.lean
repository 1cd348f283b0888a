import Verif.Proofs.SplQuad
import Verif.Props.MeanCont

/-!
# The modes removed from the mean continuum, for any order (C78)
-/

namespace Verif.Props
open Verif.Np Verif.Model Verif.Spec Verif.Proofs

/-- The parts removed by the projection. -/
noncomputable def removed (x m : List ℝ) (i : Nat) : ℝ :=
  (2 * (i : ℝ) + 1) * splIntegral x (List.zipWith (· * ·) (project x (i - 1) m) (legArr x i))

theorem project_eq {x m : List ℝ} (h : m.length = x.length) (n : Nat) :
    project x n m = List.zipWith (fun a t => a - ((List.range n).map (fun l : Nat =>
      removed x m (l + 1) * legendre01 (l + 1) t)).sum) m x := by
  induction n with
  | zero =>
    apply List.ext_getElem (by rw [project_length h, List.length_zipWith, h, Nat.min_self])
    intro k h1 h2
    simp [project]
  | succ n ih =>
    have hl := project_length h n
    rw [project_succ]
    apply List.ext_getElem (by rw [projectStep_length hl, List.length_zipWith, h, Nat.min_self])
    intro k h1 h2
    have h3 : k < (List.zipWith (fun a l => a - (2 * ((n + 1 : Nat) : ℝ) + 1) * splIntegral x (List.zipWith (· * ·)
        (project x n m) (legArr x (n + 1))) * l) (project x n m) (legArr x (n + 1))).length := h1
    change (List.zipWith (fun a l => a - (2 * ((n + 1 : Nat) : ℝ) + 1) * splIntegral x (List.zipWith (· * ·)
        (project x n m) (legArr x (n + 1))) * l) (project x n m) (legArr x (n + 1)))[k]'h3 = _
    simp only [List.getElem_zipWith, List.range_succ, List.map_append, List.sum_append, List.map_cons, List.map_nil,
      List.sum_cons, List.sum_nil, add_zero]
    have hp : (project x n m)[k]'(by rw [projectStep_length hl] at h1; omega) = m[k]'(by
          rw [projectStep_length hl] at h1; omega) - ((List.range n).map (fun l : Nat =>
        removed x m (l + 1) * legendre01 (l + 1) (x[k]'(by rw [projectStep_length hl] at h1; omega)))).sum := by
      rw [List.getElem_of_eq ih, List.getElem_zipWith]
    rw [hp]
    have hg : (legArr x (n + 1))[k]'(by rw [legArr_length]; rw [projectStep_length hl] at h1; omega) =
        legendre01 (n + 1) (x[k]'(by rw [projectStep_length hl] at h1; omega)) := by
      unfold legArr
      rw [List.getElem_map, legendre_shift]
    rw [hg]
    have hr : removed x m (n + 1) = (2 * ((n + 1 : Nat) : ℝ) + 1) * splIntegral x (List.zipWith (· * ·)
        (project x n m) (legArr x (n + 1))) := rfl
    linear_combination (legendre01 (n + 1) (x[k]'(by rw [projectStep_length hl] at h1; omega))) * hr

variable (smooth : List ℝ → List ℝ → List ℝ) (order : Nat) (residual : Bool) {rfwave old flux std : List ℝ}

/-- **C78.** For any order the new mean continuum is, up to its norm `M`, the estimate minus a combination of the Legendre
polynomials of degrees one to the order in the logarithm of the wavelength. The coefficient of each is what the code
measures for it, from the estimate minus the lower degrees. What is left of any of them is bounded by the coefficients
times the square of the largest step.
Partial: they are not removed exactly (`C78_slope_refuted`). -/
theorem C78_modes_partial (hw : RisingWaves rfwave) (hs : ∀ f w, (smooth f w).length = f.length)
    (ho : old.length = rfwave.length) (hf : flux.length = rfwave.length) (he : std.length = rfwave.length)
    (hm : (projectNormalize (contGrid Real.log rfwave) order (rawMeancont smooth residual old flux std)).2 ≠ 0)
    {d : ℝ} (hd : ∀ i (h : i + 1 < (contGrid Real.log rfwave).length),
      (contGrid Real.log rfwave)[i + 1] - (contGrid Real.log rfwave)[i] ≤ d) :
    ∃ (M : ℝ) (b : Nat → ℝ), M ≠ 0 ∧
      (∀ k (h : k < rfwave.length),
        ((meanUpdate smooth (contGrid Real.log rfwave) order residual old flux std).fp).getD k 0 * M =
          (rawMeancont smooth residual old flux std).getD k 0 - ((List.range order).map (fun l : Nat =>
            b (l + 1) * legendre01 (l + 1) (Real.log (rfwave[k] / rfwave.getD 0 0) /
              Real.log (rfwave.getD (rfwave.length - 1) 0 / rfwave.getD 0 0)))).sum) ∧
      (∀ i p, IsNatSpline (contGrid Real.log rfwave) (List.zipWith (fun a t => (a - ((List.range i).map (fun l : Nat =>
          b (l + 1) * legendre01 (l + 1) t)).sum) * legendre01 (i + 1) t) (rawMeancont smooth residual old flux std)
          (contGrid Real.log rfwave)) p →
        b (i + 1) = (2 * (i : ℝ) + 3) * splineArea (contGrid Real.log rfwave) p) ∧
      ∀ j p, 0 < j → j ≤ order →
        IsNatSpline (contGrid Real.log rfwave) (List.zipWith (fun c t => c * legendre01 j t)
          (meanUpdate smooth (contGrid Real.log rfwave) order residual old flux std).fp (contGrid Real.log rfwave)) p →
        |splineArea (contGrid Real.log rfwave) p| * |M| ≤
          (order : ℝ) * (order + 1) * (3 * (order * (order + 1)) - 2) / 3 * d ^ 2 *
            ((List.range (order - j + 1)).map (fun i : Nat => |b (j + i)|)).sum := by
  have h2 : 2 ≤ (contGrid Real.log rfwave).length := by rw [contGrid_length]; exact hw.1
  have hl : (rawMeancont smooth residual old flux std).length = (contGrid Real.log rfwave).length := by
    rw [contGrid_length]; exact raw_length smooth residual hs ho hf he
  have leg : ∀ (l : List ℝ) (j : Nat), List.zipWith (fun c t => c * legendre01 j t) l (contGrid Real.log rfwave) =
      List.zipWith (· * ·) l (legArr (contGrid Real.log rfwave) j) := by
    intro l j
    unfold legArr
    rw [List.zipWith_map_right]
    simp only [legendre_shift]
  refine ⟨_, removed (contGrid Real.log rfwave) (rawMeancont smooth residual old flux std), hm, ?_, ?_, ?_⟩
  · intro k hk
    unfold meanUpdate projectNormalize
    unfold projectNormalize at hm
    dsimp only at hm ⊢
    have hk' : k < (contGrid Real.log rfwave).length := by rw [contGrid_length]; exact hk
    have hk2 : k < (project (contGrid Real.log rfwave) order (rawMeancont smooth residual old flux std)).length := by
      rw [project_length hl]; exact hk'
    rw [List.getD_eq_getElem _ _ (by rw [List.length_map]; exact hk2), List.getElem_map, div_mul_cancel₀ _ hm,
      List.getD_eq_getElem _ _ (by rw [hl]; exact hk')]
    have e := List.getElem_of_eq (project_eq hl order) hk2
    rw [e, List.getElem_zipWith, contGrid_get hk]
  · intro i p hp
    rw [splineArea_eq hp h2 (contGrid_step hw)]
    have e : List.zipWith (fun a t => (a - ((List.range i).map (fun l : Nat =>
        removed (contGrid Real.log rfwave) (rawMeancont smooth residual old flux std) (l + 1) *
          legendre01 (l + 1) t)).sum) * legendre01 (i + 1) t) (rawMeancont smooth residual old flux std)
          (contGrid Real.log rfwave) = List.zipWith (· * ·)
        (project (contGrid Real.log rfwave) i (rawMeancont smooth residual old flux std))
        (legArr (contGrid Real.log rfwave) (i + 1)) := by
      rw [← leg, project_eq hl i]
      apply List.ext_getElem (by simp)
      intro k h1 h2
      simp only [List.getElem_zipWith]
    rw [e]
    unfold removed
    rw [Nat.add_sub_cancel]
    push_cast
    ring
  · intro j p hj hjo hp
    rw [splineArea_eq hp h2 (contGrid_step hw), leg]
    obtain ⟨x0, x1⟩ := contGrid_ends hw
    rw [← contGrid_length Real.log rfwave] at x1
    have := orders_bound smooth order residual hw hs ho hf he hj hjo
      (fun a b _ ha _ hb => leg_quad h2 (contGrid_step hw) x0 x1 hd ha hb (by omega))
    refine this.trans (le_of_eq ?_)
    congr 2
    refine List.map_congr_left fun i _ => ?_
    unfold removed
    rw [abs_mul, abs_of_pos (by positivity : (0 : ℝ) < 2 * ((j + i : Nat) : ℝ) + 1)]

/-- The hypotheses hold for three bins and order two, where the norm is `2`. -/
example : RisingWaves [1, 2, 4] ∧
    (projectNormalize (contGrid Real.log [1, 2, 4]) 2 (rawMeancont (fun f _ => f) false [1, 1, 1] [1, 2, 4]
      [1, 1, 1])).2 ≠ 0 ∧ legendre01 2 0 = 1 ∧ legendre01 2 (1 / 2) = -1 / 2 := by
  refine ⟨C78_slope_refuted.1, ?_, ?_, ?_⟩
  · rw [contGrid_124]
    simp [projectNormalize, project, projectStep, legArr, legendre, splIntegral, splInt, splPiece, splM,
      splBack, splD, splC, splRhs, splStep, rawMeancont, fillFlux, meanWhere, List.range_succ]
    norm_num
  · rw [← legendre_shift]; norm_num [legendre]
  · rw [← legendre_shift]; norm_num [legendre]

end Verif.Props
