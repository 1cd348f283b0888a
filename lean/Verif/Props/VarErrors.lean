import Verif.Props.VarLss

/-!
# C76: errors of the variance of delta
-/

namespace Verif.Props
open Verif Verif.Model Verif.Model.VarLss Verif.Spec Verif.Proofs
open scoped BigOperators

section
variable {K : Type} [Field K] [LinearOrder K] [IsStrictOrderedRing K] [FloorRing K] {n : Nat} {c : VarCfg K}

omit [IsStrictOrderedRing K] [FloorRing K] in
/-- What `finish` without covariance does to an object that has not been normalised. -/
theorem finish_variance (eps : K) {s : VarLss K n c} (hs : s.sub.mean = none) :
    ∃ t v, s.finish eps false = (t, none) ∧ (s.sub.getMeanNVar eps false).1.variance = some v ∧
      ∃ mean, t.sub.mean = some mean ∧ t.sub.variance = some (varRows mean v) := by
  obtain ⟨t, v, h1, h2, h3, -⟩ := getMeanNVar_fresh eps hs
  unfold VarLss.finish
  rw [h1]
  refine ⟨_, v, rfl, h3, _, rfl, ?_⟩
  simp only [h3, Option.getD_some]

omit [FloorRing K] in
/-- The jackknife variance of `get_mean_n_var` is not negative. -/
theorem variance_nonneg (eps : K) {m d : Nat} (hn : 0 < n) {s : Subsample K n m d} (hs : s.mean = none) {v}
    (h : (s.getMeanNVar eps false).1.variance = some v) (j : Fin m) (k : Fin d) : 0 ≤ v j k := by
  unfold Subsample.getMeanNVar Subsample.ensureMean at h
  rw [hs] at h
  have h : some _ = some v := h
  rw [← Option.some.inj h]
  unfold Subsample.varOf
  have h1 : (1 : K) ≤ n := by exact_mod_cast hn
  exact div_nonneg (mul_nonneg (Finset.sum_nonneg fun i _ => mul_self_nonneg _) (by linarith)) (by linarith)

/-- **C76**, the part of the claim that holds. Full claim: the error of the variance of delta that the fit of var_lss
and eta uses is never smaller than the Gaussian estimate, however few subsamples there are. Proved: without
`--var-use-cov`, the square of the error is the larger one of the Gaussian estimate and the jackknife variance of the mean
of delta² plus what the subtraction of the squared mean adds. Missing: with `--var-use-cov`, see `C76_refuted`. -/
theorem C76_partial (hc : GoodBins c) (h : 0 < n) (eps : K) (ranks : List (List (List (VPix K)))) (r)
    (hr : r ∈ calculate eps false (rankObjs c h ranks)) (iw iv : Nat) (hw : iw < c.nw) (hv : iv < c.nv) :
    ∃ sub ∈ Subsample.allreduce ((rankObjs c h ranks : List (VarLss K n c)).map (·.sub)), ∃ v,
      (sub.getMeanNVar eps false).1.variance = some v ∧ ∃ v0 v1 e m0 g, 0 ≤ v0 ∧ 0 ≤ v1 ∧
      (valid c (v 0))[iw * c.nv + iv]? = some v0 ∧ (valid c (v 1))[iw * c.nv + iv]? = some v1 ∧
      (r.1.errRow 1).bind (fun l => l[iw * c.nv + iv]?) = some e ∧
      (r.1.meanRow 0).bind (fun l => l[iw * c.nv + iv]?) = some m0 ∧
      (r.1.meanRow 2).bind (fun l => l[iw * c.nv + iv]?) = some g ∧
      e = max g (v1 + (4 * m0 ^ 2 * v0 + 2 * v0 ^ 2)) := by
  obtain ⟨o1, -⟩ := rankObjs_ok hc.length h ranks.zipIdx ranks.length
  have hcalc : (rankObjs c h ranks : List (VarLss K n c)).head?.any (·.calculated) = false := by
    cases e : (rankObjs c h ranks : List (VarLss K n c)) with
    | nil => rfl
    | cons s l =>
      have : s ∈ (rankObjs c h ranks : List (VarLss K n c)) := by rw [e]; exact List.mem_cons_self
      have := (o1 s this).2.2
      simp [this]
  unfold VarLss.calculate at hr
  rw [if_neg (by rw [hcalc]; simp), allreduce_eq] at hr
  obtain ⟨s', hs', rfl⟩ := List.mem_map.mp hr
  obtain ⟨s, hs, rfl⟩ := List.mem_map.mp hs'
  obtain ⟨t, v, f1, f2, mean, f3, f4⟩ := finish_variance eps (s := { s with
    sub := { s.sub with
      x := fun i j k => (((rankObjs c h ranks).map (·.sub)).map (fun s => s.x i j k)).sum
      w := fun i k => (((rankObjs c h ranks).map (·.sub)).map (fun s => s.w i k)).sum }
    numPix := fun k => ((rankObjs c h ranks).map (fun s => s.numPix k)).sum
    numQso := fun k => ((rankObjs c h ranks).map (fun s => s.numQso k)).sum }) (o1 s hs).1
  rw [f1]
  have g0 := variance_nonneg eps h (s := { s.sub with
      x := fun i j k => (((rankObjs c h ranks).map (·.sub)).map (fun s => s.x i j k)).sum
      w := fun i k => (((rankObjs c h ranks).map (·.sub)).map (fun s => s.w i k)).sum }) (o1 s hs).1 f2
  refine ⟨_, List.mem_map.mpr ⟨s.sub, List.mem_map.mpr ⟨s, hs, rfl⟩, rfl⟩, v, f2, _, _, varRows mean v 1 ⟨binIdx c iw iv, binIdx_lt hw hv⟩, mean 0 ⟨binIdx c iw iv, binIdx_lt hw hv⟩,
    mean 2 ⟨binIdx c iw iv, binIdx_lt hw hv⟩, g0 0 ⟨binIdx c iw iv, binIdx_lt hw hv⟩, g0 1 ⟨binIdx c iw iv, binIdx_lt hw hv⟩,
    valid_get c _ hw hv, valid_get c _ hw hv, ?_, ?_, ?_, ?_⟩
  · unfold errRow
    rw [f4]
    exact valid_get c _ hw hv
  · unfold meanRow
    rw [f3]
    exact valid_get c _ hw hv
  · unfold meanRow
    rw [f3]
    exact valid_get c _ hw hv
  · unfold varRows
    simp only [if_true]
    rw [← add_assoc]
    split
    · next h => exact (max_eq_right h.le).symm
    · next h => exact (max_eq_left (not_lt.mp h)).symm

end

/-- Two spectra with the same numbers on two ranks. -/
def c76Ranks : List (List (List (VPix ℚ))) :=
  [[[⟨3600, 1, 1⟩, ⟨3650, 3, 1⟩]], [[⟨3600, 1, 1⟩, ⟨3650, 3, 1⟩]]]

/-- **C76** is false with `--var-use-cov`: if the covariance is not positive definite then the fit falls back to the
diagonal errors, and these have neither the part from the mean nor the floor. Both subsamples have the same data: without
covariance the error squared is the Gaussian estimate 10, and with covariance the fallback is an error of zero. -/
theorem C76_refuted :
    (calculate 0 false (rankObjs c48Cfg (n := 2) (by decide) c76Ranks)).map (fun r =>
      (r.1.errRow 1).bind (·[0]?)) = [some 10, some 10] ∧
    (calculate 0 true (rankObjs c48Cfg (n := 2) (by decide) c76Ranks)).map (fun r =>
      ((r.1.meanRow 2).bind (·[0]?), (r.1.errRow 1).bind (·[0]?))) = [(some 10, some 0), (some 10, some 0)] ∧
    ∀ (sqrt : ℚ → ℚ) (s : VarLss ℚ 2 c48Cfg) (e : ℚ) (w : List Bool), (s.errRow 1).bind (·[0]?) = some e →
      ∃ l, s.err2use sqrt (fun _ => false) true 0 (true :: w) = .errors (sqrt e :: l) := by
  refine ⟨by decide +kernel, by decide +kernel, fun sqrt s e w he => ?_⟩
  obtain ⟨l, hl, h0⟩ := Option.bind_eq_some_iff.mp he
  cases l with
  | nil => simp at h0
  | cons a l =>
    rw [List.getElem?_cons_zero] at h0
    cases h0
    refine ⟨(maskSel w (l.take 1)).map sqrt, ?_⟩
    unfold err2use
    simp only [Bool.and_false, Bool.false_eq_true, if_false, hl, Option.getD_some]
    rfl

end Verif.Props
