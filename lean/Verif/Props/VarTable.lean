import Verif.Model.VarTable
import Verif.Props.VarCov
import Verif.Props.VarErrors

/-!
# C84: the table of variance statistics
-/

namespace Verif.Props
open Verif Verif.Model Verif.Spec Verif.Proofs Verif.Model.VarLss

variable {K : Type} [Field K] [LinearOrder K] [IsStrictOrderedRing K] [FloorRing K] {n : Nat} {c : VarCfg K}

omit [LinearOrder K] [IsStrictOrderedRing K] [FloorRing K] in
/-- The mean of the squares minus the square of the mean is the mean squared deviation. -/
theorem mean_sq_dev [CharZero K] {l : List K} (h : l ≠ []) :
    (l.map (fun x => x ^ 2)).sum / (l.length : K) - (l.sum / (l.length : K)) ^ 2 =
      (l.map (fun x => (x - l.sum / (l.length : K)) ^ 2)).sum / (l.length : K) := by
  have hn : (l.length : K) ≠ 0 := by
    have : l.length ≠ 0 := by simpa using h
    exact_mod_cast this
  have key : ∀ (m : K) (l : List K), (l.map (fun x => (x - m) ^ 2)).sum =
      (l.map (fun x => x ^ 2)).sum - 2 * m * l.sum + (l.length : K) * m ^ 2 := by
    intro m l
    induction l with
    | nil => simp
    | cons a l ih =>
      simp only [List.map_cons, List.sum_cons, List.length_cons, ih]
      push_cast
      ring
  rw [key]
  field_simp
  ring

omit [LinearOrder K] [IsStrictOrderedRing K] [FloorRing K] in
theorem repeatWave_eq (c : VarCfg K) :
    repeatWave c = (List.range c.nw).flatMap (fun iw => (List.range c.nv).map (fun _ => c.center iw)) := by
  simp [repeatWave, List.map_const']

/-- All ranks have errors after the statistics are calculated. -/
theorem calculate_variance (hc : c.edges.length = c.nv + 1) (h : 0 < n) (eps : K) (uc : Bool)
    (ranks : List (List (List (VPix K)))) (r) (hr : r ∈ calculate eps uc (rankObjs c h ranks)) :
    r.1.sub.variance ≠ none := by
  obtain ⟨o1, -⟩ := rankObjs_ok hc h ranks.zipIdx ranks.length
  have hcalc : (rankObjs c h ranks : List (VarLss K n c)).head?.any (·.calculated) = false := by
    cases e : (rankObjs c h ranks : List (VarLss K n c)) with
    | nil => rfl
    | cons s l =>
      have : s ∈ (rankObjs c h ranks : List (VarLss K n c)) := by rw [e]; exact List.mem_cons_self
      have := (o1 s this).2.2
      simp [this]
  unfold VarLss.calculate at hr
  rw [if_neg (by rw [hcalc]; simp), allreduce_eq] at hr
  obtain ⟨s', hs', rfl⟩ := List.mem_map.mp hr
  obtain ⟨s, hs, rfl⟩ := List.mem_map.mp hs'
  obtain ⟨t, mean, f1, -, -, -, -, -, f7⟩ := finish_fresh eps uc (s := { s with
    sub := { s.sub with
      x := fun i j k => (((rankObjs c h ranks).map (·.sub)).map (fun s => s.x i j k)).sum
      w := fun i k => (((rankObjs c h ranks).map (·.sub)).map (fun s => s.w i k)).sum }
    numPix := fun k => ((rankObjs c h ranks).map (fun s => s.numPix k)).sum
    numQso := fun k => ((rankObjs c h ranks).map (fun s => s.numQso k)).sum }) (o1 s hs).1
  rw [f1]
  exact f7

omit [LinearOrder K] [IsStrictOrderedRing K] [FloorRing K] in
/-- The mean of values between two limits. -/
theorem mean_between [LinearOrder K] [IsStrictOrderedRing K] {l : List K} (hl : l ≠ []) {a b : K}
    (h : ∀ x ∈ l, a ≤ x ∧ x < b) : a ≤ l.sum / (l.length : K) ∧ l.sum / (l.length : K) < b := by
  have hn : (0 : K) < l.length := by
    have : 0 < l.length := List.length_pos_iff.mpr hl
    exact_mod_cast this
  have h1 : ∀ l : List K, (∀ x ∈ l, a ≤ x) → a * l.length ≤ l.sum := by
    intro l hl
    induction l with
    | nil => simp
    | cons x l ih =>
      simp only [List.length_cons, List.sum_cons]
      push_cast
      have := hl x List.mem_cons_self
      have := ih fun y hy => hl y (List.mem_cons_of_mem _ hy)
      linarith
  have h2 : ∀ l : List K, l ≠ [] → (∀ x ∈ l, x < b) → l.sum < b * l.length := by
    intro l
    induction l with
    | nil => simp
    | cons x l ih =>
      intro _ hl
      simp only [List.length_cons, List.sum_cons]
      push_cast
      have h3 := hl x List.mem_cons_self
      by_cases e : l = []
      · subst e; simpa using h3
      · have := ih e fun y hy => hl y (List.mem_cons_of_mem _ hy)
        linarith
  exact ⟨(le_div_iff₀ hn).mpr (h1 l fun x hx => (h x hx).1), (div_lt_iff₀ hn).mpr (h2 l hl fun x hx => (h x hx).2)⟩

/-- **C84.** After the statistics are calculated the table is written, with one row for every used bin: the variance bins of
the first wavelength bin, then those of the second, and so on. Every column has the value of the same bin in the same row:
the central wavelength, the statistics of all pixels in the bin (on all ranks) and, with `--var-use-cov`, the covariances
with the variance bins of the same wavelength bin. The variance of delta is the mean squared deviation from the mean. -/
theorem C84_rows (sqrt : K → K) (hc : GoodBins c) (h : 0 < n) (eps : K) (uc : Bool)
    (ranks : List (List (List (VPix K)))) (r) (hr : r ∈ calculate eps uc (rankObjs c h ranks)) :
    ∃ t, writeTable sqrt uc r.1 = .ok t ∧
      t.wave.length = c.nw * c.nv ∧ t.varPipe.length = c.nw * c.nv ∧ t.eVarPipe.length = c.nw * c.nv ∧
      t.varDelta.length = c.nw * c.nv ∧ t.eVarDelta.length = c.nw * c.nv ∧ t.meanDelta.length = c.nw * c.nv ∧
      t.var2Delta.length = c.nw * c.nv ∧ t.numPixels.length = c.nw * c.nv ∧ t.numQso.length = c.nw * c.nv ∧
      (t.cov.isSome = uc) ∧ (∀ m, t.cov = some m → m.length = c.nw * c.nv) ∧
      ∀ iw iv, iw < c.nw → iv < c.nv →
        let P := inBin c iw iv ranks.flatten.flatten
        let m : K := (P.map (fun p => p.delta)).sum / P.length
        let i := iw * c.nv + iv
        t.wave[i]? = some (c.w1 + (iw + 1 / 2) * ((c.w2 - c.w1) / c.nw)) ∧
        t.numPixels[i]? = some P.length ∧ t.numQso[i]? = some (spectraIn c iw iv ranks.flatten) ∧
        t.meanDelta[i]? = some m ∧
        t.varPipe[i]? = some ((P.map (fun p => 1 / p.ivar)).sum / (P.length : K)) ∧
        t.varDelta[i]? = some ((P.map (fun p => (p.delta - m) ^ 2)).sum / (P.length : K)) ∧
        t.var2Delta[i]? = some (((P.map (fun p => p.delta ^ 4)).sum / (P.length : K) -
          ((P.map (fun p => (p.delta - m) ^ 2)).sum / (P.length : K)) ^ 2) / (P.length : K)) ∧
        (∃ e, (r.1.errRow 1).bind (fun l => l[i]?) = some e ∧ t.eVarDelta[i]? = some (sqrt e)) ∧
        (∃ e, (r.1.errRow 3).bind (fun l => l[i]?) = some e ∧ t.eVarPipe[i]? = some (sqrt e)) ∧
        (∀ cov, t.cov = some cov → ∃ row, cov[i]? = some row ∧ row.length = c.nv ∧
          ∀ b < c.nv, row[b]? = some (r.1.covVarDelta iw iv b)) := by
  obtain ⟨-, -, -, mean, h4, -⟩ := calculate_stats hc.length h eps uc ranks r hr
  obtain ⟨v, hv⟩ := Option.ne_none_iff_exists'.mp (calculate_variance hc.length h eps uc ranks r hr)
  have hm : ∀ j, r.1.meanRow j = some (valid c (meanRows r.1.numPix mean j)) := by
    intro j; unfold meanRow; rw [h4]; rfl
  have he : ∀ j, r.1.errRow j = some (valid c (v j)) := by
    intro j; unfold errRow; rw [hv]; rfl
  refine ⟨{ wave := repeatWave c, varPipe := valid c (meanRows r.1.numPix mean 3), eVarPipe := (valid c (v 3)).map sqrt
            varDelta := valid c (meanRows r.1.numPix mean 1), eVarDelta := (valid c (v 1)).map sqrt
            meanDelta := valid c (meanRows r.1.numPix mean 0), var2Delta := valid c (meanRows r.1.numPix mean 2)
            numPixels := r.1.numPixels, numQso := r.1.numQsos
            cov := if uc then some (covTable r.1) else none },
    ?_, ?_, valid_length c _, ?_, valid_length c _, ?_, valid_length c _, valid_length c _, valid_length c _,
    valid_length c _, ?_, ?_, ?_⟩
  · unfold writeTable
    simp only [hm, he]
  · simp [repeatWave]
  · simp [valid_length]
  · simp [valid_length]
  · cases uc <;> rfl
  · intro m hm
    cases uc
    · simp at hm
    · simp only [if_true, Option.some.injEq] at hm
      subst hm
      simp [covTable]
  · intro iw iv hiw hiv P m i
    obtain ⟨-, c1, c2, c3, c4, c5, c6⟩ := C50_statistics hc h eps uc ranks r hr iw iv hiw hiv
    rw [hm] at c3 c4 c5 c6
    have hi : i < c.nw * c.nv := by
      have : (iw + 1) * c.nv ≤ c.nw * c.nv := Nat.mul_le_mul_right _ hiw
      have e : (iw + 1) * c.nv = iw * c.nv + c.nv := by ring
      omega
    have hvar : (P.map (fun p => p.delta ^ 2)).sum / (P.length : K) - m ^ 2 =
        (P.map (fun p => (p.delta - m) ^ 2)).sum / (P.length : K) := by
      by_cases hP : P = []
      · simp [hP, m]
      · have := mean_sq_dev (l := P.map (fun p => p.delta)) (by simpa using hP)
        simp only [List.map_map, List.length_map] at this
        exact this
    rw [← hvar]
    refine ⟨?_, c1, c2, c3, c6, c4, c5, ?_, ?_, ?_⟩
    · dsimp only
      rw [repeatWave_eq, getElem?_flatMap_const (fun iw _ => c.center iw) _ _ _ _ hiw hiv]
      congr 1
      unfold VarCfg.center VarCfg.edge VarCfg.dw
      push_cast
      ring
    · refine ⟨v 1 ⟨binIdx c iw iv, binIdx_lt hiw hiv⟩, ?_, ?_⟩
      · rw [he]; exact valid_get c _ hiw hiv
      · dsimp only
        rw [List.getElem?_map, valid_get c _ hiw hiv]; rfl
    · refine ⟨v 3 ⟨binIdx c iw iv, binIdx_lt hiw hiv⟩, ?_, ?_⟩
      · rw [he]; exact valid_get c _ hiw hiv
      · dsimp only
        rw [List.getElem?_map, valid_get c _ hiw hiv]; rfl
    · intro cov hcov
      dsimp only at hcov
      cases uc
      · simp at hcov
      simp only [if_true, Option.some.injEq] at hcov
      subst hcov
      have e1 : i / c.nv = iw := by
        simp only [i]
        rw [Nat.mul_comm, Nat.mul_add_div (by omega), Nat.div_eq_of_lt hiv]
        rfl
      have e2 : i % c.nv = iv := by
        simp only [i]
        rw [Nat.mul_comm, Nat.mul_add_mod, Nat.mod_eq_of_lt hiv]
      refine ⟨(List.range c.nv).map (fun b => r.1.covVarDelta iw iv b), ?_, by simp, fun b hb => by simp [hb]⟩
      unfold covTable
      rw [List.getElem?_map, List.getElem?_range hi]
      simp only [Option.map_some, e1, e2]

omit [LinearOrder K] [IsStrictOrderedRing K] [FloorRing K] in
/-- **C84.** Before the statistics are calculated there is nothing to write and an exception is raised. -/
theorem C84_early (sqrt : K → K) (h : 0 < n) (uc : Bool) (rank size : Nat) :
    writeTable sqrt uc (VarLss.new c h rank size) = .error .typeError := rfl

/-- **C84**, the part of the claim on the order that holds. Full claim: in every wavelength bin `var_pipe` is in descending
order, as documented. Proved: `var_pipe` of a bin with pixels is within the limits of the bin, and of two such bins
of a wavelength bin the first has the larger value; `var_delta` is not negative. Missing: bins without pixels, see
`C84_order_refuted`. -/
theorem C84_order_partial (sqrt : K → K) (hc : GoodBins c) (h : 0 < n) (eps : K) (uc : Bool)
    (ranks : List (List (List (VPix K)))) (r) (hr : r ∈ calculate eps uc (rankObjs c h ranks)) (t)
    (ht : writeTable sqrt uc r.1 = .ok t) (iw : Nat) (hw : iw < c.nw) :
    (∀ iv < c.nv, ∃ v d lo hi, t.varPipe[iw * c.nv + iv]? = some v ∧ t.varDelta[iw * c.nv + iv]? = some d ∧
      c.edges[iv]? = some lo ∧ c.edges[iv + 1]? = some hi ∧ 0 ≤ d ∧
      (inBin c iw iv ranks.flatten.flatten ≠ [] → 1 / hi ≤ v ∧ v < 1 / lo)) ∧
    ∀ iv iv' v v', iv < iv' → iv' < c.nv → t.varPipe[iw * c.nv + iv]? = some v → t.varPipe[iw * c.nv + iv']? = some v' →
      inBin c iw iv ranks.flatten.flatten ≠ [] → inBin c iw iv' ranks.flatten.flatten ≠ [] → v' < v := by
  obtain ⟨t', e1, -, -, -, -, -, -, -, -, -, -, -, key⟩ := C84_rows sqrt hc h eps uc ranks r hr
  rw [ht] at e1
  cases e1
  have A : ∀ iv < c.nv, ∃ v d lo hi, t.varPipe[iw * c.nv + iv]? = some v ∧ t.varDelta[iw * c.nv + iv]? = some d ∧
      c.edges[iv]? = some lo ∧ c.edges[iv + 1]? = some hi ∧ 0 ≤ d ∧
      (inBin c iw iv ranks.flatten.flatten ≠ [] → 1 / hi ≤ v ∧ v < 1 / lo) := by
    intro iv hv
    obtain ⟨-, -, -, -, k5, k6, -⟩ := key iw iv hw hv
    have l1 : iv < c.edges.length := by rw [hc.length]; omega
    have l2 : iv + 1 < c.edges.length := by rw [hc.length]; omega
    refine ⟨_, _, c.edges[iv], c.edges[iv + 1], k5, k6, List.getElem?_eq_getElem l1, List.getElem?_eq_getElem l2, ?_, ?_⟩
    · refine div_nonneg (List.sum_nonneg ?_) (Nat.cast_nonneg _)
      intro x hx
      obtain ⟨p, -, rfl⟩ := List.mem_map.mp hx
      exact sq_nonneg _
    · intro hP
      have hlo := hc.pos _ (List.getElem_mem l1)
      have := mean_between (l := (inBin c iw iv ranks.flatten.flatten).map (fun p => 1 / p.ivar)) (by simpa using hP)
        (a := 1 / c.edges[iv + 1]) (b := 1 / c.edges[iv]) (by
          intro x hx
          obtain ⟨p, hp, rfl⟩ := List.mem_map.mp hx
          have hb : InBin c iw iv p := by
            classical
            simp only [inBin, List.mem_filter, decide_eq_true_eq] at hp
            exact hp.2
          obtain ⟨-, lo, hi, g1, g2, g3, g4⟩ := hb
          rw [List.getElem?_eq_getElem l1] at g1
          rw [List.getElem?_eq_getElem l2] at g2
          cases g1
          cases g2
          exact ⟨one_div_le_one_div_of_le (hlo.trans g3) g4, one_div_lt_one_div_of_lt hlo g3⟩)
      rwa [List.length_map] at this
  refine ⟨A, ?_⟩
  intro iv iv' v v' hlt hv' hv1 hv2 hP hP'
  obtain ⟨a, -, lo, hi, a1, -, a3, a4, -, a6⟩ := A iv (by omega)
  obtain ⟨b, -, lo', hi', b1, -, b3, b4, -, b6⟩ := A iv' hv'
  rw [hv1] at a1
  rw [hv2] at b1
  cases a1
  cases b1
  have hle : hi ≤ lo' := by
    rcases Nat.lt_or_ge (iv + 1) iv' with q | q
    · obtain ⟨g1, g2⟩ := List.getElem?_eq_some_iff.mp a4
      obtain ⟨g3, g4⟩ := List.getElem?_eq_some_iff.mp b3
      have := List.pairwise_iff_getElem.mp hc.sorted (iv + 1) iv' g1 g3 q
      rw [g2, g4] at this
      exact this.le
    · have : iv' = iv + 1 := by omega
      subst this
      rw [a4] at b3
      cases b3
      exact le_refl _
  have hhi := hc.pos _ (List.mem_of_getElem? a4)
  calc v' < 1 / lo' := (b6 hP').2
    _ ≤ 1 / hi := one_div_le_one_div_of_le hhi hle
    _ ≤ v := (a6 hP).1

/-- **C84.** A bin without pixels has `var_pipe` zero, so that the column is not in descending order. -/
theorem C84_order_refuted : ∃ t, (calculate 0 false (rankObjs c48Cfg (n := 2) (by decide) c48Ranks)).map
    (fun r => (writeTable id false r.1).toOption.map (fun t => (t.wave, t.varPipe, t.numPixels))) = [some t, some t] ∧
    t = ([3660, 3660, 3780, 3780], [10 / 9, 1 / 2, 0, 3 / 8], [3, 1, 0, 2]) := by
  refine ⟨_, ?_, rfl⟩
  decide +kernel

/-- The hypotheses of `C84_order_partial` hold for the first wavelength bin there: both of its bins have pixels. -/
example : inBin c48Cfg 0 0 c48Ranks.flatten.flatten ≠ [] ∧ inBin c48Cfg 0 1 c48Ranks.flatten.flatten ≠ [] := by
  classical
  constructor
  · refine List.ne_nil_of_mem (a := ⟨3600, 1, 1⟩) ?_
    simp only [inBin, List.mem_filter, decide_eq_true_eq]
    exact ⟨by simp [c48Ranks], by simp [c48Cfg]; norm_num, 1 / 2, 1, rfl, rfl, by norm_num, by norm_num⟩
  · refine List.ne_nil_of_mem (a := ⟨3719, 3, 2⟩) ?_
    simp only [inBin, List.mem_filter, decide_eq_true_eq]
    exact ⟨by simp [c48Ranks], by simp [c48Cfg]; norm_num, 1, 4, rfl, rfl, by norm_num, by norm_num⟩

end Verif.Props
