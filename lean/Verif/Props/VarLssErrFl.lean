import Verif.Props.VarLssFl
import Verif.Props.VarCov

/-!
# C127: the errors of the variance statistics on special values
-/

namespace Verif.Props
open Verif Verif.Np Verif.Model Verif.Spec Verif.Proofs

variable {K : Type} [Field K] [LinearOrder K] [IsStrictOrderedRing K] [FloorRing K] {n : Nat} {c : VarCfg K}

/-- The same sums in one bin, with and without special values. -/
def FlColumn {d : Nat} (k : Fin d) (s : VarLssFl K n) (t : Subsample K n 4 d) : Prop :=
  s.isample = t.isample ∧ (∀ i j, s.x i j k = .fin (t.x i j k)) ∧ ∀ i, (s.w i k : K) = t.w i k

theorem addList_flColumn (hc : GoodBins c) {iw iv : Nat} (hw : iw < c.nw) (hv : iv < c.nv)
    (ls : List (List (FlPix K))) (hl : ∀ l ∈ ls, ∀ p ∈ l, ∃ f, p.flux = .fin f) {s : VarLssFl K n}
    {t t' : Subsample K n 4 ((c.nv + 2) * (c.nw + 2))}
    (hs : FlColumn ⟨binIdx c iw iv, binIdx_lt hw hv⟩ s t)
    (h : addAll t ((ls.map (fun l => l.filterMap goodDelta)).map (measOf c)) = .ok t') :
    FlColumn ⟨binIdx c iw iv, binIdx_lt hw hv⟩ (s.addList c ls) t' := by
  induction ls generalizing s t with
  | nil => cases h; exact hs
  | cons l ls ih =>
    have hll := hl l List.mem_cons_self
    have hx : ∀ j, xvecFl c l j (binIdx c iw iv) = .fin (VarLss.xvecOf c (l.filterMap goodDelta) j (binIdx c iw iv)) :=
      fun j => by
        rw [xvecOf_bin hc hw hv]
        unfold xvecFl
        rw [filter_allIdxFl hc hw hv j l hll, Fl.sum_fin]
    have hn : npixFl c l (binIdx c iw iv) = VarLss.npixOf c (l.filterMap goodDelta) (binIdx c iw iv) := by
      rw [npixOf_bin hc hw hv]
      exact (C127_partial hc hw hv l hll).1
    obtain ⟨a, x, w⟩ := hs
    unfold addAll at h
    rw [List.map_cons, List.map_cons, List.foldlM_cons] at h
    unfold Subsample.add at h
    by_cases hnorm : t.normalized = true
    · rw [if_pos hnorm] at h; cases h
    · rw [if_neg hnorm] at h
      refine ih (fun l' h' => hl l' (List.mem_cons_of_mem _ h')) (s := s.add c l) ?_ h
      refine ⟨by simp only [VarLssFl.add, a], fun i j => ?_, fun i => ?_⟩
      · simp only [VarLssFl.add, a]
        by_cases hi : i = t.isample
        · subst hi
          rw [Function.update_self, Function.update_self, x, hx]
          rfl
        · rw [Function.update_of_ne hi, Function.update_of_ne hi, x]
      · simp only [VarLssFl.add, a]
        by_cases hi : i = t.isample
        · subst hi
          rw [Function.update_self, Function.update_self, hn, Nat.cast_add, w]
          rfl
        · rw [Function.update_of_ne hi, Function.update_of_ne hi, w]

omit [FloorRing K] [IsStrictOrderedRing K] in
theorem tot_flColumn {d : Nat} (k : Fin d) {os : List (VarLssFl K n)} {ts : List (Subsample K n 4 d)}
    (h : List.Forall₂ (FlColumn k) os ts) :
    (∀ i j, VarLssFl.totX os i j k = .fin (ts.map (fun s => s.x i j k)).sum) ∧
    ∀ i, (VarLssFl.totW os i k : K) = (ts.map (fun s => s.w i k)).sum := by
  induction h with
  | nil => exact ⟨fun _ _ => rfl, fun _ => by simp [VarLssFl.totW]⟩
  | cons hab _ ih =>
    obtain ⟨-, x, w⟩ := hab
    refine ⟨fun i j => ?_, fun i => ?_⟩
    · have := ih.1 i j
      unfold VarLssFl.totX at this ⊢
      rw [List.map_cons, Fl.sum_cons, this, x]
      rfl
    · have := ih.2 i
      unfold VarLssFl.totW at this ⊢
      rw [List.map_cons, List.sum_cons, Nat.cast_add, this, w]
      rfl

omit [FloorRing K] in
theorem divWhere_fin (y : K) (w : Nat) : VarLssFl.divWhere (.fin y) w = .fin (Subsample.divWhere y (w : K)) := by
  unfold VarLssFl.divWhere Subsample.divWhere
  by_cases h0 : w = 0
  · simp [h0]
  · have : (w : K) ≠ 0 := by exact_mod_cast h0
    simp only [if_neg h0, if_neg this, Fl.div]

omit [FloorRing K] in
/-- Mean, differences and variance of a column of numbers are those without special values. -/
theorem jack_column {eps : K} (he : 0 < eps) (hpos : 0 < n) {os : List (VarLssFl K n)} {S : VarLss K n c}
    (k : Fin ((c.nv + 2) * (c.nw + 2)))
    (hx : ∀ i j, VarLssFl.totX os i j k = .fin (S.sub.x i j k)) (hw : ∀ i, (VarLssFl.totW os i k : K) = S.sub.w i k) :
    (∀ j, VarLssFl.mean os j k = .fin (S.sub.normalize.meanOf j k)) ∧
    (∀ i j, VarLssFl.xdiff eps os i j k =
      .fin ((S.sub.normalize.xdiffOf eps S.sub.normalize.meanOf false).2 i j k)) ∧
    ∀ j, VarLssFl.variance eps os j k =
      .fin (Subsample.varOf (S.sub.normalize.xdiffOf eps S.sub.normalize.meanOf false).2 j k) := by
  have hN : ((((List.finRange n).map (fun i => VarLssFl.totW os i k)).sum : Nat) : K) = ∑ i, S.sub.w i k := by
    rw [← Fin.sum_univ_def, Nat.cast_sum]
    exact Finset.sum_congr rfl fun i _ => hw i
  have hX : ∀ i j, VarLssFl.normX os i j k = .fin (S.sub.normalize.x i j k) := fun i j => by
    unfold VarLssFl.normX
    rw [hx, divWhere_fin, hw]
    rfl
  have hW : ∀ i, VarLssFl.normW os i k = .fin (S.sub.normalize.w i k) := fun i => by
    unfold VarLssFl.normW
    rw [divWhere_fin, hw, hN]
    rfl
  have hM : ∀ j, VarLssFl.mean os j k = .fin (S.sub.normalize.meanOf j k) := fun j => by
    change Fl.sum ((List.finRange n).map (fun i => Fl.mul (VarLssFl.normX os i j k) (VarLssFl.normW os i k))) = _
    simp only [hX, hW, Fl.mul]
    rw [Fl.sum_fin, ← Fin.sum_univ_def]
    rfl
  have hw0 : ∀ i, 0 ≤ S.sub.w i k := fun i => by rw [← hw]; exact Nat.cast_nonneg _
  have hle : ∀ i, S.sub.normalize.w i k ≤ 1 := fun i => by
    change Subsample.divWhere (S.sub.w i k) (∑ i', S.sub.w i' k) ≤ 1
    have h1 : S.sub.w i k ≤ ∑ i', S.sub.w i' k :=
      Finset.single_le_sum (f := fun i => S.sub.w i k) (fun i _ => hw0 i) (Finset.mem_univ i)
    unfold Subsample.divWhere
    split_ifs with h0
    · rw [h0] at h1; exact h1.trans zero_le_one
    · exact div_le_one_of_le₀ h1 (Finset.sum_nonneg fun i _ => hw0 i)
  have hJ : ∀ i j, VarLssFl.jack eps os i j k = .fin (S.sub.normalize.jackOf eps S.sub.normalize.meanOf i j k) :=
    fun i j => by
      have h0 : 1 + -1 * S.sub.normalize.w i k + eps ≠ 0 := by have := hle i; nlinarith
      unfold VarLssFl.jack VarLssFl.sub
      rw [hM, hX, hW]
      simp only [Fl.mul, Fl.add, Fl.div, if_neg h0]
      unfold Subsample.jackOf
      congr 1
      rw [neg_one_mul, neg_one_mul, ← sub_eq_add_neg, ← sub_eq_add_neg]
  have hn0 : (n : K) ≠ 0 := by exact_mod_cast hpos.ne'
  have hD : ∀ i j, VarLssFl.xdiff eps os i j k =
      .fin ((S.sub.normalize.xdiffOf eps S.sub.normalize.meanOf false).2 i j k) := fun i j => by
    unfold VarLssFl.xdiff VarLssFl.sub
    simp only [hJ]
    rw [Fl.sum_fin, ← Fin.sum_univ_def]
    simp only [Fl.mul, Fl.add, Fl.div, if_neg hn0]
    rw [neg_one_mul, ← sub_eq_add_neg]
    rfl
  have hV : ∀ j, VarLssFl.variance eps os j k =
      .fin (Subsample.varOf (S.sub.normalize.xdiffOf eps S.sub.normalize.meanOf false).2 j k) := fun j => by
    unfold VarLssFl.variance
    simp only [hD, Fl.mul]
    rw [Fl.sum_fin, ← Fin.sum_univ_def]
    simp only [Fl.mul, Fl.div, if_neg hn0]
    rfl
  exact ⟨hM, hD, hV⟩

omit [FloorRing K] in
/-- The errors of a column of numbers are the errors without special values. -/
theorem errs_column {eps : K} (he : 0 < eps) (hpos : 0 < n) {os : List (VarLssFl K n)} {S : VarLss K n c}
    (k : Fin ((c.nv + 2) * (c.nw + 2))) (hm : S.sub.mean = none) (hn : S.sub.normalized = false)
    (hx : ∀ i j, VarLssFl.totX os i j k = .fin (S.sub.x i j k)) (hw : ∀ i, (VarLssFl.totW os i k : K) = S.sub.w i k)
    (hp : VarLssFl.totPix os k = S.numPix k) (j : Fin 4) :
    ∃ e, VarLssFl.errs eps os j k = .fin e ∧ (S.finish eps false).1.sub.variance.map (fun m => m j k) = some e := by
  obtain ⟨hM, hD, hV⟩ := jack_column he hpos k hx hw
  have hS2 : VarLssFl.stats os 2 k = .fin (VarLss.meanRows S.numPix S.sub.normalize.meanOf 2 k) := by
    change VarLssFl.divWhere (VarLssFl.sub (VarLssFl.mean os 2 k) (Fl.mul (VarLssFl.sub (VarLssFl.mean os 1 k)
      (Fl.mul (VarLssFl.mean os 0 k) (VarLssFl.mean os 0 k))) (VarLssFl.sub (VarLssFl.mean os 1 k)
      (Fl.mul (VarLssFl.mean os 0 k) (VarLssFl.mean os 0 k))))) (VarLssFl.totPix os k) = _
    rw [hp]
    simp only [hM, VarLssFl.sub, Fl.mul, Fl.add, divWhere_fin]
    congr 1
    unfold Subsample.divWhere VarLss.meanRows
    by_cases h0 : S.numPix k = 0
    · simp [h0]; ring
    · have h1 : (S.numPix k : K) ≠ 0 := by exact_mod_cast h0
      simp only [if_neg h1, if_pos (Nat.pos_of_ne_zero h0)]
      simp
      ring
  have hfin : (S.finish eps false).1.sub.variance = some (VarLss.varRows
      (VarLss.meanRows S.numPix S.sub.normalize.meanOf)
      (Subsample.varOf (S.sub.normalize.xdiffOf eps S.sub.normalize.meanOf false).2)) := by
    unfold VarLss.finish Subsample.getMeanNVar Subsample.ensureMean
    rw [hm]
    simp [Subsample.getMean, Subsample.normalized', hn, VarLss.finishVar, Subsample.xdiffOf]
    rfl
  refine ⟨VarLss.varRows (VarLss.meanRows S.numPix S.sub.normalize.meanOf)
      (Subsample.varOf (S.sub.normalize.xdiffOf eps S.sub.normalize.meanOf false).2) j k, ?_, by rw [hfin]; rfl⟩
  by_cases hj : j = 1
  · subst hj
    unfold VarLssFl.errs VarLss.varRows
    simp only [if_true, hV, hM, hS2, Fl.mul, Fl.add, Fl.lt, decide_eq_true_eq]
    have e0 : VarLss.meanRows S.numPix S.sub.normalize.meanOf 0 k = S.sub.normalize.meanOf 0 k := rfl
    rw [e0]
    simp only [pow_two]
    split_ifs <;> rfl
  · unfold VarLssFl.errs VarLss.varRows
    rw [if_neg hj, if_neg hj, hV]

omit [FloorRing K] in
/-- The covariance of two columns of numbers is the covariance without special values. -/
theorem covVar_column {eps : K} (he : 0 < eps) (hpos : 0 < n) {os : List (VarLssFl K n)} {S : VarLss K n c}
    {iw a b : Nat} (hiw : iw < c.nw) (ha : a < c.nv) (hb : b < c.nv) (hm : S.sub.mean = none)
    (hn : S.sub.normalized = false)
    (hx : ∀ iv (hv : iv < c.nv), ∀ i j, VarLssFl.totX os i j (binIdx c iw iv) =
      .fin (S.sub.x i j ⟨binIdx c iw iv, binIdx_lt hiw hv⟩))
    (hw : ∀ iv (hv : iv < c.nv), ∀ i, (VarLssFl.totW os i (binIdx c iw iv) : K) =
      S.sub.w i ⟨binIdx c iw iv, binIdx_lt hiw hv⟩) :
    VarLssFl.covVar eps os (binIdx c iw a) (binIdx c iw b) = .fin ((S.finish eps true).1.covVarDelta iw a b) := by
  obtain ⟨ma, da, va⟩ := jack_column (c := c) he hpos ⟨binIdx c iw a, binIdx_lt hiw ha⟩ (hx a ha) (hw a ha)
  obtain ⟨mb, db, vb⟩ := jack_column (c := c) he hpos ⟨binIdx c iw b, binIdx_lt hiw hb⟩ (hx b hb) (hw b hb)
  dsimp only at ma da va mb db vb
  have hn0 : (n : K) ≠ 0 := by exact_mod_cast hpos.ne'
  obtain ⟨t, xd, mean, f1, f2, f3, -, f5⟩ := finish_covariance eps hm
  obtain ⟨t', mean', g1, g2, -, -, g5, -⟩ := finish_fresh eps true hm
  rw [f1] at g1
  cases g1
  have hxd : xd = (S.sub.normalize.xdiffOf eps S.sub.normalize.meanOf false).2 := by
    unfold Subsample.getMeanNVar Subsample.ensureMean at f2
    rw [hm] at f2
    simp only [Subsample.getMean, Subsample.normalized', hn] at f2
    exact (Option.some.inj f2).symm
  have hmean' : mean' = S.sub.normalize.meanOf := by
    simp only [Subsample.getMean, Subsample.normalized', hn] at g2
    exact (Option.some.inj g2).symm
  have hmean : ∀ k, mean 0 k = S.sub.normalize.meanOf 0 k := fun k => by
    rw [f3] at g5
    rw [Option.some.inj g5, hmean']
    rfl
  rw [f1]
  obtain ⟨cv, hcov, hb1⟩ := Option.map_eq_some_iff.mp f5
  unfold VarLss.covVarDelta
  rw [hcov, Option.getD_some, hb1]
  unfold VarLss.covRow1 blockCovSquare
  simp only [atNat_bin hiw ha, atNat_bin hiw hb]
  unfold Subsample.blocksOf
  simp only [atNat_bin hiw ha, atNat_bin hiw hb, hmean, hxd]
  unfold VarLssFl.covVar VarLssFl.cov
  simp only [ma, mb, da, db, va, vb, Fl.mul, Fl.add, Fl.sum_fin, Fl.div, if_neg hn0, ← Fin.sum_univ_def, pow_two]

/-- What every rank has before the statistics are finished: in every bin the sums over all ranks of the good pixels. -/
theorem calculate_good (hc : GoodBins c) (h : 0 < n) (eps : K) (uc : Bool) {iw : Nat} (hw : iw < c.nw)
    (ranks : List (List (List (FlPix K)))) (hl : ∀ r ∈ ranks, ∀ l ∈ r, ∀ p ∈ l, ∃ f, p.flux = .fin f) :
    ∀ r ∈ VarLss.calculate eps uc
        (rankObjs (n := n) c h (ranks.map (fun ls => ls.map (fun l => l.filterMap goodDelta)))),
      ∃ S : VarLss K n c, r = S.finish eps uc ∧ S.sub.mean = none ∧ S.sub.normalized = false ∧
        ∀ iv (hv : iv < c.nv),
          (∀ i j, VarLssFl.totX (VarLssFl.ofRanks (n := n) c h ranks) i j (binIdx c iw iv) =
            .fin (S.sub.x i j ⟨binIdx c iw iv, binIdx_lt hw hv⟩)) ∧
          (∀ i, (VarLssFl.totW (VarLssFl.ofRanks (n := n) c h ranks) i (binIdx c iw iv) : K) =
            S.sub.w i ⟨binIdx c iw iv, binIdx_lt hw hv⟩) ∧
          VarLssFl.totPix (VarLssFl.ofRanks (n := n) c h ranks) (binIdx c iw iv) =
            S.numPix ⟨binIdx c iw iv, binIdx_lt hw hv⟩ := by
  have efst : ranks.zipIdx.map Prod.fst = ranks := by simp
  have hl' : ∀ r ∈ ranks.zipIdx, ∀ l ∈ r.1, ∀ p ∈ l, ∃ f, p.flux = .fin f := fun r hr =>
    hl r.1 (by rw [← efst]; exact List.mem_map_of_mem hr)
  have key : ∀ iv (hv : iv < c.nv), List.Forall₂ (fun (s : VarLssFl K n) (t : VarLss K n c) =>
      FlColumn ⟨binIdx c iw iv, binIdx_lt hw hv⟩ s t.sub ∧
        s.numPix (binIdx c iw iv) = t.numPix ⟨binIdx c iw iv, binIdx_lt hw hv⟩)
      (VarLssFl.ofRanks (n := n) c h ranks)
      (rankObjs (n := n) c h (ranks.map (fun ls => ls.map (fun l => l.filterMap goodDelta)))) := by
    intro iv hv
    unfold rankObjs VarLssFl.ofRanks
    rw [List.zipIdx_map, List.map_map, List.length_map, List.forall₂_map_left_iff, List.forall₂_map_right_iff]
    refine List.forall₂_same.mpr fun r hr => ?_
    obtain ⟨t, h1, h2, -, h4, -⟩ := addList_ok hc.length (r.1.map (fun l => l.filterMap goodDelta))
      (VarLss.new c h r.2 ranks.length : VarLss K n c) rfl
    change FlColumn _ _ ((VarLss.new c h r.2 ranks.length : VarLss K n c).addList
      (r.1.map (fun l => l.filterMap goodDelta))).1.sub ∧ _ = ((VarLss.new c h r.2 ranks.length : VarLss K n c).addList
      (r.1.map (fun l => l.filterMap goodDelta))).1.numPix _
    rw [h1]
    refine ⟨addList_flColumn hc hw hv r.1 (hl' r hr) ⟨rfl, fun _ _ => rfl, fun _ => Nat.cast_zero⟩ h4, ?_⟩
    have h0 : ColumnSums (fun i j => (VarLssFl.new h r.2 ranks.length : VarLssFl K n).x i j (binIdx c iw iv))
        (fun i => (VarLssFl.new h r.2 ranks.length : VarLssFl K n).w i (binIdx c iw iv)) (fun _ => 0) 0 :=
      ⟨fun _ _ => 0, fun _ _ => rfl, fun _ _ _ => rfl, fun _ => by simp, by simp [VarLssFl.new]⟩
    rw [(addList_column hc hw hv r.1 (hl' r hr) _ h0).2.1]
    change _ = t.numPix _
    rw [h2]
    change 0 + _ = 0 + _
    congr 1
    rw [List.map_map, List.filterMap_flatten, inBin_flatten, List.length_flatten, List.map_map, List.map_map]
    congr 1
    refine List.map_congr_left fun l _ => ?_
    exact (npixOf_bin hc hw hv _).symm
  have hfst := rankObjs_ok hc.length h
    ((ranks.map (fun ls => ls.map (fun l => l.filterMap goodDelta))).zipIdx)
    (ranks.map (fun ls => ls.map (fun l => l.filterMap goodDelta))).length
  have hobj := hfst.1
  change ∀ s ∈ (rankObjs (n := n) c h (ranks.map (fun ls => ls.map (fun l => l.filterMap goodDelta)))), _ at hobj
  generalize (rankObjs (n := n) c h (ranks.map (fun ls => ls.map (fun l => l.filterMap goodDelta)))) = objs at key hobj
  generalize (VarLssFl.ofRanks (n := n) c h ranks) = os at key
  intro r hr
  unfold VarLss.calculate at hr
  have hcalc : objs.head?.any (·.calculated) = false := by
    cases objs with
    | nil => rfl
    | cons o os => simpa using (hobj o List.mem_cons_self).2.2
  rw [if_neg (by rw [hcalc]; simp), allreduce_eq, List.map_map] at hr
  obtain ⟨s, hs, rfl⟩ := List.mem_map.mp hr
  obtain ⟨m1, m2, -⟩ := hobj s hs
  simp only [Function.comp_apply]
  refine ⟨_, rfl, m1, m2, fun iv hv => ?_⟩
  obtain ⟨S, hS⟩ : ∃ S : VarLss K n c, S = { s with
    sub := { s.sub with
      x := fun i j k => ((objs.map (·.sub)).map (fun s => s.x i j k)).sum
      w := fun i k => ((objs.map (·.sub)).map (fun s => s.w i k)).sum }
    numPix := fun k => (objs.map (fun s => s.numPix k)).sum
    numQso := fun k => (objs.map (fun s => s.numQso k)).sum } := ⟨_, rfl⟩
  rw [← hS]
  have hcol : List.Forall₂ (FlColumn ⟨binIdx c iw iv, binIdx_lt hw hv⟩) os (objs.map (·.sub)) := by
    rw [List.forall₂_map_right_iff]
    exact (key iv hv).imp fun a b hab => hab.1
  obtain ⟨t1, t2⟩ := tot_flColumn _ hcol
  have hp : VarLssFl.totPix os (binIdx c iw iv) = S.numPix ⟨binIdx c iw iv, binIdx_lt hw hv⟩ := by
    rw [hS]
    change (os.map _).sum = (objs.map _).sum
    have key1 := key iv hv
    clear hr hs hS hobj hcalc hcol t1 t2 key
    induction key1 with
    | nil => rfl
    | cons hab _ ih => rw [List.map_cons, List.map_cons, List.sum_cons, List.sum_cons, ih, hab.2]
  exact ⟨fun i j => by rw [hS]; exact t1 i j, fun i => by rw [hS]; exact t2 i, hp⟩

/-- C127, for the jackknife errors: in each bin all ranks have the errors that the good pixels alone would give, which
are numbers whatever the inverse variances and the continua of the other pixels are. What is missing: fluxes that are not
numbers. -/
theorem C127_errors_partial (hc : GoodBins c) (h : 0 < n) {eps : K} (he : 0 < eps) {iw iv : Nat} (hw : iw < c.nw)
    (hv : iv < c.nv) (ranks : List (List (List (FlPix K))))
    (hl : ∀ r ∈ ranks, ∀ l ∈ r, ∀ p ∈ l, ∃ f, p.flux = .fin f) (j : Fin 4) :
    ∀ r ∈ VarLss.calculate eps false
        (rankObjs (n := n) c h (ranks.map (fun ls => ls.map (fun l => l.filterMap goodDelta)))),
      r.2 = none ∧ ∃ e, VarLssFl.errs eps (VarLssFl.ofRanks (n := n) c h ranks) j ((iw + 1) * (c.nv + 2) + 1 + iv) = .fin e ∧
        (r.1.errRow j).bind (fun a => a[iw * c.nv + iv]?) = some e := by
  intro r hr
  obtain ⟨S, rfl, M, N, hS⟩ := calculate_good hc h eps false hw ranks hl r hr
  obtain ⟨t1, t2, hp⟩ := hS iv hv
  obtain ⟨e, e1, e2⟩ := errs_column he h (S := S) ⟨binIdx c iw iv, binIdx_lt hw hv⟩ M N t1 t2 hp j
  obtain ⟨t, mean, f1, -⟩ := finish_fresh eps false M
  refine ⟨by rw [f1], e, e1, ?_⟩
  unfold VarLss.errRow
  obtain ⟨m, hm, rfl⟩ := Option.map_eq_some_iff.mp e2
  rw [hm]
  exact valid_get c (m j) hw hv

/-- C127, for the covariance: the elements that the fit is given, those of two inner bins of a wavelength bin, are the ones
that the good pixels alone would give, although the blocks also have the overflow bins, which can be NaN. What is missing:
fluxes that are not numbers. -/
theorem C127_covariance_partial (hc : GoodBins c) (h : 0 < n) {eps : K} (he : 0 < eps) {iw a b : Nat} (hw : iw < c.nw)
    (ha : a < c.nv) (hb : b < c.nv) (ranks : List (List (List (FlPix K))))
    (hl : ∀ r ∈ ranks, ∀ l ∈ r, ∀ p ∈ l, ∃ f, p.flux = .fin f) :
    ∀ r ∈ VarLss.calculate eps true
        (rankObjs (n := n) c h (ranks.map (fun ls => ls.map (fun l => l.filterMap goodDelta)))),
      r.2 = none ∧ VarLssFl.covVar eps (VarLssFl.ofRanks (n := n) c h ranks) ((iw + 1) * (c.nv + 2) + 1 + a)
        ((iw + 1) * (c.nv + 2) + 1 + b) = .fin (r.1.covVarDelta iw a b) := by
  intro r hr
  obtain ⟨S, rfl, M, N, hS⟩ := calculate_good hc h eps true hw ranks hl r hr
  obtain ⟨t, mean, f1, -⟩ := finish_fresh eps true M
  exact ⟨by rw [f1], covVar_column he h hw ha hb M N (fun iv hv => (hS iv hv).1) fun iv hv => (hS iv hv).2.1⟩

/-- The hypotheses can be met: two ranks, three subsamples; the error of the variance in the bin with the masked pixels
is a number and not zero. -/
example : (0 : ℚ) < 1 / 1000 ∧ (∀ r ∈ c127Ranks, ∀ l ∈ r, ∀ p ∈ l, ∃ f, p.flux = .fin f) ∧
    (VarLssFl.errs (1 / 1000) (VarLssFl.ofRanks c48Cfg (n := 3) (by decide) c127Ranks) 0 5 ≠ .fin 0) ∧
    (VarLssFl.errs (1 / 1000) (VarLssFl.ofRanks c48Cfg (n := 3) (by decide) c127Ranks) 0 5 ≠ .nan) := by
  refine ⟨by norm_num, ?_, by decide +kernel, by decide +kernel⟩
  intro r hr l hl p hp
  simp only [c127Ranks, c127Pixels, List.mem_cons, List.not_mem_nil, or_false] at hr
  rcases hr with rfl | rfl <;> simp only [List.mem_cons, List.not_mem_nil, or_false] at hl <;> subst hl <;>
    simp only [List.mem_cons, List.not_mem_nil, or_false] at hp
  · rcases hp with rfl | rfl | rfl | rfl | rfl | rfl <;> exact ⟨_, rfl⟩
  · subst hp; exact ⟨_, rfl⟩

/-- The covariance of the bin with the masked pixels and of the next one is a number; with the overflow bin, which has the
masked pixels, it is NaN. -/
example : VarLssFl.covVar (1 / 1000) (VarLssFl.ofRanks c48Cfg (n := 3) (by decide) c127Ranks) 5 5 ≠ .nan ∧
    VarLssFl.covVar (1 / 1000) (VarLssFl.ofRanks c48Cfg (n := 3) (by decide) c127Ranks) 5 5 ≠ .fin 0 ∧
    VarLssFl.covVar (1 / 1000) (VarLssFl.ofRanks c48Cfg (n := 3) (by decide) c127Ranks) 5 6 ≠ .nan ∧
    VarLssFl.covVar (1 / 1000) (VarLssFl.ofRanks c48Cfg (n := 3) (by decide) c127Ranks) 5 7 = .nan := by
  decide +kernel

end Verif.Props
