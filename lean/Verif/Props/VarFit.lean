import Verif.Props.VarLss

/-!
# C51: bins used in the fit of var_lss and eta
-/

namespace Verif.Props
open Verif Verif.Np Verif.Model Verif.Model.VarLss Verif.Spec Verif.Proofs
open scoped BigOperators

variable {K : Type} [Field K] [LinearOrder K] {n : Nat} {c : VarCfg K}

theorem slice_range {α : Type} (l : List α) (d : α) (i k : Nat) (h : i + k ≤ l.length) :
    slice l i (i + k) = (List.range k).map (fun j => l[i + j]?.getD d) := by
  unfold slice
  refine List.ext_getElem? fun j => ?_
  by_cases hj : j < k
  · rw [List.getElem?_drop, List.getElem?_take, if_pos (by omega), List.getElem?_map,
      List.getElem?_range hj, Option.map_some, List.getElem?_eq_getElem (by omega), Option.getD_some]
  · rw [List.getElem?_eq_none (by simp; omega), List.getElem?_eq_none (by simp; omega)]

theorem maskSel_map {α β : Type} (f : α → Bool) (g : α → β) (r : List α) :
    maskSel (r.map f) (r.map g) = (r.filter f).map g := by
  unfold maskSel
  induction r with
  | nil => rfl
  | cons a r ih =>
    simp only [List.map_cons, List.zip_cons_cons, List.filter_cons]
    split <;> simp_all

theorem count_map {α : Type} (f : α → Bool) (r : List α) : (r.map f).count true = (r.filter f).length := by
  induction r with
  | nil => rfl
  | cons a r ih =>
    rw [List.map_cons, List.count_cons, ih, List.filter_cons]
    cases f a <;> simp

/-- The bins of wavelength bin `iw` that have at least the given numbers of pixels and of quasars. -/
def binsWith (c : VarCfg K) (s : VarLss K n c) (iw pix qso : Nat) : List Nat :=
  (List.range c.nv).filter (fun iv => decide (pix ≤ s.numPixels[iw * c.nv + iv]?.getD 0) &&
    decide (qso ≤ s.numQsos[iw * c.nv + iv]?.getD 0))

/-- The data of the bins in a list: pipeline variance, variance of delta, error or covariance. -/
def fitData (sqrt : K → K) (cholesky : List (List K) → Bool) (uc : Bool) (s : VarLss K n c) (iw : Nat)
    (u : List Nat) : List K × List K × Sigma K :=
  (u.map (fun iv => ((s.meanRow 3).getD [])[iw * c.nv + iv]?.getD 0),
    u.map (fun iv => ((s.meanRow 1).getD [])[iw * c.nv + iv]?.getD 0),
    if uc && cholesky (u.map (fun a => u.map (fun b => s.covVarDelta iw a b))) then
      .matrix (u.map (fun a => u.map (fun b => s.covVarDelta iw a b)))
    else .errors (u.map (fun iv => sqrt (((s.errRow 1).getD [])[iw * c.nv + iv]?.getD 0))))

omit [LinearOrder K] in
/-- **C51.** In every wavelength bin the fit uses exactly the variance bins with the minimum numbers of pixels and
quasars; if these are fewer than five, exactly those with half of the numbers; if these also are fewer than five
the wavelength bin is not fitted. -/
theorem C51_used (minPix minQso : Nat) (sqrt : K → K) (cholesky : List (List K) → Bool) (uc : Bool)
    (s : VarLss K n c) (hm : s.sub.mean ≠ none) (hv : s.sub.variance ≠ none) {iw : Nat} (hw : iw < c.nw) :
    s.fitArgs minPix minQso sqrt cholesky uc iw =
      if 5 ≤ (binsWith c s iw minPix minQso).length then
        some (fitData sqrt cholesky uc s iw (binsWith c s iw minPix minQso))
      else if 5 ≤ (binsWith c s iw (minPix / 2) (minQso / 2)).length then
        some (fitData sqrt cholesky uc s iw (binsWith c s iw (minPix / 2) (minQso / 2)))
      else none := by
  obtain ⟨mean, hmean⟩ := Option.ne_none_iff_exists'.mp hm
  obtain ⟨var, hvar⟩ := Option.ne_none_iff_exists'.mp hv
  have hle : iw * c.nv + c.nv ≤ c.nw * c.nv := by
    have : (iw + 1) * c.nv ≤ c.nw * c.nv := Nat.mul_le_mul_right _ hw
    rw [Nat.succ_mul] at this
    exact this
  have sl : ∀ {α : Type} (d : α) (l : List α), l.length = c.nw * c.nv →
      slice l (iw * c.nv) (iw * c.nv + c.nv) = (List.range c.nv).map (fun iv => l[iw * c.nv + iv]?.getD d) :=
    fun d l hl => slice_range l d _ _ (by omega)
  have e : ∀ p q, enough p q (slice s.numPixels (iw * c.nv) (iw * c.nv + c.nv))
      (slice s.numQsos (iw * c.nv) (iw * c.nv + c.nv)) = (List.range c.nv).map (fun iv =>
        decide (p ≤ s.numPixels[iw * c.nv + iv]?.getD 0) && decide (q ≤ s.numQsos[iw * c.nv + iv]?.getD 0)) := by
    intro p q
    unfold enough
    rw [sl 0 s.numPixels (valid_length c _), sl 0 s.numQsos (valid_length c _), List.zipWith_map, List.zipWith_self]
  have data : ∀ p q, (maskSel ((List.range c.nv).map (fun iv =>
        decide (p ≤ s.numPixels[iw * c.nv + iv]?.getD 0) && decide (q ≤ s.numQsos[iw * c.nv + iv]?.getD 0)))
        (slice ((s.meanRow 3).getD []) (iw * c.nv) (iw * c.nv + c.nv)),
      maskSel ((List.range c.nv).map (fun iv =>
        decide (p ≤ s.numPixels[iw * c.nv + iv]?.getD 0) && decide (q ≤ s.numQsos[iw * c.nv + iv]?.getD 0)))
        (slice ((s.meanRow 1).getD []) (iw * c.nv) (iw * c.nv + c.nv)),
      s.err2use sqrt cholesky uc iw ((List.range c.nv).map (fun iv =>
        decide (p ≤ s.numPixels[iw * c.nv + iv]?.getD 0) && decide (q ≤ s.numQsos[iw * c.nv + iv]?.getD 0)))) =
      fitData sqrt cholesky uc s iw (binsWith c s iw p q) := by
    intro p q
    have l1 : ∀ j, ((s.meanRow j).getD []).length = c.nw * c.nv := by
      intro j; unfold meanRow; rw [hmean]; exact valid_length c _
    have l2 : ((s.errRow 1).getD []).length = c.nw * c.nv := by
      unfold errRow; rw [hvar]; exact valid_length c _
    have hr : ∀ f : Nat → Bool, maskSel ((List.range c.nv).map f) (List.range c.nv) = (List.range c.nv).filter f := by
      intro f
      have := maskSel_map f id (List.range c.nv)
      simpa using this
    unfold fitData err2use binsWith
    rw [sl 0 _ (l1 3), sl 0 _ (l1 1), maskSel_map, maskSel_map]
    simp only [sl 0 _ l2, maskSel_map, hr, List.map_map, Function.comp_def]
  unfold fitArgs usedMask
  simp only [e, count_map]
  change Option.map _ (if (binsWith c s iw minPix minQso).length < 5 then
    (if (binsWith c s iw (minPix / 2) (minQso / 2)).length < 5 then none else _) else _) = _
  by_cases h1 : (binsWith c s iw minPix minQso).length < 5
  · rw [if_pos h1, if_neg (by omega : ¬ 5 ≤ _)]
    by_cases h2 : (binsWith c s iw (minPix / 2) (minQso / 2)).length < 5
    · rw [if_pos h2, if_neg (by omega : ¬ 5 ≤ _)]; rfl
    · rw [if_neg h2, if_pos (by omega : 5 ≤ _), Option.map_some, data]
  · rw [if_neg h1, if_pos (by omega : 5 ≤ _), Option.map_some, data]

variable [IsStrictOrderedRing K]

/-- **C51.** The whole fit: it raises `QsonicException` exactly if more than 40% of the wavelength bins have
too few variance bins or a failed `curve_fit`; otherwise a wavelength bin has the fitted values, or zeros (before
smoothing) if it failed. -/
theorem C51_fit (minPix minQso : Nat) (sqrt : K → K) (cholesky : List (List K) → Bool) (uc : Bool)
    (curveFit : List K × List K × Sigma K → List K → Option (List K × List K))
    (smooth : List (List K) → List (List K) → List (List K)) (s : VarLss K n c) (guess : List (List K))
    (hs : shapeOk c.nw guess = true) (hn : 0 < c.nw) :
    let failed := fun iw : Nat => ∀ a, s.fitArgs minPix minQso sqrt cholesky uc iw = some a →
      curveFit a (guess[iw]?.getD []) = none
    (∃ bad : List Nat, bad.Nodup ∧ (∀ iw, iw ∈ bad ↔ iw < c.nw ∧ failed iw) ∧
      (s.fit minPix minQso sqrt cholesky uc curveFit smooth guess = .error .qsonic ↔ 2 * c.nw < 5 * bad.length)) ∧
    (s.fit minPix minQso sqrt cholesky uc curveFit smooth guess ≠ .error .qsonic →
      ∃ y e, s.fit minPix minQso sqrt cholesky uc curveFit smooth guess = .ok (smooth y e, e) ∧
        y.length = c.nw ∧ ∀ iw p0, guess[iw]? = some p0 →
          (failed iw → y[iw]? = some (p0.map (fun _ => 0))) ∧
          ∀ a r, s.fitArgs minPix minQso sqrt cholesky uc iw = some a → curveFit a p0 = some r →
            y[iw]? = some r.1 ∧ e[iw]? = some r.2) := by
  intro failed
  have hlen : guess.length = c.nw := by
    unfold shapeOk at hs
    simp only [Bool.and_eq_true, decide_eq_true_eq] at hs
    exact hs.1
  obtain ⟨R, hR⟩ : ∃ R : Nat → Option (List K × List K), R = fun iw =>
      fitBin curveFit (s.fitArgs minPix minQso sqrt cholesky uc iw) (guess[iw]?.getD []) := ⟨_, rfl⟩
  have hf : ∀ iw, failed iw ↔ (R iw).isNone = true := by
    intro iw
    rw [hR, Option.isNone_iff_eq_none]
    unfold fitBin
    simp only [failed]
    cases s.fitArgs minPix minQso sqrt cholesky uc iw with
    | none => simp
    | some a => simp
  have hres : guess.zipIdx.map (fun g =>
      (g.1, fitBin curveFit (s.fitArgs minPix minQso sqrt cholesky uc g.2) g.1)) =
      (List.range c.nw).map (fun iw => (guess[iw]?.getD [], R iw)) := by
    refine List.ext_getElem? fun i => ?_
    by_cases hi : i < c.nw
    · have hi' : i < guess.length := by omega
      rw [List.getElem?_map, List.getElem?_map, List.getElem?_range hi, List.getElem?_zipIdx]
      simp only [List.getElem?_eq_getElem hi', Option.map_some, Nat.zero_add, hR, Option.getD_some]
    · rw [List.getElem?_eq_none (by simp; omega), List.getElem?_eq_none (by simp; omega)]
  have hcount : (guess.zipIdx.map (fun g =>
      (g.1, fitBin curveFit (s.fitArgs minPix minQso sqrt cholesky uc g.2) g.1))).countP (fun r => r.2.isNone) =
      ((List.range c.nw).filter (fun iw => (R iw).isNone)).length := by
    rw [hres, List.countP_map, List.countP_eq_length_filter]
    rfl
  have hfit : s.fit minPix minQso sqrt cholesky uc curveFit smooth guess =
      if (4 / 10 : K) < (((List.range c.nw).filter (fun iw => (R iw).isNone)).length : K) / c.nw then .error .qsonic
      else .ok (smooth ((List.range c.nw).map (fun iw =>
            ((R iw).map Prod.fst).getD ((guess[iw]?.getD []).map (fun _ => 0))))
          ((List.range c.nw).map (fun iw => ((R iw).map Prod.snd).getD ((guess[iw]?.getD []).map (fun _ => 0)))),
        (List.range c.nw).map (fun iw => ((R iw).map Prod.snd).getD ((guess[iw]?.getD []).map (fun _ => 0)))) := by
    unfold VarLss.fit
    rw [if_pos hs]
    simp only [hcount]
    rw [if_neg (by omega), hres, List.map_map, List.map_map]
    rfl
  have hq : (4 / 10 : K) < (((List.range c.nw).filter (fun iw => (R iw).isNone)).length : K) / c.nw ↔
      2 * c.nw < 5 * ((List.range c.nw).filter (fun iw => (R iw).isNone)).length := by
    have hpos : (0 : K) < c.nw := by exact_mod_cast hn
    rw [lt_div_iff₀ hpos]
    have : (4 / 10 : K) * c.nw < ((List.range c.nw).filter (fun iw => (R iw).isNone)).length ↔
        (2 * c.nw : K) < 5 * ((List.range c.nw).filter (fun iw => (R iw).isNone)).length := by
      constructor <;> intro h <;> linarith
    rw [this]
    exact_mod_cast Iff.rfl
  constructor
  · refine ⟨(List.range c.nw).filter (fun iw => (R iw).isNone), List.nodup_range.filter _, ?_, ?_⟩
    · intro iw
      rw [List.mem_filter, List.mem_range, hf]
    · rw [hfit, ← hq]
      split
      · next h => exact ⟨fun _ => h, fun _ => rfl⟩
      · next h => exact ⟨fun h' => (by cases h'), fun h' => absurd h' h⟩
  · intro hne
    rw [hfit] at hne ⊢
    split at hne
    · exact absurd rfl hne
    · next h =>
      rw [if_neg h]
      refine ⟨_, _, rfl, by simp, fun iw p0 hp0 => ⟨fun hfail => ?_, fun a r ha hr => ?_⟩⟩
      · have hiw : iw < c.nw := by rw [← hlen]; exact (List.getElem?_eq_some_iff.mp hp0).1
        rw [hf, Option.isNone_iff_eq_none] at hfail
        rw [List.getElem?_map, List.getElem?_range hiw, Option.map_some, hfail, hp0]
        rfl
      · have hiw : iw < c.nw := by rw [← hlen]; exact (List.getElem?_eq_some_iff.mp hp0).1
        have hRi : R iw = some r := by
          rw [hR]
          simp only [fitBin, ha, hp0, Option.getD_some, Option.bind_some]
          exact hr
        rw [List.getElem?_map, List.getElem?_map, List.getElem?_range hiw, Option.map_some, Option.map_some, hRi]
        exact ⟨rfl, rfl⟩

variable [FloorRing K]

omit [IsStrictOrderedRing K] [FloorRing K] in
/-- The statistics after `finish` are a function of the sums. -/
theorem finish_same (eps : K) (uc : Bool) {S S' : VarLss K n c} (hX : S.sub.x = S'.sub.x) (hW : S.sub.w = S'.sub.w)
    (hP : S.numPix = S'.numPix) (hQ : S.numQso = S'.numQso) (hm : S.sub.mean = none) (hm' : S'.sub.mean = none)
    (hn : S.sub.normalized = false) (hn' : S'.sub.normalized = false) :
    (S.finish eps uc).1.numPix = (S'.finish eps uc).1.numPix ∧
      (S.finish eps uc).1.numQso = (S'.finish eps uc).1.numQso ∧
      (S.finish eps uc).1.sub.mean = (S'.finish eps uc).1.sub.mean ∧
      (S.finish eps uc).1.sub.variance = (S'.finish eps uc).1.sub.variance ∧
      (uc = true → (S.finish eps uc).1.sub.covariance = (S'.finish eps uc).1.sub.covariance) := by
  unfold VarLss.finish Subsample.getMeanNVar Subsample.ensureMean
  simp only [hm, hm']
  cases uc <;>
  simp [Subsample.getMean, Subsample.normalized', hn, hn', finishVar, finishCov,
    Subsample.getMeanNCov, Subsample.ensureMean, Subsample.checkBlock, Subsample.covariances, Subsample.meanOf,
    Subsample.xdiffOf, Subsample.jackMean, Subsample.jackOf, Subsample.normalize, hX, hW, hP, hQ]
  · exact ⟨rfl, rfl⟩
  · exact ⟨rfl, rfl⟩

omit [IsStrictOrderedRing K] [FloorRing K] in
/-- Objects with the same statistics give the same fit. -/
theorem fit_same {uc : Bool} {T T' : VarLss K n c} (key : T.numPix = T'.numPix ∧ T.numQso = T'.numQso ∧
    T.sub.mean = T'.sub.mean ∧ T.sub.variance = T'.sub.variance ∧ (uc = true → T.sub.covariance = T'.sub.covariance))
    (minPix minQso : Nat) (sqrt : K → K) (cholesky : List (List K) → Bool)
    (curveFit : List K × List K × Sigma K → List K → Option (List K × List K))
    (smooth : List (List K) → List (List K) → List (List K)) (guess : List (List K)) :
    T.fit minPix minQso sqrt cholesky uc curveFit smooth guess =
      T'.fit minPix minQso sqrt cholesky uc curveFit smooth guess := by
  obtain ⟨k1, k2, k3, k4, k5⟩ := key
  have hargs : ∀ iw, T.fitArgs minPix minQso sqrt cholesky uc iw =
      T'.fitArgs minPix minQso sqrt cholesky uc iw := by
    intro iw
    cases uc with
    | false =>
      simp only [fitArgs, numPixels, numQsos, meanRow, err2use, errRow, k1, k2, k3, k4, Bool.false_and]
      rfl
    | true =>
      simp only [fitArgs, numPixels, numQsos, meanRow, err2use, errRow, covVarDelta, k1, k2, k3, k4, k5 rfl]
      rfl
  unfold VarLss.fit
  simp only [hargs]

/-- **C51.** All ranks have the same counts, statistics and errors after `calculate_subsampler_stats`, so that they
fit the same data, and the fit raises on all ranks or on none. -/
theorem C51_all_ranks (hc : GoodBins c) (h : 0 < n) (eps : K) (uc : Bool) (ranks : List (List (List (VPix K)))) (r r')
    (hr : r ∈ calculate eps uc (rankObjs c h ranks)) (hr' : r' ∈ calculate eps uc (rankObjs c h ranks))
    (minPix minQso : Nat) (sqrt : K → K) (cholesky : List (List K) → Bool)
    (curveFit : List K × List K × Sigma K → List K → Option (List K × List K))
    (smooth : List (List K) → List (List K) → List (List K)) (guess : List (List K)) :
    r.1.fit minPix minQso sqrt cholesky uc curveFit smooth guess =
      r'.1.fit minPix minQso sqrt cholesky uc curveFit smooth guess := by
  obtain ⟨o1, -, -, -⟩ := rankObjs_ok hc.length h ranks.zipIdx ranks.length
  have hcalc : (rankObjs c h ranks : List (VarLss K n c)).head?.any (·.calculated) = false := by
    cases e : (rankObjs c h ranks : List (VarLss K n c)) with
    | nil => rfl
    | cons s l =>
      have : s ∈ (rankObjs c h ranks : List (VarLss K n c)) := by rw [e]; exact List.mem_cons_self
      have := (o1 s this).2.2
      simp [this]
  unfold VarLss.calculate at hr hr'
  rw [if_neg (by rw [hcalc]; simp), allreduce_eq] at hr hr'
  obtain ⟨s1, hs1, rfl⟩ := List.mem_map.mp hr
  obtain ⟨s, hs, rfl⟩ := List.mem_map.mp hs1
  obtain ⟨s1', hs1', rfl⟩ := List.mem_map.mp hr'
  obtain ⟨s', hs', rfl⟩ := List.mem_map.mp hs1'
  have hd := (o1 s hs)
  have hd' := (o1 s' hs')
  clear hr hr' hs1 hs1' hs hs'
  have key := finish_same eps uc (S := { s with
    sub := { s.sub with
      x := fun i j k => (((rankObjs c h ranks).map (·.sub)).map (fun s => s.x i j k)).sum
      w := fun i k => (((rankObjs c h ranks).map (·.sub)).map (fun s => s.w i k)).sum }
    numPix := fun k => ((rankObjs c h ranks).map (fun s => s.numPix k)).sum
    numQso := fun k => ((rankObjs c h ranks).map (fun s => s.numQso k)).sum }) (S' := { s' with
    sub := { s'.sub with
      x := fun i j k => (((rankObjs c h ranks).map (·.sub)).map (fun s => s.x i j k)).sum
      w := fun i k => (((rankObjs c h ranks).map (·.sub)).map (fun s => s.w i k)).sum }
    numPix := fun k => ((rankObjs c h ranks).map (fun s => s.numPix k)).sum
    numQso := fun k => ((rankObjs c h ranks).map (fun s => s.numQso k)).sum }) rfl rfl rfl rfl hd.1 hd'.1 hd.2.1 hd'.2.1
  exact fit_same key minPix minQso sqrt cholesky curveFit smooth guess

open Classical in
/-- The number of quasars, lists of arms, with a pixel in a bin. -/
noncomputable def quasarsIn (c : VarCfg K) (iw iv : Nat) (specs : List (List (List (VPix K)))) : Nat :=
  specs.countP (fun arms => decide (∃ l ∈ arms, ∃ p ∈ l, InBin c iw iv p))

/-- **C51, part.** `num_qso` is the number of quasars with a pixel in the bin if no quasar has pixels of two arms
in the bin. It is never smaller. Missing: arms that overlap in a bin, see `C51_quasars_refuted`. -/
theorem C51_quasars_partial (hc : GoodBins c) (h : 0 < n) (rank size : Nat) (specs : List (List (List (VPix K)))) :
    ∃ s, (VarLss.new c h rank size).addSpectra specs = (s, none) ∧ ∀ iw iv, iw < c.nw → iv < c.nv →
      ∃ q, s.numQsos[iw * c.nv + iv]? = some q ∧ quasarsIn c iw iv specs ≤ q ∧
        ((∀ arms ∈ specs, spectraIn c iw iv arms ≤ 1) → q = quasarsIn c iw iv specs) := by
  classical
  obtain ⟨s, h1, -, -, h4⟩ := C48_bins hc h rank size specs.flatten
  refine ⟨s, h1, fun iw iv hw hv => ⟨_, (h4 iw iv hw hv).2, ?_⟩⟩
  clear h1 h4
  unfold spectraIn quasarsIn
  induction specs with
  | nil => simp
  | cons arms specs ih =>
    rw [List.flatten_cons, List.countP_append, List.countP_cons]
    have hiff : (∃ l ∈ arms, ∃ p ∈ l, InBin c iw iv p) ↔
        0 < arms.countP (fun l => decide (∃ p ∈ l, InBin c iw iv p)) := by
      rw [List.countP_pos_iff]
      simp
    constructor
    · have := ih.1
      by_cases hx : ∃ l ∈ arms, ∃ p ∈ l, InBin c iw iv p
      · have := hiff.mp hx
        rw [if_pos (decide_eq_true hx)]; omega
      · rw [if_neg (by simpa using hx)]; omega
    · intro hall
      have h2 := ih.2 fun a ha => hall a (List.mem_cons_of_mem _ ha)
      have h3 := hall arms List.mem_cons_self
      by_cases hx : ∃ l ∈ arms, ∃ p ∈ l, InBin c iw iv p
      · have := hiff.mp hx
        rw [if_pos (decide_eq_true hx)]; omega
      · have : ¬ 0 < arms.countP (fun l => decide (∃ p ∈ l, InBin c iw iv p)) := fun h' => hx (hiff.mpr h')
        rw [if_neg (by simpa using hx)]; omega

/-- **C51, refuted.** A single quasar with two arms that have a pixel in the same bin counts as two quasars. -/
theorem C51_quasars_refuted (hc : GoodBins c) (h : 0 < n) (rank size : Nat) {iw iv : Nat} (hw : iw < c.nw)
    (hv : iv < c.nv) (p q : VPix K) (hp : InBin c iw iv p) (hq : InBin c iw iv q) :
    ∃ s, (VarLss.new c h rank size).addSpectra [[[p], [q]]] = (s, none) ∧
      s.numQsos[iw * c.nv + iv]? = some 2 ∧ quasarsIn c iw iv [[[p], [q]]] = 1 := by
  classical
  obtain ⟨s, h1, -, -, h4⟩ := C48_bins hc h rank size [[p], [q]]
  refine ⟨s, h1, ?_, ?_⟩
  · rw [(h4 iw iv hw hv).2]
    simp [spectraIn, hp, hq]
  · simp [quasarsIn, hp]

/-- One wavelength bin and six variance bins. -/
def c51Cfg : VarCfg ℚ := { w1 := 3600, w2 := 3720, nw := 1, nv := 6, edges := [1, 2, 3, 4, 5, 6, 7] }

example : GoodBins c51Cfg :=
  ⟨by decide +kernel, by decide, by decide, by decide +kernel, by decide +kernel⟩

/-- Two spectra with a pixel in each of the first five bins, one of them with a pixel in the last. -/
def c51Spectra : List (List (VPix ℚ)) :=
  [[⟨3600, 1, 2⟩, ⟨3601, 2, 3⟩, ⟨3602, 3, 4⟩, ⟨3603, 4, 5⟩, ⟨3604, 5, 6⟩, ⟨3605, 6, 7⟩],
   [⟨3600, 3, 2⟩, ⟨3601, 2, 3⟩, ⟨3602, 1, 4⟩, ⟨3603, 4, 5⟩, ⟨3604, 1, 6⟩]]

/-- Five of the six bins have two pixels of two quasars: mean pipeline variance and variance of delta. -/
example : (calculate 0 false (rankObjs c51Cfg (n := 2) (by decide) [c51Spectra])).map
    (fun r => (r.1.fitArgs 2 2 id (fun _ => true) false 0).map (fun a => (a.1, a.2.1))) =
    [some ([1 / 2, 1 / 3, 1 / 4, 1 / 5, 1 / 6], [1, 0, 1, 0, 4])] := by
  decide +kernel

/-- With a minimum of five pixels half of the number, two, is used; with a minimum of seven there is no fit. -/
example : (calculate 0 false (rankObjs c51Cfg (n := 2) (by decide) [c51Spectra])).map
    (fun r => ((r.1.fitArgs 5 2 id (fun _ => true) false 0).map (fun a => a.1.length),
      (r.1.fitArgs 7 2 id (fun _ => true) false 0).map (fun a => a.1.length))) = [(some 5, none)] := by
  decide +kernel

end Verif.Props
