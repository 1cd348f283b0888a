import Verif.Spec.CalibWhole
import Verif.Props.Calib
import Verif.Props.VarFit
import Verif.Props.VarTable
import Verif.Proofs.WholeRun

/-!
# Lemmas on the whole run of `qsonic-calib`
-/

namespace Verif.Proofs
open Verif Verif.Np Verif.Model Verif.Model.Prog Verif.Spec Verif.Props

variable {K : Type} [Field K] [LinearOrder K]

/-! ### Selection and files -/

theorem kept_eq (C : CalibCfg K) (ids : List Int) (rows : Option (List (CalRow K))) (lists : List (List (CalDelta K))) :
    C.kept ids rows lists = calUsed C ids rows lists.flatten := by
  classical
  unfold CalibCfg.kept keptDeltas calUsed
  refine List.filter_congr fun d hd => ?_
  rw [Bool.eq_iff_iff, decide_eq_true_iff]
  cases rows with
  | none =>
    have := C62_without_catalog (K := K) ids C.removeBal C.keepSurveys C.minSnr C.maxSnr [[d]] d
    unfold keptDeltas at this
    simp only [List.flatten_cons, List.flatten_nil, List.append_nil, List.mem_filter, List.mem_singleton, true_and,
      exists_eq_left] at this
    rw [this]
    unfold CalUsed
    simp
  | some l =>
    have := (C62_kept (K := K) ids l C.removeBal C.keepSurveys C.minSnr C.maxSnr [[d]]).2.2 d
    unfold keptDeltas at this
    simp only [List.flatten_cons, List.flatten_nil, List.append_nil, List.mem_filter, List.mem_singleton, true_and,
      exists_eq_left] at this
    rw [this]
    unfold CalUsed HasBal
    constructor
    · rintro ⟨h1, h2, h3, h4⟩
      refine ⟨h1, ?_, h4⟩
      rintro l' e r hr ht
      cases e
      exact ⟨fun hb => h2 hb r hr ht, fun hs => h3 hs r hr ht⟩
    · rintro ⟨h1, h2, h3⟩
      exact ⟨h1, fun hb r hr ht => (h2 l rfl r hr ht).1 hb, fun hs r hr ht => (h2 l rfl r hr ht).2 hs, h3⟩

theorem length_flatMap_const {α : Type} (part : Nat → List α) (k m : Nat) (h : ∀ r < m, (part r).length = k) :
    ((List.range m).flatMap part).length = m * k := by
  induction m with
  | zero => simp
  | succ m ih =>
    rw [List.range_succ, List.flatMap_append, List.length_append, ih fun r hr => h r (by omega),
      List.flatMap_singleton, h m (by omega), Nat.succ_mul]

/-- Files in parts of equal length. -/
theorem filesThisRank_parts {α : Type} (n k : Nat) (hk : 0 < k) (part : Nat → List α) (rest : List α)
    (hl : ∀ r ≤ n, (part r).length = k) (hr : rest.length < n + 1) (r : Nat) (h : r ≤ n) :
    filesThisRank ((List.range (n + 1)).flatMap part ++ rest) r (n + 1) = part r := by
  have len : ∀ m, m ≤ n + 1 → ((List.range m).flatMap part).length = m * k := fun m hm =>
    length_flatMap_const part k m fun r hr => hl r (by omega)
  rw [filesThisRank_eq, List.length_append, len (n + 1) (le_refl _), Nat.mul_add_div (by omega),
    Nat.div_eq_of_lt hr, Nat.add_zero, Nat.max_eq_right hk]
  have e : (List.range (n + 1)).flatMap part ++ rest = (List.range r).flatMap part ++ (part r ++
      (((List.range (n + 1)).drop (r + 1)).flatMap part ++ rest)) := by
    have : List.range (n + 1) = List.range r ++ (r :: (List.range (n + 1)).drop (r + 1)) := by
      conv_lhs => rw [← List.take_append_drop r (List.range (n + 1))]
      rw [List.take_range, Nat.min_eq_left (by omega), List.drop_eq_getElem_cons (by simp; omega), List.getElem_range]
    conv_lhs => rw [this]
    simp [List.append_assoc]
  rw [e, List.drop_left' (by rw [len r (by omega), Nat.mul_comm]), List.take_left' (hl r h)]

/-! ### Statistics -/

section
variable {n : Nat} {c : VarCfg K} [FloorRing K] [IsStrictOrderedRing K]

/-- The object of a rank after all its deltas are added. -/
def rankObj (c : VarCfg K) (h : 0 < n) (N : Nat) (l : Nat → List (List (VPix K))) (r : Nat) : VarLss K n c :=
  ((VarLss.new c h r (N + 1)).addList (l r)).1

omit [IsStrictOrderedRing K] in
theorem rankObjs_range (h : 0 < n) (N : Nat) (l : Nat → List (List (VPix K))) :
    rankObjs c h ((List.range (N + 1)).map l) = (List.range (N + 1)).map (rankObj c h N l) := by
  unfold rankObjs rankObj
  rw [List.length_map, List.length_range, List.zipIdx_map, List.map_map]
  have : (List.range (N + 1)).zipIdx = (List.range (N + 1)).map (fun r => (r, r)) := by
    refine List.ext_getElem? fun i => ?_
    simp only [List.getElem?_zipIdx, List.getElem?_map]
    by_cases hi : i < N + 1
    · simp [hi]
    · rw [List.getElem?_eq_none (by simpa using hi)]
      rfl
  rw [this, List.map_map]
  rfl

/-- The sums of all ranks. -/
def rankSums (c : VarCfg K) (h : 0 < n) (N : Nat) (l : Nat → List (List (VPix K))) : VarSums K n c :=
  VarSums.total ((List.range (N + 1)).map (fun r => (rankObj c h N l r).sums))

/-- The object of a rank with the statistics. -/
def rankStats (c : VarCfg K) (h : 0 < n) (eps : K) (uc : Bool) (N : Nat) (l : Nat → List (List (VPix K))) (r : Nat) :
    VarLss K n c := (((rankObj c h N l r).withSums (rankSums c h N l)).finish eps uc).1

theorem rankObj_fresh (hc : GoodBins c) (h : 0 < n) (N : Nat) (l : Nat → List (List (VPix K))) (r : Nat) (hr : r ≤ N) :
    (rankObj c h N l r).sub.mean = none ∧ (rankObj c h N l r).sub.normalized = false ∧
      (rankObj c h N l r).calculated = false := by
  obtain ⟨o1, -, -, -⟩ := rankObjs_ok (n := n) hc.length h ((List.range (N + 1)).map l).zipIdx (N + 1)
  refine o1 _ ?_
  have e := rankObjs_range (c := c) h N l
  unfold rankObjs at e
  rw [List.length_map, List.length_range] at e
  rw [e]
  exact List.mem_map_of_mem (List.mem_range.mpr (by omega))

theorem rankStats_mem (hc : GoodBins c) (h : 0 < n) (eps : K) (uc : Bool) (N : Nat) (l : Nat → List (List (VPix K)))
    (r : Nat) (hr : r ≤ N) :
    ((rankObj c h N l r).withSums (rankSums c h N l)).finish eps uc = (rankStats c h eps uc N l r, none) ∧
    (rankStats c h eps uc N l r, none) ∈ VarLss.calculate eps uc (rankObjs c h ((List.range (N + 1)).map l)) := by
  have hf := rankObj_fresh hc h N l r hr
  obtain ⟨t, -, f1, -⟩ := finish_fresh eps uc (s := (rankObj c h N l r).withSums (rankSums c h N l)) hf.1
  have e : ((rankObj c h N l r).withSums (rankSums c h N l)).finish eps uc = (rankStats c h eps uc N l r, none) := by
    unfold rankStats
    rw [f1]
  refine ⟨e, ?_⟩
  rw [← e]
  unfold VarLss.calculate
  rw [rankObjs_range, if_neg]
  · rw [allreduce_eq]
    refine List.mem_map_of_mem (List.mem_map.mpr ⟨rankObj c h N l r, ?_, ?_⟩)
    · exact List.mem_map_of_mem (List.mem_range.mpr (by omega))
    · unfold VarLss.withSums rankSums VarSums.total VarLss.sums
      simp only [List.map_map, Function.comp_def]
  · rw [List.range_succ_eq_map]
    simp [(rankObj_fresh hc h N l 0 (by omega)).2.2]

/-- The statistics are the same on all ranks. -/
theorem rankStats_same (hc : GoodBins c) (h : 0 < n) (eps : K) (uc : Bool) (N : Nat) (l : Nat → List (List (VPix K)))
    (r : Nat) (hr : r ≤ N) :
    (rankStats c h eps uc N l r).numPix = (rankStats c h eps uc N l 0).numPix ∧
    (rankStats c h eps uc N l r).numQso = (rankStats c h eps uc N l 0).numQso ∧
    (rankStats c h eps uc N l r).sub.mean = (rankStats c h eps uc N l 0).sub.mean ∧
    (rankStats c h eps uc N l r).sub.variance = (rankStats c h eps uc N l 0).sub.variance ∧
    (uc = true → (rankStats c h eps uc N l r).sub.covariance = (rankStats c h eps uc N l 0).sub.covariance) :=
  finish_same eps uc rfl rfl rfl rfl (rankObj_fresh hc h N l r hr).1 (rankObj_fresh hc h N l 0 (by omega)).1
    (rankObj_fresh hc h N l r hr).2.1 (rankObj_fresh hc h N l 0 (by omega)).2.1

omit [FloorRing K] [IsStrictOrderedRing K] [LinearOrder K] in
theorem writeTable_same (sqrt : K → K) {uc : Bool} {T T' : VarLss K n c} (key : T.numPix = T'.numPix ∧
    T.numQso = T'.numQso ∧ T.sub.mean = T'.sub.mean ∧ T.sub.variance = T'.sub.variance ∧
    (uc = true → T.sub.covariance = T'.sub.covariance)) : writeTable sqrt uc T = writeTable sqrt uc T' := by
  obtain ⟨k1, k2, k3, k4, k5⟩ := key
  unfold writeTable
  cases uc with
  | false =>
    simp only [VarLss.meanRow, VarLss.errRow, VarLss.numPixels, VarLss.numQsos, k1, k2, k3, k4]
    rfl
  | true =>
    simp only [VarLss.meanRow, VarLss.errRow, VarLss.numPixels, VarLss.numQsos, k1, k2, k3, k4, covTable,
      VarLss.covVarDelta, k5 rfl]

theorem sync_stats {V W : Type} (hc : GoodBins c) (h : 0 < n) (eps : K) (uc : Bool) (cv : Codec (VarSums K n c) V)
    (N : Nat) (l : Nat → List (List (VPix K))) :
    Sync N (fun r => ((rankObj c h N l r).statsProg eps uc cv : Prog V W _))
      (fun r => .ok (rankStats c h eps uc N l r)) (fun _ => []) := by
  have h1 : Sync N (fun r => (.allreduce (fun v => cv.enc (VarSums.total (v.map cv.dec)))
      (cv.enc (rankObj c h N l r).sums) fun v =>
        VarLss.orRaise (((rankObj c h N l r).withSums (cv.dec v)).finish eps uc) : Prog V W _))
      (fun r => .ok (rankStats c h eps uc N l r)) (fun _ => []) := by
    refine sync_allreduce (fun _ => _) _ ?_
    have e : ((List.range (N + 1)).map (fun r => cv.enc (rankObj c h N l r).sums)).map cv.dec =
        (List.range (N + 1)).map (fun r => (rankObj c h N l r).sums) := by
      rw [List.map_map]
      refine List.map_congr_left fun r _ => cv.dec_enc _
    rw [e]
    refine (sync_ret N (fun r => rankStats c h eps uc N l r)).congr (fun r hr => ?_) (fun _ _ => rfl) (fun _ _ => rfl)
    rw [cv.dec_enc]
    have := (rankStats_mem hc h eps uc N l r hr).1
    unfold rankSums at this
    rw [this]
    rfl
  refine h1.congr (fun r hr => ?_) (fun _ _ => rfl) (fun _ _ => rfl)
  unfold VarLss.statsProg
  rw [(rankObj_fresh hc h N l r hr).2.2]
  rfl

end

/-! ### The fit and the table -/

section
variable [IsStrictOrderedRing K]

omit [IsStrictOrderedRing K] in
theorem fitArgs_table (C : CalibCfg K) (s : VarLss K C.nsub C.var) (hm : s.sub.mean ≠ none) (hv : s.sub.variance ≠ none)
    (t : VarTable K) (ht : writeTable C.sqrt C.useCov s = .ok t) (iw : Nat) (hw : iw < C.var.nw) :
    s.fitArgs C.minPix C.minQso C.sqrt C.cholesky C.useCov iw = rowsFitted C t iw := by
  obtain ⟨m, em⟩ := Option.ne_none_iff_exists'.mp hm
  obtain ⟨v, ev⟩ := Option.ne_none_iff_exists'.mp hv
  have et : t = { wave := repeatWave C.var, varPipe := VarLss.valid C.var (m 3)
                  eVarPipe := (VarLss.valid C.var (v 3)).map C.sqrt, varDelta := VarLss.valid C.var (m 1)
                  eVarDelta := (VarLss.valid C.var (v 1)).map C.sqrt, meanDelta := VarLss.valid C.var (m 0)
                  var2Delta := VarLss.valid C.var (m 2), numPixels := s.numPixels, numQso := s.numQsos
                  cov := if C.useCov then some (covTable s) else none } := by
    unfold writeTable VarLss.meanRow VarLss.errRow at ht
    rw [em, ev] at ht
    exact (Except.ok.inj ht).symm
  have hle : ∀ iv < C.var.nv, iw * C.var.nv + iv < C.var.nw * C.var.nv := by
    intro iv hiv
    have h1 : (iw + 1) * C.var.nv ≤ C.var.nw * C.var.nv := Nat.mul_le_mul_right _ hw
    rw [Nat.succ_mul] at h1
    omega
  rw [C51_used C.minPix C.minQso C.sqrt C.cholesky C.useCov s hm hv hw]
  have hb : ∀ p q, binsWith C.var s iw p q = rowsWith C t iw p q := by
    intro p q
    unfold binsWith rowsWith
    rw [et]
    simp only [List.getD_eq_getElem?_getD]
  have hd : ∀ u : List Nat, (∀ x ∈ u, x < C.var.nv) →
      fitData C.sqrt C.cholesky C.useCov s iw u = rowsData C t iw u := by
    intro u hu
    have hcov : C.useCov = true → u.map (fun a => u.map (fun b => s.covVarDelta iw a b)) = rowsCov C t iw u := by
      intro huc
      unfold rowsCov
      refine List.map_congr_left fun a ha => List.map_congr_left fun b hb => ?_
      rw [et]
      simp only [huc, if_true, Option.getD_some, List.getD_eq_getElem?_getD]
      have e1 : (iw * C.var.nv + a) / C.var.nv = iw := by
        rw [Nat.mul_comm, Nat.mul_add_div (by have := hu a ha; omega), Nat.div_eq_of_lt (hu a ha)]
        rfl
      have e2 : (iw * C.var.nv + a) % C.var.nv = a := by
        rw [Nat.mul_comm, Nat.mul_add_mod, Nat.mod_eq_of_lt (hu a ha)]
      unfold covTable
      rw [List.getElem?_map, List.getElem?_range (hle a (hu a ha))]
      simp only [Option.map_some, Option.getD_some, e1, e2]
      rw [List.getElem?_map, List.getElem?_range (hu b hb)]
      rfl
    have hsig : (if C.useCov && C.cholesky (u.map (fun a => u.map (fun b => s.covVarDelta iw a b))) then
        VarLss.Sigma.matrix (u.map (fun a => u.map (fun b => s.covVarDelta iw a b)))
        else .errors (u.map (fun iv => C.sqrt (((s.errRow 1).getD [])[iw * C.var.nv + iv]?.getD 0)))) =
        rowsSigma C t iw u := by
      have herr : u.map (fun iv => C.sqrt (((s.errRow 1).getD [])[iw * C.var.nv + iv]?.getD 0)) =
          u.map (fun iv => t.eVarDelta.getD (iw * C.var.nv + iv) 0) := by
        refine List.map_congr_left fun a ha => ?_
        rw [et]
        unfold VarLss.errRow
        rw [ev]
        have hlt : iw * C.var.nv + a < (VarLss.valid C.var (v 1)).length := by
          rw [valid_length]; exact hle a (hu a ha)
        simp [List.getD_eq_getElem?_getD, List.getElem?_eq_getElem hlt]
      unfold rowsSigma
      rw [herr]
      by_cases huc : C.useCov = true
      · rw [hcov huc]
      · rw [Bool.not_eq_true] at huc
        rw [huc]
        rfl
    unfold fitData rowsData
    rw [hsig]
    rw [et]
    unfold VarLss.meanRow
    rw [em]
    simp only [Option.map_some, Option.getD_some, List.getD_eq_getElem?_getD]
  have hmem : ∀ p q, ∀ x ∈ rowsWith C t iw p q, x < C.var.nv := by
    intro p q x hx
    exact List.mem_range.mp (List.mem_filter.mp hx).1
  unfold rowsFitted
  rw [hb, hb, hd _ (hmem _ _), hd _ (hmem _ _)]

open Classical in
theorem fit_table (C : CalibCfg K) (hn : 0 < C.var.nw) (s : VarLss K C.nsub C.var) (hm : s.sub.mean ≠ none)
    (hv : s.sub.variance ≠ none) (t : VarTable K) (ht : writeTable C.sqrt C.useCov s = .ok t) :
    C.fitStats s = if FitFails C t then .error .qsonic
      else .ok (C.smooth (fitValues C t).1 (fitValues C t).2, (fitValues C t).2) := by
  have hshape : VarLss.shapeOk C.var.nw (List.replicate C.var.nw [(1 : K) / 10, 1]) = true := by
    unfold VarLss.shapeOk
    simp
  have hres : (List.replicate C.var.nw [(1 : K) / 10, 1]).zipIdx.map (fun g =>
      (g.1, VarLss.fitBin C.curveFit (s.fitArgs C.minPix C.minQso C.sqrt C.cholesky C.useCov g.2) g.1)) =
      (List.range C.var.nw).map (fun iw => ([(1 : K) / 10, 1],
        (rowsFitted C t iw).bind (fun a => C.curveFit a [1 / 10, 1]))) := by
    refine List.ext_getElem? fun i => ?_
    by_cases hi : i < C.var.nw
    · rw [List.getElem?_map, List.getElem?_map, List.getElem?_range hi, List.getElem?_zipIdx,
        List.getElem?_replicate, if_pos hi]
      simp only [Option.map_some, Nat.zero_add]
      rw [fitArgs_table C s hm hv t ht i hi]
      rfl
    · rw [List.getElem?_eq_none (by simpa using hi), List.getElem?_eq_none (by simpa using hi)]
  unfold CalibCfg.fitStats VarLss.fit
  rw [if_pos hshape]
  dsimp only
  rw [hres, if_neg (by omega)]
  have hcount : ((List.range C.var.nw).map (fun iw => ([(1 : K) / 10, 1],
      (rowsFitted C t iw).bind (fun a => C.curveFit a [1 / 10, 1])))).countP (fun r => r.2.isNone) =
      (binFits C t).countP (fun r => r.isNone) := by
    unfold binFits
    rw [List.countP_map, List.countP_map]
    rfl
  have hpos : (0 : K) < C.var.nw := by exact_mod_cast hn
  have hiff : (4 / 10 : K) < ((binFits C t).countP (fun r => r.isNone) : Nat) / (C.var.nw : K) ↔ FitFails C t := by
    unfold FitFails
    generalize (binFits C t).countP (fun r => r.isNone) = k
    rw [lt_div_iff₀ hpos]
    constructor
    · intro h
      have : (2 * C.var.nw : K) < 5 * k := by linarith
      exact_mod_cast this
    · intro h
      have : (2 * C.var.nw : K) < 5 * k := by exact_mod_cast h
      linarith
  rw [hcount]
  by_cases hF : FitFails C t
  · rw [if_pos (hiff.mpr hF), if_pos hF]
  · rw [if_neg (fun h => hF (hiff.mp h)), if_neg hF]
    unfold fitValues binFits
    simp only [List.map_map, Function.comp_def, List.map_cons, List.map_nil]

end

section
variable [FloorRing K] [IsStrictOrderedRing K]

/-- The table of all ranks. -/
theorem stats_table (C : CalibCfg K) (hc : GoodBins C.var) (N : Nat) (l : Nat → List (CalDelta K)) :
    ∃ t, StatsOf C.var ((List.range (N + 1)).flatMap l) t ∧ (t.cov.isSome = C.useCov) ∧ ∀ r ≤ N,
      writeTable C.sqrt C.useCov (rankStats C.var C.nsub_pos C.eps C.useCov N (fun r => (l r).map CalDelta.vpix) r) =
        .ok t ∧
      (rankStats C.var C.nsub_pos C.eps C.useCov N (fun r => (l r).map CalDelta.vpix) r).sub.mean ≠ none ∧
      (rankStats C.var C.nsub_pos C.eps C.useCov N (fun r => (l r).map CalDelta.vpix) r).sub.variance ≠ none := by
  have hmem := fun r hr => (rankStats_mem hc C.nsub_pos C.eps C.useCov N (fun r => (l r).map CalDelta.vpix) r hr).2
  have hsame := rankStats_same hc C.nsub_pos C.eps C.useCov N (fun r => (l r).map CalDelta.vpix)
  obtain ⟨t, t0, t1, t2, t3, t4, t5, t6, t7, t8, t9, t10, -, t12⟩ := C84_rows C.sqrt hc C.nsub_pos C.eps C.useCov _ _
    (hmem 0 (by omega))
  obtain ⟨-, -, -, mean, hmean, -⟩ := calculate_stats hc.length C.nsub_pos C.eps C.useCov _ _ (hmem 0 (by omega))
  have hvar := calculate_variance hc.length C.nsub_pos C.eps C.useCov _ _ (hmem 0 (by omega))
  have e1 : ((List.range (N + 1)).map (fun r => (l r).map CalDelta.vpix)).flatten =
      ((List.range (N + 1)).flatMap l).map deltaPixels := by
    rw [List.map_flatMap, List.flatMap]
    rfl
  refine ⟨t, ⟨⟨t1, t2, t3, t4, t5, t6, t7, t8, t9⟩, ?_⟩, t10, fun r hr => ⟨?_, ?_, ?_⟩⟩
  · intro iw iv hw hv
    have := t12 iw iv hw hv
    rw [e1] at this
    dsimp only at this ⊢
    rw [List.flatMap] 
    obtain ⟨a1, a2, a3, a4, a5, a6, a7, -⟩ := this
    exact ⟨a1, a2, a3, a4, a5, a6, a7⟩
  · rw [writeTable_same C.sqrt (hsame r hr)]
    exact t0
  · rw [(hsame r hr).2.2.1, hmean]
    simp
  · rw [(hsame r hr).2.2.2.1]
    exact hvar

end
end Verif.Proofs
