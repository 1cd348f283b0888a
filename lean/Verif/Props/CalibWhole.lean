import Verif.Proofs.CalibWhole
import Verif.Props.Masks

/-!
# C105: the file of `qsonic-calib`
-/

namespace Verif.Props
open Verif Verif.Np Verif.Model Verif.Model.Prog Verif.Spec Verif.Proofs

variable {K : Type} [Field K] [LinearOrder K]

/-- The input can be read: the list of targets and the catalog on the root if they are given (the catalog with the columns
of BALs if these are to be removed), the names of the delta files on the root, and the delta files on every rank. -/
structure CalibReads (C : CalibCfg K) (N : Nat) (inp : Nat → CalibIn K) (ids : List Int)
    (rows : Option (List (CalRow K))) (files : List String) (data : String → List (CalDelta K)) : Prop where
  ids : if C.removeList then (inp 0).ids = .ok ids else ids = []
  cat : if C.catalog then ∃ l, (inp 0).cat = .ok l ∧ rows = some l else rows = none
  bal : C.catalog = true → C.removeBal = true → "VMIN_CIV_450" ∈ C.cols ∧ "VMAX_CIV_450" ∈ C.cols ∧
    "VMIN_CIV_2000" ∈ C.cols ∧ "VMAX_CIV_2000" ∈ C.cols
  glob : (inp 0).glob = .ok files
  read : ∀ r ≤ N, ∀ f ∈ files, (inp r).read f = .ok (data f)

/-- The number of files whose reading is announced: list of targets, catalog, names of the delta files. -/
def calibCalls (C : CalibCfg K) : Nat := (if C.removeList then 1 else 0) + (if C.catalog then 1 else 0) + 1

/-- The grid of the stack. -/
def stackGrid (w1 dw : K) (m : Nat) : List K := (List.range (m + 2)).map (fun j : Nat => w1 + (j : K) * dw)

/-- The stack of these deltas. -/
def stackOf (w1 dw : K) (m : Nat) (l : List (CalDelta K)) : List K :=
  (List.range (m + 2)).map (fun j => weightedFlux (pixelsAt w1 dw j l))

/-- The file with its tables, from opening to closing. -/
def calibFile (C : CalibCfg K) (fname : String) (t : VarTable K) (grid flux : List K) : List (SaverEv (CalHdu K)) :=
  [.create fname, .write fname (.stats t),
    .write fname (.func ((List.range C.var.nw).map (fun iw : Nat =>
        C.var.w1 + ((iw : K) + 1 / 2) * ((C.var.w2 - C.var.w1) / C.var.nw)))
      (C.smooth (fitValues C t).1 (fitValues C t).2) (fitValues C t).2),
    .write fname (.stack grid flux), .close fname]

section
variable [FloorRing K] [IsStrictOrderedRing K] {V W : Type}

omit [FloorRing K] [IsStrictOrderedRing K] in
theorem sync_listedIds (C : CalibCfg K) (c : CalibCodecs K C.nsub C.var V) (called : W) {N : Nat} {inp : Nat → CalibIn K}
    {ids : List Int} (h : if C.removeList then (inp 0).ids = .ok ids else ids = []) :
    Sync N (fun r => C.listedIds c called (inp r) r) (fun _ => .ok ids)
      (fun r => if r = 0 then List.replicate (if C.removeList then 1 else 0) called else []) := by
  unfold CalibCfg.listedIds
  by_cases hr : C.removeList = true
  · rw [if_pos hr] at h
    simp only [hr, if_true]
    exact sync_fncBcast (W := W) N c.ids called (fun r => (inp r).ids) h
  · rw [if_neg hr] at h
    rw [Bool.not_eq_true] at hr
    subst h
    simp only [hr, Bool.false_eq_true, if_false, List.replicate_zero, ite_self]
    exact sync_ret N _

omit [FloorRing K] [IsStrictOrderedRing K] in
theorem sync_readCat (C : CalibCfg K) (c : CalibCodecs K C.nsub C.var V) (called : W) {N : Nat} {inp : Nat → CalibIn K}
    {rows : Option (List (CalRow K))}
    (h : if C.catalog then ∃ l, (inp 0).cat = .ok l ∧ rows = some l else rows = none) :
    Sync N (fun r => C.readCat c called (inp r) r) (fun _ => .ok rows)
      (fun r => if r = 0 then List.replicate (if C.catalog then 1 else 0) called else []) := by
  unfold CalibCfg.readCat
  by_cases hr : C.catalog = true
  · rw [if_pos hr] at h
    obtain ⟨l, h1, rfl⟩ := h
    simp only [hr, if_true]
    have h2 := (sync_fncBcast (W := W) N c.cat called (fun r => (inp r).cat) h1).bind
      (f := fun _ l => (.ret (some l) : Prog V W _)) (sync_ret N (fun _ => some l))
    refine h2.congr (fun _ _ => rfl) (fun _ _ => rfl) (fun r _ => ?_)
    rw [List.append_nil]
    rfl
  · rw [if_neg hr] at h
    rw [Bool.not_eq_true] at hr
    subst h
    simp only [hr, Bool.false_eq_true, if_false, List.replicate_zero, ite_self]
    exact sync_ret N _

omit [FloorRing K] [IsStrictOrderedRing K] in
theorem balColumns_ok (C : CalibCfg K) (h : C.catalog = true → C.removeBal = true → "VMIN_CIV_450" ∈ C.cols ∧
    "VMAX_CIV_450" ∈ C.cols ∧ "VMIN_CIV_2000" ∈ C.cols ∧ "VMAX_CIV_2000" ∈ C.cols) : C.balColumns = .ok () := by
  unfold CalibCfg.balColumns
  by_cases hb : (C.catalog && C.removeBal) = true
  · rw [if_pos hb]
    rw [Bool.and_eq_true] at hb
    obtain ⟨a, b, d, e⟩ := h hb.1 hb.2
    unfold balCheckCatalog
    rw [if_pos]
    simp [a, b, d, e]
  · rw [if_neg hb]

omit [FloorRing K] [IsStrictOrderedRing K] in
theorem sync_readAll (c : Codec (Option (List String)) V) (called : W) {N k : Nat} (hk : 0 < k)
    {inp : Nat → CalibIn K} {part : Nat → List String} {rest : List String} (hl : ∀ r ≤ N, (part r).length = k)
    (hrest : rest.length < N + 1) (hg : (inp 0).glob = .ok ((List.range (N + 1)).flatMap part ++ rest))
    {data : String → List (CalDelta K)}
    (hd : ∀ r ≤ N, ∀ f ∈ (List.range (N + 1)).flatMap part ++ rest, (inp r).read f = .ok (data f)) :
    Sync N (fun r => readAllDeltas c called (inp r).glob (inp r).read r (N + 1)) (fun r => .ok ((part r).map data))
      (fun r => if r = 0 then [called] else []) := by
  have h1 := sync_fncBcast (W := W) N c called (fun r => (inp r).glob) hg
  have h2 := h1.bind (f := fun r fs => (ofExcept ((filesThisRank fs r (N + 1)).mapM (inp r).read) : Prog V W _))
    (y := fun r => .ok ((part r).map data)) (N := fun _ => []) (sync_ofExcept_eq (fun r hr => by
      rw [filesThisRank_parts N k hk part rest hl hrest r hr]
      refine mapM_eq_ok fun f hf => hd r hr f ?_
      exact List.mem_append_left _ (List.mem_flatMap.mpr ⟨r, List.mem_range.mpr (by omega), hf⟩)))
  refine h2.congr (fun _ _ => rfl) (fun _ _ => rfl) (fun r _ => ?_)
  rw [List.append_nil]

theorem sync_addKept (C : CalibCfg K) (hc : GoodBins C.var) (N : Nat) (L : Nat → List (CalDelta K)) :
    Sync N (fun r => (C.addKept (N + 1) r (L r) : Prog V W _))
      (fun r => .ok (rankObj C.var C.nsub_pos N (fun r => (L r).map CalDelta.vpix) r)) (fun _ => []) := by
  refine (sync_ret N _).congr (fun r _ => ?_) (fun _ _ => rfl) (fun _ _ => rfl)
  obtain ⟨t, h1, -⟩ := addList_ok hc.length ((L r).map CalDelta.vpix) (VarLss.new C.var C.nsub_pos r (N + 1)) rfl
  unfold CalibCfg.addKept rankObj
  rw [h1]
  rfl

open Classical in
/-- The whole run in step. -/
theorem sync_calib (C : CalibCfg K) (c : CalibCodecs K C.nsub C.var V) (hc : GoodBins C.var) (called : W)
    (ev : SaverEv (CalHdu K) → W) {fname : String} (hf : fname ≠ "") {N k : Nat} (hk : 0 < k) {inp : Nat → CalibIn K}
    {ids : List Int} {rows : Option (List (CalRow K))} {part : Nat → List String} {rest : List String}
    {data : String → List (CalDelta K)} (hl : ∀ r ≤ N, (part r).length = k) (hrest : rest.length < N + 1)
    (hread : CalibReads C N inp ids rows ((List.range (N + 1)).flatMap part ++ rest) data)
    {dw : K} (hdw : 0 < dw) {m : Nat} (hm : C.var.w2 - C.var.w1 = ((m + 1 : Nat) : K) * dw)
    (hne : ∀ r ≤ N, calUsed C ids rows ((part r).flatMap data) ≠ [])
    (hg : ∀ r ≤ N, ∀ d ∈ calUsed C ids rows ((part r).flatMap data), d.dwave = dw ∧ OnGrid C.var.w1 dw d) :
    ∃ t, StatsOf C.var (calUsed C ids rows (((List.range (N + 1)).flatMap part).flatMap data)) t ∧
      t.cov.isSome = C.useCov ∧
      Sync N (fun r => C.run c called ev fname (inp r) (N + 1) r)
        (fun r => if FitFails C t then .error .qsonic else .ok
          { kept := calUsed C ids rows ((part r).flatMap data)
            table := t
            fit := (C.smooth (fitValues C t).1 (fitValues C t).2, (fitValues C t).2)
            stack := (stackGrid C.var.w1 dw m, stackOf C.var.w1 dw m
              (calUsed C ids rows (((List.range (N + 1)).flatMap part).flatMap data))) })
        (fun r => if r = 0 then List.replicate (calibCalls C) called ++
          (if FitFails C t then [] else (calibFile C fname t (stackGrid C.var.w1 dw m) (stackOf C.var.w1 dw m
              (calUsed C ids rows (((List.range (N + 1)).flatMap part).flatMap data)))).map ev) else []) := by
  have hall : calUsed C ids rows (((List.range (N + 1)).flatMap part).flatMap data) =
      (List.range (N + 1)).flatMap (fun r => calUsed C ids rows ((part r).flatMap data)) := by
    unfold calUsed
    rw [List.flatMap_assoc, List.filter_flatMap]
  rw [hall]
  generalize hL : (fun r => calUsed C ids rows ((part r).flatMap data)) = L
  have hLr : ∀ r, calUsed C ids rows ((part r).flatMap data) = L r := fun r => congrFun hL r
  simp only [hLr] at hne hg ⊢
  have hkept : ∀ r, C.kept ids rows ((part r).map data) = L r := by
    intro r
    rw [kept_eq, ← hLr]
    rfl
  obtain ⟨t, ht, hcov, hr⟩ := stats_table C hc N L
  refine ⟨t, ht, hcov, ?_⟩
  obtain ⟨flux, s1, s2, s3⟩ := sync_stackFluxes (W := W) c.arr (w2 := C.var.w2) hdw N L hne
    (fun r hr d hd => (hg r hr d hd).1) (fun r hr d hd => (hg r hr d hd).2)
  have hN : numWave C.var.w1 C.var.w2 dw = m + 2 := by
    unfold numWave
    rw [hm, mul_div_assoc, div_self hdw.ne', mul_one]
    have : truncInt (((m + 1 : Nat) : K)) = ((m + 1 : Nat) : Int) := by
      unfold truncInt
      simp
    rw [this]
    omega
  rw [hN] at s1 s2 s3
  have hgrid : linspace C.var.w1 C.var.w2 (m + 2) = stackGrid C.var.w1 dw m := by
    unfold linspace stackGrid
    refine List.map_congr_left fun j _ => ?_
    have hm0 : ((m + 1 : Nat) : K) ≠ 0 := by exact_mod_cast Nat.succ_ne_zero m
    rw [hm, show m + 2 - 1 = m + 1 from rfl, mul_div_cancel_left₀ _ hm0]
  have hflux : flux = stackOf C.var.w1 dw m ((List.range (N + 1)).flatMap L) := by
    refine List.ext_getElem (by simp [s2, stackOf]) fun j a b => ?_
    have := s3 j (by omega)
    simpa [List.getD_eq_getElem?_getD, a, stackOf] using this
  rw [hgrid, hflux] at s1
  have hcenter : (List.range C.var.nw).map C.var.center = (List.range C.var.nw).map (fun iw : Nat =>
      C.var.w1 + ((iw : K) + 1 / 2) * ((C.var.w2 - C.var.w1) / C.var.nw)) := by
    refine List.map_congr_left fun iw _ => ?_
    unfold VarCfg.center VarCfg.edge VarCfg.dw
    push_cast
    ring
  have hfit : ∀ r ≤ N, C.fitStats (rankStats C.var C.nsub_pos C.eps C.useCov N (fun r => (L r).map CalDelta.vpix) r) =
      if FitFails C t then .error .qsonic
      else .ok (C.smooth (fitValues C t).1 (fitValues C t).2, (fitValues C t).2) := fun r h =>
    fit_table C hc.nw_pos _ (hr r h).2.1 (hr r h).2.2 t (hr r h).1
  -- the part from the fit on
  have hend : Sync N (fun r => ((ofExcept (C.fitStats (rankStats C.var C.nsub_pos C.eps C.useCov N
        (fun r => (L r).map CalDelta.vpix) r))).bind fun fit =>
      (ofExcept (writeTable C.sqrt C.useCov (rankStats C.var C.nsub_pos C.eps C.useCov N
        (fun r => (L r).map CalDelta.vpix) r))).bind fun table =>
      let saver := Saver.init (D := CalHdu K) fname r
      .emits ((saver.1 ++ saver.2.write (CalHdu.stats table) ++
        saver.2.write (CalHdu.func ((List.range C.var.nw).map C.var.center) fit.1 fit.2)).map ev) <|
      (stackFluxes c.arr C.var.w1 C.var.w2 (L r)).bind fun st =>
      .emits ((saver.2.write (CalHdu.stack st.1 st.2) ++ saver.2.close).map ev) <|
      .ret ⟨L r, table, fit, st⟩ : Prog V W (CalibOut K)))
      (fun r => if FitFails C t then .error .qsonic else .ok
          { kept := L r
            table := t
            fit := (C.smooth (fitValues C t).1 (fitValues C t).2, (fitValues C t).2)
            stack := (stackGrid C.var.w1 dw m, stackOf C.var.w1 dw m ((List.range (N + 1)).flatMap L)) })
      (fun r => if r = 0 then (if FitFails C t then [] else (calibFile C fname t (stackGrid C.var.w1 dw m)
        (stackOf C.var.w1 dw m ((List.range (N + 1)).flatMap L))).map ev) else []) := by
    by_cases hF : FitFails C t
    · have h1 : Sync N (fun r => (ofExcept (C.fitStats (rankStats C.var C.nsub_pos C.eps C.useCov N
          (fun r => (L r).map CalDelta.vpix) r)) : Prog V W _)) (fun _ => .error .qsonic) (fun _ => []) :=
        sync_ofExcept_eq fun r h => by rw [hfit r h, if_pos hF]
      refine (h1.bind_error _).congr (fun _ _ => rfl) (fun _ _ => if_pos hF) (fun r _ => ?_)
      rw [if_pos hF, ite_self]
    · have h1 : Sync N (fun r => (ofExcept (C.fitStats (rankStats C.var C.nsub_pos C.eps C.useCov N
          (fun r => (L r).map CalDelta.vpix) r)) : Prog V W _))
          (fun _ => .ok (C.smooth (fitValues C t).1 (fitValues C t).2, (fitValues C t).2)) (fun _ => []) :=
        sync_ofExcept_eq fun r h => by rw [hfit r h, if_neg hF]
      have h2 : Sync N (fun r => (ofExcept (writeTable C.sqrt C.useCov (rankStats C.var C.nsub_pos C.eps C.useCov N
          (fun r => (L r).map CalDelta.vpix) r)) : Prog V W _)) (fun _ => .ok t) (fun _ => []) :=
        sync_ofExcept_eq fun r h => (hr r h).1
      refine (h1.bind (h2.bind (sync_emits _ (s1.bind (sync_emits _ (sync_ret N _)))))).congr (fun _ _ => rfl)
        (fun _ _ => if_neg hF) (fun r _ => ?_)
      rw [if_neg hF]
      by_cases h0 : r = 0
      · subst h0
        simp [Saver.init, Saver.write, Saver.close, hf, calibFile, hcenter]
      · simp [Saver.init, Saver.write, Saver.close, h0]
  have hall2 := (sync_listedIds (W := W) C c called hread.ids).bind (f := fun r listed =>
      (C.readCat c called (inp r) r).bind fun rows =>
      (ofExcept C.balColumns).bind fun _ =>
      (readAllDeltas c.glob called (inp r).glob (inp r).read r (N + 1)).bind fun lists =>
      (C.addKept (N + 1) r (C.kept listed rows lists)).bind fun obj =>
      (obj.statsProg C.eps C.useCov c.sums).bind fun s =>
      (ofExcept (C.fitStats s)).bind fun fit =>
      (ofExcept (writeTable C.sqrt C.useCov s)).bind fun table =>
      let saver := Saver.init (D := CalHdu K) fname r
      .emits ((saver.1 ++ saver.2.write (CalHdu.stats table) ++
        saver.2.write (CalHdu.func ((List.range C.var.nw).map C.var.center) fit.1 fit.2)).map ev) <|
      (stackFluxes c.arr C.var.w1 C.var.w2 (C.kept listed rows lists)).bind fun st =>
      .emits ((saver.2.write (CalHdu.stack st.1 st.2) ++ saver.2.close).map ev) <|
      .ret (CalibOut.mk (C.kept listed rows lists) table fit st))
    ((sync_readCat (W := W) C c called hread.cat).bind
    ((sync_ofExcept_eq (y := fun _ => .ok ()) (fun _ _ => balColumns_ok C hread.bal)).bind
    ((sync_readAll (W := W) c.glob called hk hl hrest hread.glob hread.read).bind (by
      simp only [hkept]
      exact (sync_addKept C hc N L).bind ((sync_stats hc C.nsub_pos C.eps C.useCov c.sums N _).bind hend)))))
  refine hall2.congr (fun _ _ => rfl) (fun _ _ => rfl) (fun r _ => ?_)
  by_cases h0 : r = 0
  · subst h0
    have e : ∀ x : List W, List.replicate (if C.removeList then 1 else 0) called ++
        (List.replicate (if C.catalog then 1 else 0) called ++ ([called] ++ x)) =
        List.replicate (calibCalls C) called ++ x := by
      intro x
      rw [← List.append_assoc, ← List.append_assoc, show [called] = List.replicate 1 called from rfl,
        List.replicate_append_replicate, List.replicate_append_replicate]
      rfl
    simp only [if_true, List.nil_append]
    exact (e _).symm
  · simp [h0]

/-- **C105**, the part that holds (`qsonic-calib`, scripts/qsonic_calib.py:206-259). Full claim: the file has the statistics
and the stack of all deltas that are to be used, on any number of ranks. Proved if every rank has the same number of
files, at least one, and a delta to be used, and for deltas on grids as in `C61_partial`: one table holds the statistics of the
deltas to be used of all ranks. If the fit fails in too many wavelength bins all ranks end with the exception of the package
and no file is created. Otherwise all ranks end with this table, with the fits of its rows and with the weighted mean of
`1 + delta` of all these deltas at every wavelength of the stack; the root alone writes, one file with these three tables, which it
closes. Missing: the files `rest` (fewer than ranks) are read by no rank, and with fewer files than ranks the job
is aborted (`C105_refuted`). -/
theorem C105_partial (C : CalibCfg K) (c : CalibCodecs K C.nsub C.var V) (hc : GoodBins C.var) (called : W)
    (ev : SaverEv (CalHdu K) → W) {fname : String} (hf : fname ≠ "") {N k : Nat} (hk : 0 < k) {inp : Nat → CalibIn K}
    {ids : List Int} {rows : Option (List (CalRow K))} {part : Nat → List String} {rest : List String}
    {data : String → List (CalDelta K)} (hl : ∀ r ≤ N, (part r).length = k) (hrest : rest.length < N + 1)
    (hread : CalibReads C N inp ids rows ((List.range (N + 1)).flatMap part ++ rest) data)
    {dw : K} (hdw : 0 < dw) {m : Nat} (hm : C.var.w2 - C.var.w1 = ((m + 1 : Nat) : K) * dw)
    (hne : ∀ r ≤ N, calUsed C ids rows ((part r).flatMap data) ≠ [])
    (hg : ∀ r ≤ N, ∀ d ∈ calUsed C ids rows ((part r).flatMap data), d.dwave = dw ∧ OnGrid C.var.w1 dw d) :
    ∃ used, used = calUsed C ids rows (((List.range (N + 1)).flatMap part).flatMap data) ∧
    ∃ t, StatsOf C.var used t ∧ t.cov.isSome = C.useCov ∧
      (FitFails C t → runJob N (fun r => C.run c called ev fname (inp r) (N + 1) r) =
        (.done ((List.range (N + 1)).map (fun _ => .error .qsonic)),
          (List.range (N + 1)).map (fun r => if r = 0 then List.replicate (calibCalls C) called else []))) ∧
      (¬ FitFails C t → runJob N (fun r => C.run c called ev fname (inp r) (N + 1) r) =
        (.done ((List.range (N + 1)).map (fun r => .ok
          { kept := calUsed C ids rows ((part r).flatMap data)
            table := t
            fit := (C.smooth (fitValues C t).1 (fitValues C t).2, (fitValues C t).2)
            stack := (stackGrid C.var.w1 dw m, stackOf C.var.w1 dw m used) })),
          (List.range (N + 1)).map (fun r => if r = 0 then List.replicate (calibCalls C) called ++
            (calibFile C fname t (stackGrid C.var.w1 dw m) (stackOf C.var.w1 dw m used)).map ev else []))) := by
  obtain ⟨t, h1, h2, h3⟩ := sync_calib C c hc called ev hf hk hl hrest hread hdw hm hne hg
  refine ⟨_, rfl, t, h1, h2, fun hF => ?_, fun hF => ?_⟩
  · rw [h3.job]
    simp only [if_pos hF, List.append_nil]
  · rw [h3.job]
    simp only [if_neg hF]

/-! ### Number of ranks -/

omit [FloorRing K] [IsStrictOrderedRing K] in
theorem StatsOf.perm {c : VarCfg K} {l l' : List (CalDelta K)} (h : l.Perm l') {t : VarTable K} (ht : StatsOf c l t) :
    StatsOf c l' t := by
  refine ⟨ht.len, fun iw iv hw hv => ?_⟩
  have h1 : (inBin c iw iv (l.flatMap deltaPixels)).Perm (inBin c iw iv (l'.flatMap deltaPixels)) := by
    classical
    exact (h.flatMap_right _).filter _
  have h2 : spectraIn c iw iv (l.map deltaPixels) = spectraIn c iw iv (l'.map deltaPixels) := by
    classical
    exact (h.map _).countP_eq _
  have hs : ∀ f : VPix K → K, ((inBin c iw iv (l.flatMap deltaPixels)).map f).sum =
      ((inBin c iw iv (l'.flatMap deltaPixels)).map f).sum := fun f => (h1.map f).sum_eq
  have := ht.row iw iv hw hv
  dsimp only at this ⊢
  simp only [hs, h1.length_eq, h2] at this
  exact this

omit [FloorRing K] [IsStrictOrderedRing K] in
theorem StatsOf.unique {c : VarCfg K} {l : List (CalDelta K)} {t t' : VarTable K} (h : StatsOf c l t)
    (h' : StatsOf c l t') : t.wave = t'.wave ∧ t.numPixels = t'.numPixels ∧ t.numQso = t'.numQso ∧
      t.meanDelta = t'.meanDelta ∧ t.varPipe = t'.varPipe ∧ t.varDelta = t'.varDelta ∧ t.var2Delta = t'.var2Delta := by
  have key : ∀ {α : Type} {a b : List α}, a.length = c.nw * c.nv → b.length = c.nw * c.nv →
      (∀ iw iv, iw < c.nw → iv < c.nv → a[iw * c.nv + iv]? = b[iw * c.nv + iv]?) → a = b := by
    intro α a b ha hb hab
    refine List.ext_getElem? fun i => ?_
    by_cases hi : i < c.nw * c.nv
    · have hv : 0 < c.nv := Nat.pos_of_ne_zero fun h0 => by rw [h0] at hi; simp at hi
      have := hab (i / c.nv) (i % c.nv) (Nat.div_lt_of_lt_mul (by rwa [Nat.mul_comm] at hi)) (Nat.mod_lt _ hv)
      rwa [Nat.div_add_mod'] at this
    · rw [List.getElem?_eq_none (by omega), List.getElem?_eq_none (by omega)]
  obtain ⟨a1, a2, -, a4, -, a6, a7, a8, a9⟩ := h.len
  obtain ⟨b1, b2, -, b4, -, b6, b7, b8, b9⟩ := h'.len
  have R := h.row
  have R' := h'.row
  refine ⟨key a1 b1 ?_, key a8 b8 ?_, key a9 b9 ?_, key a6 b6 ?_, key a2 b2 ?_, key a4 b4 ?_, key a7 b7 ?_⟩ <;>
    intro iw iv hw hv <;> obtain ⟨c1, c2, c3, c4, c5, c6, c7⟩ := R iw iv hw hv <;>
    obtain ⟨d1, d2, d3, d4, d5, d6, d7⟩ := R' iw iv hw hv
  · rw [c1, d1]
  · rw [c2, d2]
  · rw [c3, d3]
  · rw [c4, d4]
  · rw [c5, d5]
  · rw [c6, d6]
  · rw [c7, d7]

/-- **C105.** The counts and statistics and the stack do not depend on the number of ranks and on the order in which the
files are found, as long as every rank has the same number of files and a delta to be used. (The errors do, as
they come from subsamples that depend on the order.) -/
theorem C105_distribution (C : CalibCfg K) (c : CalibCodecs K C.nsub C.var V) (hc : GoodBins C.var) (called : W)
    (ev : SaverEv (CalHdu K) → W) {fname : String} (hf : fname ≠ "") {ids : List Int} {rows : Option (List (CalRow K))}
    {data : String → List (CalDelta K)} {dw : K} (hdw : 0 < dw) {m : Nat}
    (hm : C.var.w2 - C.var.w1 = ((m + 1 : Nat) : K) * dw)
    {N k N' k' : Nat} (hk : 0 < k) (hk' : 0 < k') {inp inp' : Nat → CalibIn K} {part part' : Nat → List String}
    (hl : ∀ r ≤ N, (part r).length = k) (hl' : ∀ r ≤ N', (part' r).length = k')
    (hread : CalibReads C N inp ids rows ((List.range (N + 1)).flatMap part) data)
    (hread' : CalibReads C N' inp' ids rows ((List.range (N' + 1)).flatMap part') data)
    (hne : ∀ r ≤ N, calUsed C ids rows ((part r).flatMap data) ≠ [])
    (hne' : ∀ r ≤ N', calUsed C ids rows ((part' r).flatMap data) ≠ [])
    (hg : ∀ f ∈ (List.range (N + 1)).flatMap part, ∀ d ∈ data f, d.dwave = dw ∧ OnGrid C.var.w1 dw d)
    (hfiles : ((List.range (N + 1)).flatMap part).Perm ((List.range (N' + 1)).flatMap part'))
    {o o' : CalibOut K} {rs rs' : List (Except Err (CalibOut K))}
    (hj : (runJob N (fun r => C.run c called ev fname (inp r) (N + 1) r)).1 = .done rs) (ho : .ok o ∈ rs)
    (hj' : (runJob N' (fun r => C.run c called ev fname (inp' r) (N' + 1) r)).1 = .done rs') (ho' : .ok o' ∈ rs') :
    o.stack = o'.stack ∧ o.table.wave = o'.table.wave ∧ o.table.numPixels = o'.table.numPixels ∧
      o.table.numQso = o'.table.numQso ∧ o.table.meanDelta = o'.table.meanDelta ∧ o.table.varPipe = o'.table.varPipe ∧
      o.table.varDelta = o'.table.varDelta ∧ o.table.var2Delta = o'.table.var2Delta := by
  have hg1 : ∀ r ≤ N, ∀ d ∈ calUsed C ids rows ((part r).flatMap data), d.dwave = dw ∧ OnGrid C.var.w1 dw d := by
    intro r hr d hd
    obtain ⟨f, hf1, hf2⟩ := List.mem_flatMap.mp (List.mem_filter.mp hd).1
    exact hg f (List.mem_flatMap.mpr ⟨r, List.mem_range.mpr (by omega), hf1⟩) d hf2
  have hg2 : ∀ r ≤ N', ∀ d ∈ calUsed C ids rows ((part' r).flatMap data), d.dwave = dw ∧ OnGrid C.var.w1 dw d := by
    intro r hr d hd
    obtain ⟨f, hf1, hf2⟩ := List.mem_flatMap.mp (List.mem_filter.mp hd).1
    exact hg f (hfiles.mem_iff.mpr (List.mem_flatMap.mpr ⟨r, List.mem_range.mpr (by omega), hf1⟩)) d hf2
  obtain ⟨t, h1, -, h3⟩ := sync_calib C c hc called ev hf hk (rest := []) hl (by simp) (by rwa [List.append_nil]) hdw hm hne
    hg1
  obtain ⟨t', h1', -, h3'⟩ := sync_calib C c hc called ev hf hk' (rest := []) hl' (by simp) (by rwa [List.append_nil]) hdw
    hm hne' hg2
  have hu : (calUsed C ids rows (((List.range (N + 1)).flatMap part).flatMap data)).Perm
      (calUsed C ids rows (((List.range (N' + 1)).flatMap part').flatMap data)) := by
    classical
    exact (hfiles.flatMap_right _).filter _
  rw [h3.job] at hj
  rw [h3'.job] at hj'
  obtain rfl := Outcome.done.inj hj
  obtain rfl := Outcome.done.inj hj'
  obtain ⟨r, -, e⟩ := List.mem_map.mp ho
  obtain ⟨r', -, e'⟩ := List.mem_map.mp ho'
  split at e
  · cases e
  split at e'
  · cases e'
  cases e
  cases e'
  refine ⟨?_, StatsOf.unique (StatsOf.perm hu h1) h1'⟩
  dsimp only
  congr 1
  unfold stackOf
  refine List.map_congr_left fun j _ => ?_
  have hp : (pixelsAt C.var.w1 dw j (calUsed C ids rows (((List.range (N + 1)).flatMap part).flatMap data))).Perm
      (pixelsAt C.var.w1 dw j (calUsed C ids rows (((List.range (N' + 1)).flatMap part').flatMap data))) :=
    (hu.flatMap_right _).filter _
  unfold weightedFlux
  rw [(hp.map (fun p => p.2.2)).sum_eq, (hp.map (fun p => (1 + p.2.1) * p.2.2)).sum_eq]

end

/-! ### Examples -/

/-- Five variance bins and one wavelength bin; target 9 is listed, BALs are removed. -/
def c105Cfg : CalibCfg ℚ where
  var := { w1 := 33 / 4, w2 := 53 / 4, nw := 1, nv := 5, edges := [1 / 2, 3 / 2, 5 / 2, 7 / 2, 9 / 2, 11 / 2] }
  nsub := 2
  nsub_pos := by decide
  useCov := false
  removeList := true
  catalog := true
  cols := ["TARGETID", "VMIN_CIV_450", "VMAX_CIV_450", "VMIN_CIV_2000", "VMAX_CIV_2000"]
  removeBal := true
  keepSurveys := []
  minSnr := 1
  maxSnr := 100
  eps := 0
  minPix := 2
  minQso := 2
  sqrt := id
  cholesky := fun _ => true
  curveFit := fun a _ => some ([a.1.sum, a.2.1.sum], [1, 1])
  smooth := fun y _ => y

/-- A delta of five pixels, one in each bin. -/
def c105Delta (t : Int) (d : ℚ) : CalDelta ℚ :=
  ⟨t, 5, 1, [9, 10, 11, 12, 13], [d, 2 * d, 0, d, -d], [1, 2, 3, 4, 5], [1, 1, 2, 1, 1]⟩

/-- The files. Target 8 has a BAL. -/
def c105Data (f : String) : List (CalDelta ℚ) :=
  if f = "a" then [c105Delta 1 1, c105Delta 9 7] else if f = "b" then [c105Delta 8 7, c105Delta 2 3] else [c105Delta 3 5]

/-- What the ranks read. -/
def c105In (files : List String) : CalibIn ℚ :=
  ⟨.ok [9], .ok [⟨8, "main", [1], [2], [], []⟩, ⟨2, "main", [0], [2], [], []⟩], .ok files, fun f => .ok (c105Data f)⟩

/-- What is exchanged. -/
abbrev C105Msg : Type := Option (List Int) × Option (List (CalRow ℚ)) × Option (List String) ×
  VarSums ℚ c105Cfg.nsub c105Cfg.var × List ℚ

/-- Messages of the example. -/
def c105Codec : CalibCodecs ℚ c105Cfg.nsub c105Cfg.var C105Msg :=
  let z : VarSums ℚ c105Cfg.nsub c105Cfg.var := ⟨fun _ _ _ => 0, fun _ _ => 0, fun _ => 0, fun _ => 0⟩
  ⟨⟨fun x => (x, none, none, z, []), fun x => x.1, fun _ => rfl⟩, ⟨fun x => (none, x, none, z, []), fun x => x.2.1, fun _ => rfl⟩,
    ⟨fun x => (none, none, x, z, []), fun x => x.2.2.1, fun _ => rfl⟩,
    ⟨fun x => (none, none, none, x, []), fun x => x.2.2.2.1, fun _ => rfl⟩,
    ⟨fun x => (none, none, none, z, x), fun x => x.2.2.2.2, fun _ => rfl⟩⟩

/-- The program of a rank. -/
def c105Run (files : List String) (size rank : Nat) : Prog C105Msg (Option (SaverEv (CalHdu ℚ))) (CalibOut ℚ) :=
  c105Cfg.run c105Codec none some "stats.fits" (c105In files) size rank

/-- What is seen of a job: targets used, numbers of pixels, variance of delta, fit and stack. -/
def c105See : Outcome (CalibOut ℚ) → Option (List (List Int × List Nat × List (List ℚ)))
  | .done l => l.mapM (fun
      | .ok o => some (o.kept.map CalDelta.targetid, o.table.numPixels, [o.table.varDelta, o.fit.1.flatten, o.stack.2])
      | .error _ => none)
  | _ => none

/-- The events of the file. -/
def c105File (l : List (Option (SaverEv (CalHdu ℚ)))) : List String :=
  l.filterMap (fun
    | some (.create _) => some "create"
    | some (.write _ (.stats _)) => some "stats"
    | some (.write _ (.func _ _ _)) => some "func"
    | some (.write _ (.stack _ _)) => some "stack"
    | some (.close _) => some "close"
    | none => none)

theorem c105_bins : GoodBins c105Cfg.var := by
  refine ⟨by decide +kernel, by decide, rfl, by decide +kernel, by decide +kernel⟩

theorem c105_grid (t : Int) (d : ℚ) : OnGrid (33 / 4 : ℚ) 1 (c105Delta t d) := by
  refine ⟨3 / 4, 5, ?_, ?_⟩
  swap
  · change ([9, 10, 11, 12, 13] : List ℚ) = _
    decide +kernel
  intro k h
  have h2 : (3 : ℚ) = 4 * k + 2 := by linarith
  have h3 : (3 : Int) = 4 * k + 2 := by exact_mod_cast h2
  omega

/-- The deltas used of a file. -/
theorem c105_used (f : String) : calUsed c105Cfg [9] (some [⟨8, "main", [1], [2], [], []⟩, ⟨2, "main", [0], [2], [], []⟩])
    (c105Data f) = if f = "a" then [c105Delta 1 1] else if f = "b" then [c105Delta 2 3] else [c105Delta 3 5] := by
  have h := kept_eq c105Cfg [9] (some [⟨8, "main", [1], [2], [], []⟩, ⟨2, "main", [0], [2], [], []⟩]) [c105Data f]
  rw [List.flatten_cons, List.flatten_nil, List.append_nil] at h
  rw [← h]
  unfold c105Data
  split
  · rfl
  split
  · rfl
  · rfl

theorem c105_reads (N : Nat) (files : List String) :
    CalibReads c105Cfg N (fun _ => c105In files) [9]
      (some [⟨8, "main", [1], [2], [], []⟩, ⟨2, "main", [0], [2], [], []⟩]) files c105Data :=
  ⟨rfl, ⟨_, rfl, rfl⟩, fun _ _ => by decide, rfl, fun _ _ _ _ => rfl⟩

/-- The hypotheses of `C105_partial` for two ranks with a file each, and what happens. -/
example :
    let part : Nat → List String := fun r => if r = 0 then ["b"] else ["a"]
    let rows : Option (List (CalRow ℚ)) := some [⟨8, "main", [1], [2], [], []⟩, ⟨2, "main", [0], [2], [], []⟩]
    (∀ r ≤ 1, (part r).length = 1) ∧
    CalibReads c105Cfg 1 (fun _ => c105In ["b", "a"]) [9] rows ((List.range 2).flatMap part ++ []) c105Data ∧
    c105Cfg.var.w2 - c105Cfg.var.w1 = ((4 + 1 : Nat) : ℚ) * 1 ∧
    (∀ r ≤ 1, calUsed c105Cfg [9] rows ((part r).flatMap c105Data) ≠ []) ∧
    (∀ r ≤ 1, ∀ d ∈ calUsed c105Cfg [9] rows ((part r).flatMap c105Data), d.dwave = 1 ∧ OnGrid c105Cfg.var.w1 1 d) ∧
    c105See (runJob 1 (c105Run ["b", "a"] 2)).1 =
      some [([2], [2, 2, 2, 2, 2], [[1, 4, 0, 1, 1], [137 / 60, 7], [0, 3, 5, 1, 3, -1]]),
        ([1], [2, 2, 2, 2, 2], [[1, 4, 0, 1, 1], [137 / 60, 7], [0, 3, 5, 1, 3, -1]])] ∧
    (runJob 1 (c105Run ["b", "a"] 2)).2.map c105File = [["create", "stats", "func", "stack", "close"], []] := by
  intro part rows
  have hu : ∀ r, calUsed c105Cfg [9] rows ((part r).flatMap c105Data) =
      if r = 0 then [c105Delta 2 3] else [c105Delta 1 1] := by
    intro r
    by_cases h : r = 0
    · simp only [part, h, if_true, List.flatMap_cons, List.flatMap_nil, List.append_nil]
      exact c105_used "b"
    · simp only [part, h, if_false, List.flatMap_cons, List.flatMap_nil, List.append_nil]
      exact c105_used "a"
  refine ⟨?_, c105_reads 1 _, by decide +kernel, ?_, ?_, by decide +kernel, by decide +kernel⟩
  · intro r _; by_cases h : r = 0 <;> simp [part, h]
  · intro r _; rw [hu]; by_cases h : r = 0 <;> simp [h]
  · intro r _ d hd
    rw [hu] at hd
    by_cases h : r = 0
    · rw [if_pos h, List.mem_singleton] at hd
      rw [hd]
      exact ⟨rfl, c105_grid _ _⟩
    · rw [if_neg h, List.mem_singleton] at hd
      rw [hd]
      exact ⟨rfl, c105_grid _ _⟩

/-- The same files on one rank, as for `C105_distribution`. -/
example : c105See (runJob 0 (c105Run ["a", "b"] 1)).1 =
    some [([1, 2], [2, 2, 2, 2, 2], [[1, 4, 0, 1, 1], [137 / 60, 7], [0, 3, 5, 1, 3, -1]])] := by decide +kernel

/-- **C105** in general is false. Three files on two ranks: the last file has no influence, although on one rank it has.
One file on two ranks: the job is aborted when the other rank has no delta to take the spacing from, and the file is left
without the stack and not closed. -/
theorem C105_refuted :
    c105See (runJob 1 (c105Run ["a", "b", "c"] 2)).1 = some
      [([1], [2, 2, 2, 2, 2], [[1, 4, 0, 1, 1], [137 / 60, 7], [0, 3, 5, 1, 3, -1]]),
        ([2], [2, 2, 2, 2, 2], [[1, 4, 0, 1, 1], [137 / 60, 7], [0, 3, 5, 1, 3, -1]])] ∧
    c105See (runJob 0 (c105Run ["a", "b", "c"] 1)).1 = some
      [([1, 2, 3], [3, 3, 3, 3, 3],
        [[8 / 3, 32 / 3, 0, 8 / 3, 8 / 3], [137 / 60, 56 / 3], [0, 4, 7, 1, 4, -2]])] ∧
    (let job := runJob 1 (fun r => (c105Run ["c"] 2 r).catch' (fun _ => .abort))
     (match job.1 with | .aborted => true | _ => false) = true ∧
      job.2.map c105File = [["create", "stats", "func"], []]) := by
  refine ⟨by decide +kernel, by decide +kernel, by decide +kernel⟩

end Verif.Props
