import Verif.Spec.Cuts
import Verif.Proofs.Cuts
import Verif.Props.RowOrder
import Verif.Props.Select

/-!
# C100: a stricter cut keeps a part of what a looser one keeps, and changes nothing else
-/

namespace Verif.Props
open Verif.Np Verif.Model Verif.Spec Verif.Proofs List Spectrum

section Select
variable {K : Type} [Field K] [LinearOrder K] [IsStrictOrderedRing K] [FloorRing K]

omit [IsStrictOrderedRing K] [FloorRing K] in
theorem numGoodPixels_eq (s : Spectrum K) : numGoodPixels s = s.realSize := by
  unfold numGoodPixels Spectrum.realSize
  induction s.fivar with
  | nil => rfl
  | cons a l ih =>
    rw [List.flatMap_cons, List.filter_append, List.length_append, ih, List.map_cons, List.sum_cons]
    congr 1
    unfold numGood
    rw [List.countP_eq_length_filter]

omit [IsStrictOrderedRing K] [FloorRing K] in
theorem meetsCuts_iff (C : SelectCfg K) (r s k : K) (t : ReadSpec K) :
    (keepTreated (withCuts C r s k) t = true ∧ r ≤ t.rsnr) ↔ MeetsCuts C r s k t := by
  unfold keepTreated MeetsCuts
  rw [numGoodPixels_eq, Bool.and_eq_true, decide_eq_true_eq, decide_eq_true_eq]
  unfold Spectrum.isLong
  simp only [decide_eq_true_eq, gt_iff_lt]
  exact ⟨fun h => ⟨h.2, h.1.2, h.1.1⟩, fun h => ⟨⟨h.2.2, h.2.1⟩, h.1⟩⟩

omit [IsStrictOrderedRing K] in
theorem readLocal_cuts {Cat : Type} (C : SelectCfg K) {r s k : K} (hr : C.minRsnr ≤ r)
    {reader : Cat → Except Err (List (ReadSpec K))} {queue : List Cat} {l : List (ReadSpec K)}
    (h : C.readLocal reader queue = .ok l) :
    (withCuts C r s k).readLocal reader queue = .ok (l.filter (fun x => decide (r ≤ x.rsnr))) ∧
    ∀ x ∈ l, ∃ c ∈ queue, ∃ m, reader c = .ok m ∧ ∃ y ∈ m, SameScale y.spec x.spec := by
  unfold SelectCfg.readLocal at h ⊢
  obtain ⟨m, hm, h⟩ := except_bind_eq_ok.mp h
  rw [hm]
  have hread := mapM_ok_inv hm
  have hmem : ∀ x ∈ m.flatMap (fun specs => (specs.map C.setForest).filter C.keepRead),
      ∃ c ∈ queue, ∃ m', reader c = .ok m' ∧ ∃ y ∈ m', SameScale y.spec x.spec := by
    intro x hx
    obtain ⟨sp, hsp, hx⟩ := List.mem_flatMap.mp hx
    obtain ⟨y, hy, rfl⟩ := List.mem_map.mp (List.mem_filter.mp hx).1
    obtain ⟨i, hi, rfl⟩ := List.mem_iff_getElem.mp hsp
    have hl := hread.length_eq
    exact ⟨queue[i]'(by omega), List.getElem_mem _, m[i], hread.get (by omega) hi, y, hy, setForest_sameScale C y⟩
  have hf : m.flatMap (fun specs => (specs.map (withCuts C r s k).setForest).filter (withCuts C r s k).keepRead) =
      (m.flatMap (fun specs => (specs.map C.setForest).filter C.keepRead)).filter (fun x => decide (r ≤ x.rsnr)) := by
    rw [List.filter_flatMap]
    congr 1
    funext specs
    rw [List.filter_filter]
    change (specs.map C.setForest).filter (withCuts C r s k).keepRead = _
    refine List.filter_congr fun x _ => ?_
    unfold SelectCfg.keepRead
    rw [← Bool.decide_and]
    apply Bool.decide_congr
    change (x.spec.fwave ≠ [] ∧ r ≤ x.rsnr) ↔ _
    exact ⟨fun h => ⟨h.2, h.1, hr.trans h.2⟩, fun h => ⟨h.2.1, h.1⟩⟩
  change (if C.coaddBefore = true then (_ : List (ReadSpec K)).mapM C.coadd else .ok _) = _ ∧ _
  change (if C.coaddBefore = true then (_ : List (ReadSpec K)).mapM C.coadd else .ok _) = .ok l at h
  rw [hf]
  by_cases hb : C.coaddBefore = true
  · rw [if_pos hb] at h ⊢
    refine ⟨mapM_filter (fun x y hxy => ?_) h, ?_⟩
    · rw [(coadd_sameScale hxy).2]
    · intro x hx
      obtain ⟨y, hy, hxy⟩ := mem_of_mapM h hx
      obtain ⟨c, hc, m', h1, z, hz, h2⟩ := hmem y hy
      exact ⟨c, hc, m', h1, z, hz, h2.trans (coadd_sameScale hxy).1⟩
  · rw [if_neg hb] at h ⊢
    cases h
    exact ⟨rfl, hmem⟩

/-- **C100.** If the spectra are selected with some cuts, they can be selected with stricter ones: those that meet the
stricter cuts are left, unchanged and in the same order. So nothing is lost by loosening a cut. -/
theorem C100_cuts {Cat : Type} (C : SelectCfg K) {minRsnr minSnr skip : K} (hr : C.minRsnr ≤ minRsnr)
    (hs : C.minSnr ≤ minSnr) (hk0 : 0 ≤ C.skip) (hk : C.skip ≤ skip) (hw : C.forestW1 ≤ C.forestW2)
    {reader : Cat → Except Err (List (ReadSpec K))} {ids : List Int} {queue : List Cat}
    (hx : ∀ c ∈ queue, ∀ l, reader c = .ok l → ∀ x ∈ l, 0 ≤ 1 + x.spec.z ∧ 0 < x.spec.dwave)
    {out : List (ReadSpec K)} (h : C.select reader ids queue = .ok out) :
    (withCuts C minRsnr minSnr skip).select reader ids queue =
      .ok (out.filter (fun t => decide (MeetsCuts C minRsnr minSnr skip t))) := by
  rw [select_eq] at h ⊢
  obtain ⟨l, hl, h⟩ := except_bind_eq_ok.mp h
  cases h
  obtain ⟨h1, h2⟩ := readLocal_cuts C (s := minSnr) (k := skip) hr hl
  rw [h1]
  change Except.ok (((l.filter _).map (treatOne C ids)).filter _) = _
  congr 1
  rw [List.filter_filter, List.filter_map, List.filter_map, List.filter_filter]
  congr 1
  refine List.filter_congr fun x hm => ?_
  obtain ⟨c, hc, m, hcm, y, hy, e⟩ := h2 x hm
  obtain ⟨hz, hd⟩ := hx c hc m hcm y hy
  have e := e.trans (treatOne_sameScale C ids x)
  rw [← e.1, ← e.2] at *
  have hmono : MeetsCuts C minRsnr minSnr skip (treatOne C ids x) → keepTreated C (treatOne C ids x) = true := by
    intro hc
    obtain ⟨c1, c2, c3⟩ := hc
    refine ((meetsCuts_iff C C.minRsnr C.minSnr C.skip _).mpr ⟨hr.trans c1, hs.trans c2, ?_⟩).1
    rcases c3 with c3 | c3
    · exact .inl (le_antisymm (c3 ▸ hk) hk0)
    · refine .inr (lt_of_le_of_lt (mul_le_mul_of_nonneg_right hk ?_) c3)
      have := sub_nonneg.mpr hw
      positivity
  have hiff := meetsCuts_iff C minRsnr minSnr skip (treatOne C ids x)
  simp only [Function.comp]
  rw [Bool.eq_iff_iff]
  simp only [Bool.and_eq_true, decide_eq_true_eq]
  constructor
  · intro h
    have := hiff.mp ⟨h.1, h.2⟩
    exact ⟨this, hmono this⟩
  · intro h
    have := hiff.mpr h.1
    exact ⟨this.1, this.2⟩

/-- **C100.** Looser cuts give a list that contains all spectra of the stricter cuts. -/
theorem C100_sublist {Cat : Type} (C : SelectCfg K) {minRsnr minSnr skip : K} (hr : C.minRsnr ≤ minRsnr)
    (hs : C.minSnr ≤ minSnr) (hk0 : 0 ≤ C.skip) (hk : C.skip ≤ skip) (hw : C.forestW1 ≤ C.forestW2)
    {reader : Cat → Except Err (List (ReadSpec K))} {ids : List Int} {queue : List Cat}
    (hx : ∀ c ∈ queue, ∀ l, reader c = .ok l → ∀ x ∈ l, 0 ≤ 1 + x.spec.z ∧ 0 < x.spec.dwave)
    {out out' : List (ReadSpec K)} (h : C.select reader ids queue = .ok out)
    (h' : (withCuts C minRsnr minSnr skip).select reader ids queue = .ok out') : out' <+ out := by
  rw [C100_cuts C hr hs hk0 hk hw hx h] at h'
  cases h'
  exact List.filter_sublist

/-- With looser cuts two spectra are selected, with stricter ones one of them. -/
example : (((withCuts c87Cfg 1 (1 / 1000) 0).select (fun _ => .ok [c87Spec 1 3, c87Spec 2 (1 / 100)]) [1, 2]
      [()]).toOption.map (List.map (fun t => t.row.targetid))) = some [1, 2] ∧
    ((c87Cfg.select (fun _ => .ok [c87Spec 1 3, c87Spec 2 (1 / 100)]) [1, 2] [()]).toOption.map
      (List.map (fun t => t.row.targetid))) = some [1] := by decide +kernel

example {out : List (ReadSpec ℚ)}
    (h : (withCuts c87Cfg 1 (1 / 1000) 0).select (fun _ => .ok [c87Spec 1 3, c87Spec 2 (1 / 100)]) [1, 2] [()] = .ok out) :
    c87Cfg.select (fun _ => .ok [c87Spec 1 3, c87Spec 2 (1 / 100)]) [1, 2] [()] =
      .ok (out.filter (fun t => decide (MeetsCuts c87Cfg 1 1 (1 / 20) t))) :=
  C100_cuts (withCuts c87Cfg 1 (1 / 1000) 0) (minRsnr := 1) (minSnr := 1) (skip := 1 / 20) (by decide +kernel)
    (by decide +kernel) (by decide +kernel) (by decide +kernel) (by decide +kernel) (by
      intro c _ l hl x hx
      cases hl
      simp only [List.mem_cons, List.not_mem_nil, or_false] at hx
      rcases hx with rfl | rfl <;> exact ⟨by decide +kernel, by decide +kernel⟩) h

end Select

section Catalog
variable {Val : Type} [LinearOrder Val]

theorem outRow_other (cols : List String) (pix : Val → Val → Val) (r : Row Val) {c : String}
    (hc : c ∉ ["RA", "DEC", "LASTNIGHT", "HPXPIXEL"]) : outRow cols pix r c = r c := by
  simp only [List.mem_cons, List.not_mem_nil, or_false, not_or] at hc
  unfold outRow withPixel
  split
  · exact standardNames_other _ _ (by simp [hc])
  · rw [Function.update_of_ne hc.2.2.2]
    exact standardNames_other _ _ (by simp [hc])

theorem passes_outRow (cols : List String) (pix : Val → Val → Val) (ks : Option (List Val)) (zmin zmax : Val)
    (r : Row Val) : Passes cols ks zmin zmax (outRow cols pix r) ↔ Passes cols ks zmin zmax r := by
  unfold Passes
  rw [outRow_other cols pix r (c := "Z") (by decide), outRow_other cols pix r (c := "SURVEY") (by decide)]

/-- **C100, catalog.** With a smaller range of redshifts or fewer surveys, the catalog is the part of the other catalog
that is in the smaller range and in these surveys; if there is none, it is refused. The rows are in the same order,
unless the survey takes part in the sorting with one of the options and not with the other. -/
theorem C100_catalog (ang2pix : Nat → Val → Val → Val) (cat : Catalog Val) (isMock isTile : Bool)
    {ks ks' : Option (List Val)} {zmin zmax zmin' zmax' : Val} (h1 : zmin ≤ zmin') (h2 : zmax' ≤ zmax)
    (h3 : KeepsMore ks ks') {c : Catalog Val}
    (h : readQuasarCatalog ang2pix (.ok cat) isMock isTile ks zmin zmax = .ok c) :
    (c.rows.filter (Passes cat.cols ks' zmin' zmax') = [] →
      readQuasarCatalog ang2pix (.ok cat) isMock isTile ks' zmin' zmax' = .error .exception) ∧
    (c.rows.filter (Passes cat.cols ks' zmin' zmax') ≠ [] →
      ∃ c', readQuasarCatalog ang2pix (.ok cat) isMock isTile ks' zmin' zmax' = .ok c' ∧ c'.cols = c.cols ∧
        c'.rows ~ c.rows.filter (Passes cat.cols ks' zmin' zmax') ∧
        ((SortsBySurvey cat.cols ks ↔ SortsBySurvey cat.cols ks') →
          c'.rows = c.rows.filter (Passes cat.cols ks' zmin' zmax'))) := by
  obtain ⟨cat', e, hc, hd, -, hcols, hp, hsort⟩ := read_ok_inv h
  cases e
  have hpp : ∀ r : Row Val, Passes cat.cols ks' zmin' zmax' r → Passes cat.cols ks zmin zmax r := by
    rintro r ⟨a1, a2, a3⟩
    refine ⟨h1.trans a1, a2.trans h2, ?_⟩
    intro l hl hs
    obtain ⟨l', hl', hsub⟩ := h3 l hl
    exact hsub _ (a3 l' hl' hs)
  have hperm : c.rows.filter (Passes cat.cols ks' zmin' zmax') ~
      (cat.rows.filter (Passes cat.cols ks' zmin' zmax')).map
        (outRow cat.cols (ang2pix (if isMock then 16 else 64))) := by
    refine (hp.filter _).trans (Perm.of_eq ?_)
    rw [List.filter_map, List.filter_filter]
    congr 1
    refine List.filter_congr fun r _ => ?_
    simp only [Function.comp, passes_outRow]
    rw [← Bool.decide_and]
    apply Bool.decide_congr
    exact ⟨fun h => h.1, fun h => ⟨h, hpp r h⟩⟩
  have hg := read_of_good ang2pix cat isMock isTile ks' zmin' zmax' hc hd
  have he : c.rows.filter (Passes cat.cols ks' zmin' zmax') = [] ↔
      cat.rows.filter (Passes cat.cols ks' zmin' zmax') = [] := by
    constructor
    · intro hh
      rw [hh] at hperm
      simpa using hperm.symm.eq_nil
    · intro hh
      rw [hh] at hperm
      exact hperm.eq_nil
  refine ⟨fun hh => hg.1 (he.mp hh), fun hh => ?_⟩
  obtain ⟨c', c1, c2, c3, c4⟩ := hg.2 (fun h => hh (he.mpr h))
  have hperm' := c3.trans hperm.symm
  refine ⟨c', c1, c2.trans hcols.symm, hperm', ?_⟩
  intro hiff
  have ho : sortOrder cat.cols ks isTile = sortOrder cat.cols ks' isTile := by
    cases isTile with
    | true => rfl
    | false =>
      classical
      have key : ∀ k : Option (List Val), sortOrder cat.cols k false =
          if SortsBySurvey cat.cols k then ["HPXPIXEL", "SURVEY", "TARGETID"] else ["HPXPIXEL", "TARGETID"] := by
        intro k
        unfold sortOrder SortsBySurvey
        cases k <;> simp
      have := key ks
      rw [if_congr hiff rfl rfl, ← key ks'] at this
      exact this
  rw [ho] at hsort
  refine sorted_unique c4 (hsort.filter _) hperm' ?_
  intro r hr s hs hrs
  obtain ⟨x, hx, rfl⟩ := List.mem_map.mp (c3.mem_iff.mp hr)
  obtain ⟨y, hy, rfl⟩ := List.mem_map.mp (c3.mem_iff.mp hs)
  have hxm := (List.mem_filter.mp hx).1
  have hym := (List.mem_filter.mp hy).1
  have ht : x "TARGETID" = y "TARGETID" := by
    have := hrs "TARGETID" (List.mem_append_left _ (by
      unfold sortOrder
      split
      · simp
      · split
        · split <;> simp
        · simp))
    rwa [outRow_targetid, outRow_targetid] at this
  have hxy : x = y := by
    cases isTile with
    | false => exact List.inj_on_of_nodup_map (f := fun r : Row Val => r "TARGETID") hd hxm hym ht
    | true =>
      have h3 : x "TILEID" = y "TILEID" := by
        have := hrs "TILEID" (List.mem_append_left _ (by simp [sortOrder]))
        rwa [outRow_tileid, outRow_tileid] at this
      exact List.inj_on_of_nodup_map (f := fun r : Row Val => (r "TARGETID", r "TILEID")) hd hxm hym
        (Prod.ext ht h3)
  rw [hxy]

/-- A catalog read with a wide and with a narrow range of redshifts. -/
example : ((readQuasarCatalog (fun _ ra _ => ra) (.ok exFile) false false none 0 100).map (fun c => c.rows.map (· "TARGETID")),
    (readQuasarCatalog (fun _ ra _ => ra) (.ok exFile) false false none 3 100).map (fun c => c.rows.map (· "TARGETID"))) =
    (.ok [30, 10, 20, 40], .ok [10, 40]) := by decide

example : ∃ c, readQuasarCatalog (fun _ ra _ => ra) (.ok exFile) false false none 3 100 = .ok c ∧
    c.rows.map (· "TARGETID") = [10, 40] := by
  have hc : ∃ c, readQuasarCatalog (fun _ ra _ => ra) (.ok exFile) false false none 0 100 = .ok c ∧
      (c.rows.filter (Passes exFile.cols none 3 100)).map (· "TARGETID") = [10, 40] := by
    cases h : readQuasarCatalog (fun _ ra _ => ra) (.ok exFile) false false none 0 100 with
    | error e =>
      have : (readQuasarCatalog (fun _ ra _ => ra) (.ok exFile) false false none 0 100).isOk = true := by decide
      rw [h] at this
      cases this
    | ok c =>
      have : (readQuasarCatalog (fun _ ra _ => ra) (.ok exFile) false false none 0 100).map
          (fun c => (c.rows.filter (Passes exFile.cols none 3 100)).map (· "TARGETID")) = .ok [10, 40] := by decide
      rw [h] at this
      exact ⟨c, rfl, Except.ok.inj this⟩
  obtain ⟨c, hc, hm⟩ := hc
  obtain ⟨c', h1, -, -, h2⟩ := (C100_catalog (zmin' := 3) (zmax' := 100) (ks' := none) _ _ _ _ (by decide) (by decide)
    (fun l h => by cases h) hc).2 (by intro h; rw [h] at hm; cases hm)
  exact ⟨c', h1, by rw [h2 Iff.rfl]; exact hm⟩

end Catalog
end Verif.Props
