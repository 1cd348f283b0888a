import Verif.Proofs.RowOrder
import Verif.Props.Readers
import Verif.Model.WholeRun

/-!
# C98: the order of the rows in the input files does not matter
-/

namespace Verif.Props
open Verif.Model Verif.Np Verif.Proofs Verif.Spec List

/-! ### The quasar catalog -/

section Cat
variable {Val : Type} [LinearOrder Val]

/-- **C98, catalog.** Reading a catalog file gives the same catalog, in the same order, or the same exception, whatever
the order of its rows. -/
theorem C98_catalog (ang2pix : Nat → Val → Val → Val) (cols : List String) {rows rows' : List (Row Val)}
    (hp : rows ~ rows') (isMock isTile : Bool) (ks : Option (List Val)) (zmin zmax : Val) :
    readQuasarCatalog ang2pix (.ok ⟨cols, rows⟩) isMock isTile ks zmin zmax =
      readQuasarCatalog ang2pix (.ok ⟨cols, rows'⟩) isMock isTile ks zmin zmax := by
  have hnd : NoDuplicates rows isTile ↔ NoDuplicates rows' isTile := by
    cases isTile
    · exact (hp.map (fun r => r "TARGETID")).nodup_iff
    · exact (hp.map (fun r => (r "TARGETID", r "TILEID"))).nodup_iff
  by_cases hg : HasColumns cols isMock isTile ∧ NoDuplicates rows isTile
  · have h1 := read_of_good ang2pix ⟨cols, rows⟩ isMock isTile ks zmin zmax hg.1 hg.2
    have h2 := read_of_good ang2pix ⟨cols, rows'⟩ isMock isTile ks zmin zmax hg.1 (hnd.mp hg.2)
    have hf := hp.filter (fun r => decide (Passes cols ks zmin zmax r))
    by_cases he : rows.filter (Passes cols ks zmin zmax) = []
    · have he' : rows'.filter (Passes cols ks zmin zmax) = [] := by
        rw [he] at hf; exact hf.symm.eq_nil
      rw [h1.1 he, h2.1 he']
    · have he' : rows'.filter (Passes cols ks zmin zmax) ≠ [] := by
        intro hh; rw [hh] at hf; exact he hf.eq_nil
      obtain ⟨c, c1, c2, c3, c4⟩ := h1.2 he
      obtain ⟨d, d1, d2, d3, d4⟩ := h2.2 he'
      have hcd : c.rows = d.rows := by
        have hperm : c.rows ~ d.rows := c3.trans ((hf.map _).trans d3.symm)
        refine sorted_unique c4 d4 hperm ?_
        intro r hr s hs hrs
        have hr' := c3.mem_iff.mp hr
        have hs' := c3.mem_iff.mp hs
        obtain ⟨x, hx, rfl⟩ := List.mem_map.mp hr'
        obtain ⟨y, hy, rfl⟩ := List.mem_map.mp hs'
        have hxm := (List.mem_filter.mp hx).1
        have hym := (List.mem_filter.mp hy).1
        have ht : x "TARGETID" = y "TARGETID" := by
          have := hrs "TARGETID" (List.mem_append_left _ (by
            unfold sortOrder
            split
            · simp
            · split
              · split <;> simp
              · simp))
          rwa [outRow_targetid, outRow_targetid] at this
        have hxy : x = y := by
          cases isTile with
          | false => exact List.inj_on_of_nodup_map (f := fun r : Row Val => r "TARGETID") hg.2 hxm hym ht
          | true =>
            have h3 : x "TILEID" = y "TILEID" := by
              have := hrs "TILEID" (List.mem_append_left _ (by simp [sortOrder]))
              rwa [outRow_tileid, outRow_tileid] at this
            exact List.inj_on_of_nodup_map (f := fun r : Row Val => (r "TARGETID", r "TILEID")) hg.2 hxm hym
              (Prod.ext ht h3)
        rw [hxy]
      rw [c1, d1]
      cases c
      cases d
      simp only at c2 d2 hcd
      rw [c2, d2, hcd]
  · rw [read_error_of_bad _ _ _ _ _ _ _ hg, read_error_of_bad ang2pix ⟨cols, rows'⟩ _ _ _ _ _
      (fun h => hg ⟨h.1, hnd.mpr h.2⟩)]

end Cat

/-! ### Spectra files -/

section Files
variable {Val Wv Im Re Co : Type} [LinearOrder Val]

/-- **C98, coadd files.** The spectra read from a chunk of the catalog are the same, in the same order, whatever the
order of the rows in the files and whatever sorting function is used. -/
theorem C98_coadd {argsort argsort' : List Val → List Nat} (hA : ∀ k, IsArgsort k (argsort k))
    (hA' : ∀ k, IsArgsort k (argsort' k)) {files files' : Val → Val → Option (SpecFile Val Wv Im Re)}
    (hs : ∀ s p, Option.Rel SameFile (files s p) (files' s p)) {arms : List String} {skip : Bool}
    {cat : List (Row Val)} (hne : cat ≠ []) (hc : SurveyThenTarget cat) (hpix : Same "HPXPIXEL" cat)
    (hfiles : ∀ r ∈ cat, ∃ f, files (r "SURVEY") (r "HPXPIXEL") = some f ∧ FileOk f arms ∧
      (f.fibermap.map (fun r => r "TARGETID")).Nodup) :
    (readHealpixCoadd argsort files arms skip cat : Except Err (List (RawSpectrum Val Wv Im Re Co))) =
      readHealpixCoadd argsort' files' arms skip cat := by
  have hrel : ∀ r ∈ cat, ∃ f g, files (r "SURVEY") (r "HPXPIXEL") = some f ∧
      files' (r "SURVEY") (r "HPXPIXEL") = some g ∧ SameFile f g ∧ FileOk f arms ∧
      (f.fibermap.map (fun r => r "TARGETID")).Nodup := by
    intro r hr
    obtain ⟨f, h1, h2, h3⟩ := hfiles r hr
    have h := hs (r "SURVEY") (r "HPXPIXEL")
    rw [h1] at h
    cases hg : files' (r "SURVEY") (r "HPXPIXEL") with
    | none => rw [hg] at h; cases h
    | some g => rw [hg] at h; cases h with | some h => exact ⟨f, g, h1, rfl, h, h2, h3⟩
  obtain ⟨out, h1, h2, h3⟩ := C13_coadd_pairing (Co := Co) (skip := skip) hA hne hc hpix hfiles
  obtain ⟨out', k1, k2, k3⟩ := C13_coadd_pairing (Co := Co) (skip := skip) hA' (files := files') hne hc hpix (by
    intro r hr
    obtain ⟨f, g, -, hg, hfg, hok, hnd⟩ := hrel r hr
    exact ⟨g, hg, SameFile.fileOk hfg hok, SameFile.nodup hfg hnd⟩)
  have hmap : out.map (·.catrow) = out'.map (·.catrow) := by
    rw [h2, k2]
    refine List.filter_congr fun r hr => ?_
    obtain ⟨f, g, hf, hg, hfg, -⟩ := hrel r hr
    rw [hf, hg, SameFile.inFile hfg]
  rw [h1, k1]
  congr 1
  refine ext_of_map hmap ?_
  intro s hsm s' hsm' hss
  have hss : s.catrow = s'.catrow := hss
  have hmem : s.catrow ∈ cat := by
    have : s.catrow ∈ out.map (·.catrow) := List.mem_map_of_mem hsm
    rw [h2] at this
    exact (List.mem_filter.mp this).1
  obtain ⟨f, g, hf, hg, hfg, -, hnd⟩ := hrel _ hmem
  obtain ⟨e1, f1, i, hf1, hi, hrow, hreso⟩ := h3 s hsm
  obtain ⟨e2, g1, j, hg1, hj, hrow', hreso'⟩ := k3 s' hsm'
  rw [← hss] at hg1 hj
  rw [hf] at hf1
  rw [hg] at hg1
  cases hf1
  cases hg1
  have harms := arms_unique hfg hnd hi hj hrow hrow' (reso_unique hfg hnd hi hj hrow hreso hreso')
  cases s
  cases s'
  simp only at hss e1 e2 harms
  subst hss e1 e2 harms
  rfl

/-- **C98, tile files.** The same for the reader of tiles. -/
theorem C98_tile {argsort argsort' : List Val → List Nat} (hA : ∀ k, IsArgsort k (argsort k))
    (hA' : ∀ k, IsArgsort k (argsort' k)) {files files' : Val → Val → Val → Option (SpecFile Val Wv Im Re)}
    (hs : ∀ t n p, Option.Rel SameFile (files t n p) (files' t n p)) {arms : List String} {skip : Bool}
    {cat : List (Row Val)} (hne : cat ≠ []) (hc : PetalThenTarget cat) (htile : Same "TILEID" cat)
    (hnight : Same "LASTNIGHT" cat)
    (hfiles : ∀ r ∈ cat, ∃ f, files (r "TILEID") (r "LASTNIGHT") (r "PETAL_LOC") = some f ∧ FileOk f arms ∧
      (f.fibermap.map (fun r => r "TARGETID")).Nodup) :
    (readTile argsort files arms skip cat : Except Err (List (RawSpectrum Val Wv Im Re Co))) =
      readTile argsort' files' arms skip cat := by
  have hrel : ∀ r ∈ cat, ∃ f g, files (r "TILEID") (r "LASTNIGHT") (r "PETAL_LOC") = some f ∧
      files' (r "TILEID") (r "LASTNIGHT") (r "PETAL_LOC") = some g ∧ SameFile f g ∧ FileOk f arms ∧
      (f.fibermap.map (fun r => r "TARGETID")).Nodup := by
    intro r hr
    obtain ⟨f, h1, h2, h3⟩ := hfiles r hr
    have h := hs (r "TILEID") (r "LASTNIGHT") (r "PETAL_LOC")
    rw [h1] at h
    cases hg : files' (r "TILEID") (r "LASTNIGHT") (r "PETAL_LOC") with
    | none => rw [hg] at h; cases h
    | some g => rw [hg] at h; cases h with | some h => exact ⟨f, g, h1, rfl, h, h2, h3⟩
  obtain ⟨out, h1, h2, h3⟩ := C13_tile_pairing (Co := Co) (skip := skip) hA hne hc htile hnight hfiles
  obtain ⟨out', k1, k2, k3⟩ := C13_tile_pairing (Co := Co) (skip := skip) hA' (files := files') hne hc htile hnight (by
    intro r hr
    obtain ⟨f, g, -, hg, hfg, hok, hnd⟩ := hrel r hr
    exact ⟨g, hg, SameFile.fileOk hfg hok, SameFile.nodup hfg hnd⟩)
  have hmap : out.map (·.catrow) = out'.map (·.catrow) := by
    rw [h2, k2]
    refine List.filter_congr fun r hr => ?_
    obtain ⟨f, g, hf, hg, hfg, -⟩ := hrel r hr
    rw [hf, hg, SameFile.inFile hfg]
  rw [h1, k1]
  congr 1
  refine ext_of_map hmap ?_
  intro s hsm s' hsm' hss
  have hss : s.catrow = s'.catrow := hss
  have hmem : s.catrow ∈ cat := by
    have : s.catrow ∈ out.map (·.catrow) := List.mem_map_of_mem hsm
    rw [h2] at this
    exact (List.mem_filter.mp this).1
  obtain ⟨f, g, hf, hg, hfg, -, hnd⟩ := hrel _ hmem
  obtain ⟨e1, f1, i, hf1, hi, hrow, hreso⟩ := h3 s hsm
  obtain ⟨e2, g1, j, hg1, hj, hrow', hreso'⟩ := k3 s' hsm'
  rw [← hss] at hg1 hj
  rw [hf] at hf1
  rw [hg] at hg1
  cases hf1
  cases hg1
  have harms := arms_unique hfg hnd hi hj hrow hrow' (reso_unique hfg hnd hi hj hrow hreso hreso')
  cases s
  cases s'
  simp only at hss e1 e2 harms
  subst hss e1 e2 harms
  rfl

/-- **C98, mock files.** The same for the reader of mocks, with or without the true continuum, for the rows of the spectra
file and of the truth file. -/
theorem C98_mock {argsort argsort' : List Val → List Nat} (hA : ∀ k, IsArgsort k (argsort k))
    (hA' : ∀ k, IsArgsort k (argsort' k)) {files files' : Val → Option (SpecFile Val Wv Im Re)}
    {truths truths' : Val → Option (TruthFile Val Re Co)} (hs : ∀ p, Option.Rel SameFile (files p) (files' p))
    (ht : ∀ p, Option.Rel SameTruth (truths p) (truths' p)) {arms : List String} {skip trueCont : Bool}
    {cat : List (Row Val)} (hne : cat ≠ []) (hc : cat.Pairwise (fun r s => r "TARGETID" < s "TARGETID"))
    (hpix : Same "HPXPIXEL" cat)
    (hfiles : ∀ r ∈ cat, ∃ f, files (r "HPXPIXEL") = some f ∧ FileOk f arms ∧
      (f.fibermap.map (fun r => r "TARGETID")).Nodup)
    (htruth : ∀ r ∈ cat, ∃ t, truths (r "HPXPIXEL") = some t ∧
      t.cont.length = t.contIds.length ∧ t.contIds.Nodup ∧ (∀ arm ∈ arms, ∃ m, t.reso arm = some m) ∧
      (inFile (files (r "HPXPIXEL")) (r "TARGETID") → r "TARGETID" ∈ t.contIds)) :
    readMock argsort files truths arms skip trueCont cat = readMock argsort' files' truths' arms skip trueCont cat := by
  obtain ⟨first, hfm, -, hfirst⟩ := firstRow_ok hne
  obtain ⟨f, hf, hfok, hfn⟩ := hfiles first hfm
  obtain ⟨t, ht1, htl, htn, htr, -⟩ := htruth first hfm
  have hrf := hs (first "HPXPIXEL")
  have hrt := ht (first "HPXPIXEL")
  rw [hf] at hrf
  rw [ht1] at hrt
  obtain ⟨g, hg, hfg⟩ : ∃ g, files' (first "HPXPIXEL") = some g ∧ SameFile f g := by
    cases hg : files' (first "HPXPIXEL") with
    | none => rw [hg] at hrf; cases hrf
    | some g => rw [hg] at hrf; cases hrf with | some h => exact ⟨g, rfl, h⟩
  obtain ⟨u, hu, htu⟩ : ∃ u, truths' (first "HPXPIXEL") = some u ∧ SameTruth t u := by
    cases hu : truths' (first "HPXPIXEL") with
    | none => rw [hu] at hrt; cases hrt
    | some u => rw [hu] at hrt; cases hrt with | some h => exact ⟨u, rfl, h⟩
  obtain ⟨hur, τ, hτ1, hτ2⟩ := htu
  have hcov : ∀ r ∈ cat, r "TARGETID" ∈ f.fibermap.map (fun r => r "TARGETID") → r "TARGETID" ∈ t.contIds := by
    intro r hr hm
    obtain ⟨t', ht', -, -, -, h⟩ := htruth r hr
    have hp := hpix r hr first hfm
    rw [hp, ht1] at ht'
    cases ht'
    apply h
    rw [hp, hf]
    simpa [inFile] using hm
  have hids : ∀ x, x ∈ g.fibermap.map (fun r => r "TARGETID") ↔ x ∈ f.fibermap.map (fun r => r "TARGETID") := by
    obtain ⟨σ, hm, -⟩ := hfg
    exact (SameFile.ids hm).mem
  obtain ⟨out, h1, h2, h3⟩ := readMock_ok (skip := skip) (trueCont := trueCont) hA
    (List.pairwise_map.mpr hc) hfirst hf hfok hfn (truths := truths) (fun _ => ⟨t, ht1, fun _ => htr, fun _ => ⟨htl, hcov⟩⟩)
  obtain ⟨out', k1, k2, k3⟩ := readMock_ok (skip := skip) (trueCont := trueCont) hA'
    (List.pairwise_map.mpr hc) hfirst hg (SameFile.fileOk hfg hfok) (SameFile.nodup hfg hfn) (truths := truths')
    (fun _ => ⟨u, hu, fun _ => by rw [hur]; exact htr, fun _ => ⟨by rw [hτ1.length_eq, hτ2.length_eq, htl],
      fun r hr hm => (hτ1.mem _).mpr (hcov r hr ((hids _).mp hm))⟩⟩)
  have hmap : out.map (·.catrow) = out'.map (·.catrow) := by
    rw [h2, k2]
    refine List.filter_congr fun r _ => ?_
    simp only [hids]
  rw [h1, k1]
  congr 1
  refine ext_of_map hmap ?_
  intro s hsm s' hsm' hss
  have hss : s.catrow = s'.catrow := hss
  obtain ⟨⟨i, hi, hrow⟩, hreso, c1, c2⟩ := h3 s hsm
  obtain ⟨⟨j, hj, hrow'⟩, hreso', d1, d2⟩ := k3 s' hsm'
  rw [← hss] at hj
  have harms := arms_unique hfg hfn hi hj hrow hrow' (by
    intro a ha b hb hab
    cases skip with
    | true => rw [(hreso a ha).1 rfl, (hreso' b hb).1 rfl]
    | false =>
      obtain ⟨t1, e1, e2⟩ := (hreso a ha).2 rfl
      obtain ⟨u1, e3, e4⟩ := (hreso' b hb).2 rfl
      rw [ht1] at e1
      rw [hu] at e3
      cases e1
      cases e3
      rw [e2, e4, hur, hab])
  have hcont : s.cont = s'.cont := by
    cases trueCont with
    | false => rw [c1 rfl, d1 rfl]
    | true =>
      obtain ⟨t1, k, x, e1, e2, e3, e4⟩ := c2 rfl
      obtain ⟨u1, l, y, e5, e6, e7, e8⟩ := d2 rfl
      rw [ht1] at e1
      rw [hu] at e5
      cases e1
      cases e5
      rw [← hss] at e6
      have := hτ1.index htn e2 e6
      rw [hτ2 l, ← this, e3] at e7
      rw [e4, e8, Option.some.inj e7]
  cases s
  cases s'
  simp only at hss harms hcont
  subst hss harms hcont
  rfl

end Files

/-! ### Masks -/

section Masks
variable {K : Type} [Field K] [LinearOrder K]

/-- **C98, sky mask.** The order of the lines of the sky mask file does not matter, for any spectrum. -/
theorem C98_sky {lines lines' : List (SkyLine K)} (h : lines ~ lines') (s : Spectrum K) :
    skyApply lines s = skyApply lines' s := skyApply_perm h s

/-- **C98, DLA catalog.** The order of the rows of the DLA catalog does not matter, for any spectrum. -/
theorem C98_dla (dlaFlux : K → K → K → K) {cat cat' : List (DlaRow K)} (h : cat ~ cat') (ids : Option (List Int))
    (limit : K) (row : MaskRow K) (s : Spectrum K) :
    dlaApply dlaFlux (dlaInit cat ids limit) row s = dlaApply dlaFlux (dlaInit cat' ids limit) row s :=
  dlaApply_perm dlaFlux h ids limit row s

end Masks

/-! ### Whole runs -/

section Whole
variable {Val K : Type} [LinearOrder Val] [Field K] [LinearOrder K] [FloorRing K]

/-- **C98, whole run.** The program of every rank, and so every result, is the same whatever the order of the rows of
the quasar catalog, the sky mask file and the DLA catalog. -/
theorem C98_whole (C : WholeCfg Val K) {sky' : Option (List (SkyLine K))} {dla' : Option (List (DlaRow K))}
    (hsky : Option.Rel List.Perm C.sel.sky sky') (hdla : Option.Rel List.Perm C.sel.dla dla')
    {Q D V : Type} (P : FitterFns (FullState K) (Spectrum K) (StackSums K) Q D)
    (cs : Codec Bool V) (cq : Codec (List (List (Row Val))) V) (cn : Codec Val V)
    (c : FitterCodecs (StackSums K) Q V) (ang2pix : Nat → Val → Val → Val) (cols : List String)
    {rows rows' : List (Row Val)} (hp : rows ~ rows') (isMock isTile : Bool) (ks : Option (List Val)) (zmin zmax : Val)
    (fname : String) (g0 : FullState K) (size rank : Nat) :
    C.run P cs cq cn c (readQuasarCatalog ang2pix (.ok ⟨cols, rows⟩) isMock isTile ks zmin zmax) fname g0 size rank =
      { C with sel := { C.sel with sky := sky', dla := dla' } }.run P cs cq cn c
        (readQuasarCatalog ang2pix (.ok ⟨cols, rows'⟩) isMock isTile ks zmin zmax) fname g0 size rank := by
  rw [C98_catalog ang2pix cols hp]
  obtain ⟨sel, fit, mock, tile, ccols, tid, pix, reader, sm, arg, od, bh, ni⟩ := C
  obtain ⟨sq, smo, ju, na, ep, ep8, df, w1, w2, f1, f2, mr, ms, sk, co, et, st, sky, bal, dla⟩ := sel
  change Option.Rel List.Perm sky sky' at hsky
  change Option.Rel List.Perm dla dla' at hdla
  have hmask : ∀ ids l, SelectCfg.mask ⟨sq, smo, ju, na, ep, ep8, df, w1, w2, f1, f2, mr, ms, sk, co, et, st, sky, bal, dla⟩
      (SelectCfg.maskers ⟨sq, smo, ju, na, ep, ep8, df, w1, w2, f1, f2, mr, ms, sk, co, et, st, sky, bal, dla⟩ ids) l =
      SelectCfg.mask ⟨sq, smo, ju, na, ep, ep8, df, w1, w2, f1, f2, mr, ms, sk, co, et, st, sky', bal, dla'⟩
      (SelectCfg.maskers ⟨sq, smo, ju, na, ep, ep8, df, w1, w2, f1, f2, mr, ms, sk, co, et, st, sky', bal, dla'⟩ ids) l := by
    intro ids l
    unfold SelectCfg.mask
    refine List.map_congr_left fun x _ => ?_
    congr 1
    cases hsky with
    | none =>
      cases hdla with
      | none => rfl
      | some hd =>
        cases bal <;>
        simp [SelectCfg.maskers, applyMasks, Masker.apply, dlaApply_perm df hd]
    | some hk =>
      cases hdla with
      | none =>
        cases bal <;>
        simp [SelectCfg.maskers, applyMasks, Masker.apply, skyApply_perm hk]
      | some hd =>
        cases bal <;>
        simp [SelectCfg.maskers, applyMasks, Masker.apply, skyApply_perm hk, dlaApply_perm df hd]
  have hsel : ∀ ids q, SelectCfg.select ⟨sq, smo, ju, na, ep, ep8, df, w1, w2, f1, f2, mr, ms, sk, co, et, st, sky, bal, dla⟩
      reader ids q =
      SelectCfg.select ⟨sq, smo, ju, na, ep, ep8, df, w1, w2, f1, f2, mr, ms, sk, co, et, st, sky', bal, dla'⟩
      reader ids q := by
    intro ids q
    unfold SelectCfg.select
    simp only [hmask]
    rfl
  have hids : ∀ q, WholeCfg.maskIds ⟨⟨sq, smo, ju, na, ep, ep8, df, w1, w2, f1, f2, mr, ms, sk, co, et, st, sky, bal, dla⟩,
      fit, mock, tile, ccols, tid, pix, reader, sm, arg, od, bh, ni⟩ q =
      WholeCfg.maskIds ⟨⟨sq, smo, ju, na, ep, ep8, df, w1, w2, f1, f2, mr, ms, sk, co, et, st, sky', bal, dla'⟩,
      fit, mock, tile, ccols, tid, pix, reader, sm, arg, od, bh, ni⟩ q := by
    intro q
    have : dla.isSome = dla'.isSome := by cases hdla <;> rfl
    unfold WholeCfg.maskIds WholeCfg.balStep WholeCfg.dlaStep
    simp only [this]
  have hprep : WholeCfg.prepare ⟨⟨sq, smo, ju, na, ep, ep8, df, w1, w2, f1, f2, mr, ms, sk, co, et, st, sky, bal, dla⟩,
      fit, mock, tile, ccols, tid, pix, reader, sm, arg, od, bh, ni⟩ =
      WholeCfg.prepare ⟨⟨sq, smo, ju, na, ep, ep8, df, w1, w2, f1, f2, mr, ms, sk, co, et, st, sky', bal, dla'⟩,
      fit, mock, tile, ccols, tid, pix, reader, sm, arg, od, bh, ni⟩ := by
    funext q
    unfold WholeCfg.prepare
    rw [hids]
    simp only [hsel]
    rfl
  unfold WholeCfg.run
  rw [hprep]
  rfl

end Whole

/-! ### Duplicates in a file, and examples -/

/-- A file with one arm, where image rows carry the number of the row. -/
def numberedFile (ids : List Nat) : SpecFile Nat String Nat Nat :=
  { fibermap := ids.map (fun t c => if c = "TARGETID" then t else 0)
    arms := fun a => if a = "B" then some ⟨"wave", List.range ids.length, List.range ids.length, List.range ids.length, none⟩
      else none }

/-- **C98, limit.** A target that is twice in a file shifts the rows: the next target of the catalog gets data of the
duplicate. Then the result depends on the order of the rows. -/
theorem C98_duplicates_shift :
    ∃ (f g : SpecFile Nat String Nat Nat) (cat : List (Row Nat)) (out out' : List (RawSpectrum Nat String Nat Nat Unit)),
      SurveyThenTarget cat ∧ Same "HPXPIXEL" cat ∧ FileOk f ["B"] ∧ SameFile f g ∧
      readHealpixCoadd argsortStable (fun _ _ => some f) ["B"] true cat = .ok out ∧
      readHealpixCoadd argsortStable (fun _ _ => some g) ["B"] true cat = .ok out' ∧
      (∃ s ∈ out, ∃ a ∈ s.arms, ∀ i, fileTarget f i = some (s.catrow "TARGETID") →
        ∀ h, f.arms a.arm = some h → h.flux[i]? ≠ some a.flux) ∧
      out.map (fun s => s.arms.map (·.flux)) ≠ out'.map (fun s => s.arms.map (·.flux)) := by
  refine ⟨numberedFile [3, 3, 5],
    { fibermap := (numberedFile [3, 3, 5]).fibermap
      arms := fun a => if a = "B" then some ⟨"wave", [1, 0, 2], [1, 0, 2], [1, 0, 2], none⟩ else none },
    [surveyRow 3 1, surveyRow 5 1],
    [⟨surveyRow 3 1, [⟨"B", "wave", 0, 0, 0, none⟩], none⟩, ⟨surveyRow 5 1, [⟨"B", "wave", 1, 1, 1, none⟩], none⟩],
    [⟨surveyRow 3 1, [⟨"B", "wave", 1, 1, 1, none⟩], none⟩, ⟨surveyRow 5 1, [⟨"B", "wave", 0, 0, 0, none⟩], none⟩],
    by unfold SurveyThenTarget; decide, by unfold Same; decide, ?_, ?_, rfl, rfl, ?_, by decide⟩
  · refine ⟨?_, Or.inl ?_⟩
    · intro arm ha
      simp only [List.mem_singleton] at ha
      subst ha
      exact ⟨_, rfl, rfl, rfl, rfl, by intro r hr; simp at hr⟩
    · intro arm ha h hh
      simp only [List.mem_singleton] at ha
      subst ha
      simp [numberedFile] at hh
      subst hh
      rfl
  · refine ⟨Equiv.swap 0 1, ?_, ?_⟩
    · intro i
      match i with
      | 0 => rw [Equiv.swap_apply_left]; rfl
      | 1 => rw [Equiv.swap_apply_right]; rfl
      | 2 => rfl
      | i + 3 => rw [Equiv.swap_apply_of_ne_of_ne (by omega) (by omega)]
    · intro arm
      have hm : Moved (Equiv.swap 0 1) [0, 1, 2] [1, 0, 2] := by
        intro i
        match i with
        | 0 => rw [Equiv.swap_apply_left]; rfl
        | 1 => rw [Equiv.swap_apply_right]; rfl
        | 2 => rfl
        | i + 3 => rw [Equiv.swap_apply_of_ne_of_ne (by omega) (by omega)]; rfl
      by_cases ha : arm = "B"
      · subst ha
        exact .some ⟨rfl, hm, hm, hm, .none⟩
      · have h1 : (numberedFile [3, 3, 5]).arms arm = none := by simp [numberedFile, ha]
        rw [h1]
        simp only [ha, if_false]
        exact .none
  · refine ⟨⟨surveyRow 5 1, [⟨"B", "wave", 1, 1, 1, none⟩], none⟩, by simp, _, List.mem_singleton.mpr rfl, ?_⟩
    intro i hi h hh
    have : h.flux = [0, 1, 2] := by
      simp [numberedFile] at hh
      subst hh
      rfl
    rw [this]
    match i with
    | 0 => simp
    | 1 => exact absurd hi (by decide)
    | 2 => simp
    | i + 3 => simp

/-- A file in two orders: both readings are the same. -/
example : SameFile (numberedFile [9, 3, 5])
    { fibermap := [5, 3, 9].map (fun t c => if c = "TARGETID" then t else 0)
      arms := fun a => if a = "B" then some ⟨"wave", [2, 1, 0], [2, 1, 0], [2, 1, 0], none⟩ else none } := by
  refine ⟨Equiv.swap 0 2, ?_, ?_⟩
  · intro i
    match i with
    | 0 => rw [Equiv.swap_apply_left]; rfl
    | 1 => rfl
    | 2 => rw [Equiv.swap_apply_right]; rfl
    | i + 3 => rw [Equiv.swap_apply_of_ne_of_ne (by omega) (by omega)]; rfl
  · intro arm
    have hm : Moved (Equiv.swap 0 2) [0, 1, 2] [2, 1, 0] := by
      intro i
      match i with
      | 0 => rw [Equiv.swap_apply_left]; rfl
      | 1 => rfl
      | 2 => rw [Equiv.swap_apply_right]; rfl
      | i + 3 => rw [Equiv.swap_apply_of_ne_of_ne (by omega) (by omega)]; rfl
    by_cases ha : arm = "B"
    · subst ha
      exact .some ⟨rfl, hm, hm, hm, .none⟩
    · have h1 : (numberedFile [9, 3, 5]).arms arm = none := by simp [numberedFile, ha]
      rw [h1]
      simp only [ha, if_false]
      exact .none

example : let cat := [surveyRow 3 1, surveyRow 5 1]
    ((readHealpixCoadd argsortStable (fun _ _ => some (numberedFile [9, 3, 5])) ["B"] true cat :
      Except Err (List (RawSpectrum Nat String Nat Nat Unit))).map (·.map (fun s => (s.catrow "TARGETID", s.arms.map (·.flux))))) =
      .ok [(3, [1]), (5, [2])] := by decide

/-- A truth file in two orders. -/
example : SameTruth (⟨[3, 5], ["cont 3", "cont 5"], fun _ => some "reso"⟩ : TruthFile Nat String String)
    ⟨[5, 3], ["cont 5", "cont 3"], fun _ => some "reso"⟩ := by
  refine ⟨rfl, Equiv.swap 0 1, ?_, ?_⟩ <;>
  · intro i
    match i with
    | 0 => rw [Equiv.swap_apply_left]; rfl
    | 1 => rw [Equiv.swap_apply_right]; rfl
    | i + 2 => rw [Equiv.swap_apply_of_ne_of_ne (by omega) (by omega)]; rfl

/-- The rows of the example catalog in reverse order are accepted, and sorted. -/
example : (readQuasarCatalog (fun _ ra _ => ra) (.ok ⟨exFile.cols, exFile.rows.reverse⟩) false false none 0 100).isOk ∧
    exFile.rows ~ exFile.rows.reverse := ⟨by decide, (List.reverse_perm _).symm⟩

/-- Two DLAs of a target and one of another: the transmission is the product in any order. -/
example : let cat : List (DlaRow Rat) := [⟨1, 2, 20⟩, ⟨2, 2, 21⟩, ⟨1, 3, 22⟩]
    cat ~ cat.reverse ∧ ((dlaInit cat (some [1]) (8 / 10)).groups = [(1, [⟨1, 2, 20⟩, ⟨1, 3, 22⟩])]) := by
  refine ⟨(List.reverse_perm _).symm, by decide +kernel⟩

end Verif.Props
