import Verif.Proofs.Readers
import Verif.Props.Catalog

/-!
# C12 - C15: the readers give every spectrum its own data

`argsort` is any function that sorts (numpy's default sort is not stable, so ties are free).
-/

namespace Verif.Props
open Verif.Np Verif.Model Verif.Proofs Verif.Spec List

variable {Val Wv Im Re Co : Type} [LinearOrder Val]

/-! ### C12 -/

theorem survey_pairwise_le {cat : List (Row Val)} (h : SurveyThenTarget cat) :
    cat.Pairwise (fun r s => r "SURVEY" ≤ s "SURVEY") := by
  refine List.Pairwise.imp (fun {r s} hrs => ?_) h
  rcases hrs with h | h
  · exact le_of_lt h
  · exact le_of_eq h.1

/-- **C12.** For a chunk ordered by survey (and target) the reader's groups together are the chunk,
none is empty, each has a single survey and different groups have different surveys. -/
theorem C12_survey_groups {cat : List (Row Val)} (hne : cat ≠ []) (h : SurveyThenTarget cat) :
    IsGrouping (fun r : Row Val => r "SURVEY") cat (splitByKey (fun r => r "SURVEY") cat) :=
  splitByKey_isGrouping _ _ hne (survey_pairwise_le h)

theorem filter_strict {rows : List (Row Val)} {c d : String} {p : Row Val → Bool}
    (hn : (rows.map (fun r => r d)).Nodup)
    (hs : rows.Pairwise (fun r s => r c < s c ∨ r c = s c ∧ r d ≤ s d))
    (hp : ∀ r ∈ rows, ∀ s ∈ rows, p r = true → p s = true → r c = s c) :
    (rows.filter p).Pairwise (fun r s => r d < s d) := by
  have h1 : rows.Pairwise (fun r s => r d ≠ s d) := List.pairwise_map.mp hn
  have h2 := List.Pairwise.and_mem.mp ((hs.and h1).filter p)
  refine h2.imp fun {r s} ⟨hr, hs', ⟨h, hne⟩⟩ => ?_
  have hr' := List.mem_filter.mp hr
  have hs'' := List.mem_filter.mp hs'
  have e := hp r hr'.1 s hs''.1 hr'.2 hs''.2
  rcases h with h | h
  · exact absurd e (ne_of_lt h)
  · exact lt_of_le_of_ne h.2 hne

/-- **C12.** Every chunk that the queue of a data run (not mock, not tiles) contains is ordered by
survey and target if the surveys to keep are given, so the groups are right. -/
theorem C12_queue_chunks_ordered {ang2pix : Nat → Val → Val → Val}
    {file : Except Err (Catalog Val)} {l : List Val} {zmin zmax : Val} {c : Catalog Val}
    (h : readQuasarCatalog ang2pix file false false (some l) zmin zmax = .ok c) (pix : Val) :
    SurveyThenTarget (c.rows.filter (fun s => s "HPXPIXEL" = pix)) := by
  have hn := C10_result_no_duplicates h
  obtain ⟨cat, rfl, hc, -, -, -, hp, -⟩ := read_ok_inv h
  have hn' : c.rows.Pairwise (fun r s => r "TARGETID" ≠ s "TARGETID") := List.pairwise_map.mp hn
  by_cases hs : SortsBySurvey cat.cols (some l)
  · have h1 := C09_survey_order h hs
    have h2 := List.Pairwise.and_mem.mp ((h1.and hn').filter (fun s => s "HPXPIXEL" = pix))
    refine h2.imp fun {r s} ⟨hr, hs', ⟨h, hne⟩⟩ => ?_
    have er : r "HPXPIXEL" = pix := by simpa using (List.mem_filter.mp hr).2
    have es : s "HPXPIXEL" = pix := by simpa using (List.mem_filter.mp hs').2
    rcases h with h | ⟨-, h⟩
    · rw [er, es] at h; exact absurd h (lt_irrefl _)
    · rcases h with h | h
      · exact Or.inl h
      · exact Or.inr ⟨h.1, lt_of_le_of_ne h.2 hne⟩
  · have h1 := C09_pixel_order h hs
    have hsur : "SURVEY" ∈ cat.cols := hc.survey rfl
    have hl : l.length ≤ 1 := by
      by_contra hh
      exact hs ⟨hsur, l, rfl, by omega⟩
    have hmem : ∀ r ∈ c.rows, r "SURVEY" ∈ l := by
      intro r hr
      obtain ⟨r', hr', rfl⟩ := List.mem_map.mp (hp.mem_iff.mp hr)
      have := (List.mem_filter.mp hr').2
      simp only [decide_eq_true_eq] at this
      have h3 := this.2.2 l rfl hsur
      have : outRow cat.cols (ang2pix 64) r' "SURVEY" = r' "SURVEY" := by
        unfold outRow withPixel
        split
        · exact standardNames_other _ _ (by decide)
        · simp [Function.update, standardNames_other]
      rw [show (if (false : Bool) = true then 16 else 64) = 64 from rfl, this]
      exact h3
    have heq : ∀ r ∈ c.rows, ∀ s ∈ c.rows, r "SURVEY" = s "SURVEY" := by
      intro r hr s hs
      have h1 := hmem r hr
      have h2 := hmem s hs
      match l, hl, h1, h2 with
      | [], _, h1, _ => simp at h1
      | [x], _, h1, h2 => simp at h1 h2; rw [h1, h2]
    have h2 := List.Pairwise.and_mem.mp ((h1.and hn').filter (fun s => s "HPXPIXEL" = pix))
    refine h2.imp fun {r s} ⟨hr, hs', ⟨h, hne⟩⟩ => ?_
    have er : r "HPXPIXEL" = pix := by simpa using (List.mem_filter.mp hr).2
    have es : s "HPXPIXEL" = pix := by simpa using (List.mem_filter.mp hs').2
    refine Or.inr ⟨heq r (List.mem_filter.mp hr).1 s (List.mem_filter.mp hs').1, ?_⟩
    rcases h with h | ⟨-, h⟩
    · rw [er, es] at h; exact absurd h (lt_irrefl _)
    · exact lt_of_le_of_ne h hne

/-- A row with target, survey and redshift 2 in pixel 7. -/
def surveyRow (t s : Nat) : Row Nat := fun c =>
  if c = "TARGETID" then t else if c = "SURVEY" then s else if c = "Z" then 2
  else if c = "HPXPIXEL" then 7 else 0

/-- A data file whose survey order is not the order of the targets. -/
def surveyFile (l : List (Nat × Nat)) : Catalog Nat :=
  { cols := ["TARGETID", "Z", "RA", "DEC", "SURVEY", "LASTNIGHT", "HPXPIXEL"]
    rows := l.map (fun x => surveyRow x.1 x.2) }

/-- **C12, limit.** If no surveys are given (`keep_surveys=None`) the catalog is not ordered by
survey, and the same splitting puts two surveys into one group. -/
theorem C12_no_surveys_mixed_group :
    ∃ (file c : Catalog Nat), HasColumns file.cols false false ∧
      NoDuplicates file.rows false ∧
      readQuasarCatalog exPix (.ok file) false false none 0 9 = .ok c ∧
      ∃ g ∈ splitByKey (fun r => r "SURVEY") c.rows, ∃ r ∈ g, ∃ s ∈ g,
        r "SURVEY" ≠ s "SURVEY" := by
  refine ⟨surveyFile [(1, 10), (2, 20), (3, 10)], surveyFile [(1, 10), (2, 20), (3, 10)], ?_, ?_,
    rfl, ?_⟩
  · exact ⟨by decide, by decide, ⟨"RA", by decide, by decide⟩, ⟨"DEC", by decide, by decide⟩,
      by decide, fun _ => ⟨"LASTNIGHT", by decide, by decide⟩, by decide, by decide⟩
  · unfold NoDuplicates; decide
  · exact ⟨[surveyRow 2 20, surveyRow 3 10], List.mem_cons_of_mem _ List.mem_cons_self,
      surveyRow 2 20, by simp, surveyRow 3 10, by simp, by decide⟩

/-- **C12, limit.** It may also produce an empty group, on which the reader fails. -/
theorem C12_no_surveys_empty_group :
    ∃ (file c : Catalog Nat),
      readQuasarCatalog exPix (.ok file) false false none 0 9 = .ok c ∧
      [] ∈ splitByKey (fun r => r "SURVEY") c.rows :=
  ⟨surveyFile [(1, 20), (2, 10)], surveyFile [(1, 20), (2, 10)], rfl, List.mem_cons_self⟩

/-! ### C13 -/

theorem group_strict {cat g : List (Row Val)} {key : String} {groups : List (List (Row Val))}
    (hG : IsGrouping (fun r : Row Val => r key) cat groups)
    (h : cat.Pairwise (fun r s => r key < s key ∨ r key = s key ∧ r "TARGETID" < s "TARGETID"))
    (hg : g ∈ groups) : (g.map (fun r => r "TARGETID")).Pairwise (· < ·) := by
  rw [List.pairwise_map]
  have hsub : g.Sublist cat := by
    rw [← hG.flatten]; exact List.sublist_flatten_of_mem hg
  have := List.Pairwise.and_mem.mp (h.sublist hsub)
  refine this.imp fun {r s} ⟨hr, hs, h⟩ => ?_
  rcases h with h | h
  · exact absurd (hG.homogeneous g hg r hr s hs) (ne_of_lt h)
  · exact h.2

theorem mem_of_group {cat g : List (Row Val)} {key : String} {groups : List (List (Row Val))}
    (hG : IsGrouping (fun r : Row Val => r key) cat groups) (hg : g ∈ groups) :
    ∀ r ∈ g, r ∈ cat := by
  intro r hr
  rw [← hG.flatten]
  exact List.mem_flatten.mpr ⟨g, hg, hr⟩

theorem firstRow_ok {cat : List (Row Val)} (h : cat ≠ []) :
    ∃ r ∈ cat, firstRow cat = .ok r ∧ cat[0]? = some r := by
  cases cat with
  | nil => exact absurd rfl h
  | cons r rs => exact ⟨r, by simp, rfl, rfl⟩

/-- **C13, coadd reader.** For a chunk of one pixel ordered by survey and target, with complete
files in which no target occurs twice: the spectra returned are, in catalog order, exactly those
rows whose target is in the file of their survey, and each has wavelength, flux, ivar, mask and
resolution of the row of its own target in the file of its own survey and pixel. -/
theorem C13_coadd_pairing {argsort : List Val → List Nat} (hA : ∀ k, IsArgsort k (argsort k))
    {files : Val → Val → Option (SpecFile Val Wv Im Re)} {arms : List String} {skip : Bool}
    {cat : List (Row Val)} (hne : cat ≠ []) (hs : SurveyThenTarget cat)
    (hpix : Same "HPXPIXEL" cat)
    (hfiles : ∀ r ∈ cat, ∃ f, files (r "SURVEY") (r "HPXPIXEL") = some f ∧ FileOk f arms ∧
      (f.fibermap.map (fun r => r "TARGETID")).Nodup) :
    ∃ out : List (RawSpectrum Val Wv Im Re Co),
      readHealpixCoadd argsort files arms skip cat = .ok out ∧
      out.map (·.catrow) =
        cat.filter (fun r => inFile (files (r "SURVEY") (r "HPXPIXEL")) (r "TARGETID")) ∧
      ∀ s ∈ out, s.cont = none ∧
        ∃ f i, files (s.catrow "SURVEY") (s.catrow "HPXPIXEL") = some f ∧
          fileTarget f i = some (s.catrow "TARGETID") ∧
          HasFileRow f arms i s ∧ HasFileReso f skip i s := by
  have hG := C12_survey_groups hne hs
  obtain ⟨first, hfm, hfirst, -⟩ := firstRow_ok hne
  obtain ⟨outs, ho, hmap, hall⟩ := groups_mapM (S := RawSpectrum Val Wv Im Re Co) hG
    (f := fun g => do
      let r ← firstRow g
      readGroup argsort (files (r "SURVEY") (first "HPXPIXEL")) arms skip g)
    (proj := (·.catrow))
    (p := fun r => inFile (files (r "SURVEY") (r "HPXPIXEL")) (r "TARGETID"))
    (Q := fun s => s.cont = none ∧
        ∃ f i, files (s.catrow "SURVEY") (s.catrow "HPXPIXEL") = some f ∧
          fileTarget f i = some (s.catrow "TARGETID") ∧
          HasFileRow f arms i s ∧ HasFileReso f skip i s) (by
      intro g hg
      obtain ⟨r, hr, hr1, -⟩ := firstRow_ok (hG.nonempty g hg)
      have hsub := mem_of_group hG hg
      obtain ⟨f, hf, hfok, hfn⟩ := hfiles r (hsub r hr)
      have hkey : ∀ x ∈ g, x "SURVEY" = r "SURVEY" ∧ x "HPXPIXEL" = r "HPXPIXEL" := fun x hx =>
        ⟨hG.homogeneous g hg x hx r hr, hpix x (hsub x hx) r (hsub r hr)⟩
      obtain ⟨out, h1, h2, h3⟩ := readGroup_ok (Co := Co) hA hfok hfn skip (group_strict hG hs hg)
      refine ⟨out, ?_, ?_, ?_⟩
      · rw [hr1]
        simp only [except_bind_ok]
        rw [hpix first hfm r (hsub r hr), hf, h1]
      · rw [h2]
        refine List.filter_congr fun x hx => ?_
        rw [(hkey x hx).1, (hkey x hx).2, hf]
        rfl
      · intro s hsm
        obtain ⟨hc, i, h4⟩ := h3 s hsm
        have hmem : s.catrow ∈ g := by
          have : s.catrow ∈ out.map (·.catrow) := List.mem_map_of_mem hsm
          rw [h2] at this
          exact (List.mem_filter.mp this).1
        exact ⟨hc, f, i, by rw [(hkey _ hmem).1, (hkey _ hmem).2, hf], h4⟩)
  refine ⟨outs.flatten, ?_, hmap, hall⟩
  unfold readHealpixCoadd
  rw [hfirst]
  simp only [except_bind_ok]
  rw [ho]
  rfl

/-- **C13.** If the file of some row of the chunk does not exist, the reader fails: rows are not
dropped silently because of a missing file. -/
theorem C13_coadd_missing_file {argsort : List Val → List Nat}
    {files : Val → Val → Option (SpecFile Val Wv Im Re)} {arms : List String} {skip : Bool}
    {cat : List (Row Val)} (hs : SurveyThenTarget cat) (hpix : Same "HPXPIXEL" cat)
    (h : ∃ r ∈ cat, files (r "SURVEY") (r "HPXPIXEL") = none) :
    ∃ e, (readHealpixCoadd argsort files arms skip cat :
      Except Err (List (RawSpectrum Val Wv Im Re Co))) = .error e := by
  obtain ⟨x, hx, hnone⟩ := h
  have hne : cat ≠ [] := List.ne_nil_of_mem hx
  have hG := C12_survey_groups hne hs
  obtain ⟨first, hfm, hfirst, -⟩ := firstRow_ok hne
  have hx' : x ∈ (splitByKey (fun r : Row Val => r "SURVEY") cat).flatten := by
    rw [hG.flatten]; exact hx
  obtain ⟨g, hg, hxg⟩ := List.mem_flatten.mp hx'
  obtain ⟨r, hr, hr1, -⟩ := firstRow_ok (hG.nonempty g hg)
  obtain ⟨e, he⟩ := mapM_error (l := splitByKey (fun r : Row Val => r "SURVEY") cat)
    (f := fun g => do
      let r ← firstRow g
      (readGroup argsort (files (r "SURVEY") (first "HPXPIXEL")) arms skip g :
        Except Err (List (RawSpectrum Val Wv Im Re Co)))) hg (e := .osError) (by
      rw [hr1]
      simp only [except_bind_ok]
      rw [hpix first hfm x hx, hG.homogeneous g hg r hr x hxg, hnone]
      rfl)
  refine ⟨e, ?_⟩
  unfold readHealpixCoadd
  rw [hfirst]
  simp only [except_bind_ok]
  rw [he]
  rfl

/-- **C13, tile reader.** For the rows of one tile, ordered by petal and target: the file of a row
is that of its own tile and petal, and of the last night of the tile (the first row's). -/
theorem C13_tile_pairing {argsort : List Val → List Nat} (hA : ∀ k, IsArgsort k (argsort k))
    {files : Val → Val → Val → Option (SpecFile Val Wv Im Re)} {arms : List String} {skip : Bool}
    {cat : List (Row Val)} (hne : cat ≠ []) (hs : PetalThenTarget cat)
    (htile : Same "TILEID" cat) (hnight : Same "LASTNIGHT" cat)
    (hfiles : ∀ r ∈ cat, ∃ f, files (r "TILEID") (r "LASTNIGHT") (r "PETAL_LOC") = some f ∧
      FileOk f arms ∧ (f.fibermap.map (fun r => r "TARGETID")).Nodup) :
    ∃ out : List (RawSpectrum Val Wv Im Re Co),
      readTile argsort files arms skip cat = .ok out ∧
      out.map (·.catrow) = cat.filter (fun r =>
        inFile (files (r "TILEID") (r "LASTNIGHT") (r "PETAL_LOC")) (r "TARGETID")) ∧
      ∀ s ∈ out, s.cont = none ∧
        ∃ f i, files (s.catrow "TILEID") (s.catrow "LASTNIGHT") (s.catrow "PETAL_LOC") = some f ∧
          fileTarget f i = some (s.catrow "TARGETID") ∧
          HasFileRow f arms i s ∧ HasFileReso f skip i s := by
  have hG : IsGrouping (fun r : Row Val => r "PETAL_LOC") cat
      (splitByKey (fun r => r "PETAL_LOC") cat) := by
    refine splitByKey_isGrouping _ _ hne (List.Pairwise.imp (fun {r s} hrs => ?_) hs)
    rcases hrs with h | h
    · exact le_of_lt h
    · exact le_of_eq h.1
  obtain ⟨first, hfm, hfirst, -⟩ := firstRow_ok hne
  obtain ⟨outs, ho, hmap, hall⟩ := groups_mapM (S := RawSpectrum Val Wv Im Re Co) hG
    (f := fun g => do
      let r ← firstRow g
      readGroup argsort (files (first "TILEID") (first "LASTNIGHT") (r "PETAL_LOC")) arms skip g)
    (proj := (·.catrow))
    (p := fun r => inFile (files (r "TILEID") (r "LASTNIGHT") (r "PETAL_LOC")) (r "TARGETID"))
    (Q := fun s => s.cont = none ∧
        ∃ f i, files (s.catrow "TILEID") (s.catrow "LASTNIGHT") (s.catrow "PETAL_LOC") = some f ∧
          fileTarget f i = some (s.catrow "TARGETID") ∧
          HasFileRow f arms i s ∧ HasFileReso f skip i s) (by
      intro g hg
      obtain ⟨r, hr, hr1, -⟩ := firstRow_ok (hG.nonempty g hg)
      have hsub := mem_of_group hG hg
      obtain ⟨f, hf, hfok, hfn⟩ := hfiles r (hsub r hr)
      have hkey : ∀ x ∈ g, x "PETAL_LOC" = r "PETAL_LOC" ∧ x "TILEID" = r "TILEID" ∧
          x "LASTNIGHT" = r "LASTNIGHT" := fun x hx =>
        ⟨hG.homogeneous g hg x hx r hr, htile x (hsub x hx) r (hsub r hr),
          hnight x (hsub x hx) r (hsub r hr)⟩
      obtain ⟨out, h1, h2, h3⟩ := readGroup_ok (Co := Co) hA hfok hfn skip (group_strict hG hs hg)
      refine ⟨out, ?_, ?_, ?_⟩
      · rw [hr1]
        simp only [except_bind_ok]
        rw [htile first hfm r (hsub r hr), hnight first hfm r (hsub r hr), hf, h1]
      · rw [h2]
        refine List.filter_congr fun x hx => ?_
        rw [(hkey x hx).1, (hkey x hx).2.1, (hkey x hx).2.2, hf]
        rfl
      · intro s hsm
        obtain ⟨hc, i, h4⟩ := h3 s hsm
        have hmem : s.catrow ∈ g := by
          have : s.catrow ∈ out.map (·.catrow) := List.mem_map_of_mem hsm
          rw [h2] at this
          exact (List.mem_filter.mp this).1
        exact ⟨hc, f, i, by rw [(hkey _ hmem).1, (hkey _ hmem).2.1, (hkey _ hmem).2.2, hf], h4⟩)
  refine ⟨outs.flatten, ?_, hmap, hall⟩
  unfold readTile
  rw [hfirst]
  simp only [except_bind_ok]
  rw [ho]
  rfl

/-- The chunks of a tile run are ordered as the tile reader needs it. -/
theorem C13_tile_chunks_ordered {ang2pix : Nat → Val → Val → Val}
    {file : Except Err (Catalog Val)} {isMock : Bool} {ks : Option (List Val)} {zmin zmax : Val}
    {c : Catalog Val}
    (h : readQuasarCatalog ang2pix file isMock true ks zmin zmax = .ok c) (tile : Val) :
    PetalThenTarget (c.rows.filter (fun s => s "TILEID" = tile)) := by
  have hn : c.rows.Pairwise (fun r s => (r "TARGETID", r "TILEID") ≠ (s "TARGETID", s "TILEID")) :=
    List.pairwise_map.mp (C10_result_no_duplicates h)
  have h1 := C09_tile_order h
  have h2 := List.Pairwise.and_mem.mp ((h1.and hn).filter (fun s => s "TILEID" = tile))
  refine h2.imp fun {r s} ⟨hr, hs', ⟨h, hne⟩⟩ => ?_
  have er : r "TILEID" = tile := by simpa using (List.mem_filter.mp hr).2
  have es : s "TILEID" = tile := by simpa using (List.mem_filter.mp hs').2
  rcases h with h | ⟨-, h⟩
  · rw [er, es] at h; exact absurd h (lt_irrefl _)
  · rcases h with h | h
    · exact Or.inl h
    · refine Or.inr ⟨h.1, lt_of_le_of_ne h.2 ?_⟩
      intro e; exact hne (by rw [e, er, es])

/-- **C13, mock reader.** For the rows of one pixel ordered by target: the spectra returned are
exactly the rows with a target in the file, each with the data of the row of its own target. The
resolution is the matrix of the arm in the truth file. -/
theorem C13_mock_pairing {argsort : List Val → List Nat} (hA : ∀ k, IsArgsort k (argsort k))
    {files : Val → Option (SpecFile Val Wv Im Re)} {truths : Val → Option (TruthFile Val Re Co)}
    {arms : List String} {skip : Bool} {cat : List (Row Val)} (hne : cat ≠ [])
    (hc : cat.Pairwise (fun r s => r "TARGETID" < s "TARGETID"))
    (hpix : Same "HPXPIXEL" cat)
    (hfiles : ∀ r ∈ cat, ∃ f, files (r "HPXPIXEL") = some f ∧ FileOk f arms ∧
      (f.fibermap.map (fun r => r "TARGETID")).Nodup)
    (htruth : skip = false → ∀ r ∈ cat, ∃ t, truths (r "HPXPIXEL") = some t ∧
      ∀ arm ∈ arms, ∃ m, t.reso arm = some m) :
    ∃ out : List (RawSpectrum Val Wv Im Re Co),
      readMock argsort files truths arms skip false cat = .ok out ∧
      out.map (·.catrow) = cat.filter (fun r => inFile (files (r "HPXPIXEL")) (r "TARGETID")) ∧
      ∀ s ∈ out, s.cont = none ∧
        (∃ f i, files (s.catrow "HPXPIXEL") = some f ∧
          fileTarget f i = some (s.catrow "TARGETID") ∧ HasFileRow f arms i s) ∧
        ∀ a ∈ s.arms, (skip = true → a.reso = none) ∧ (skip = false →
          ∃ t, truths (s.catrow "HPXPIXEL") = some t ∧ a.reso = t.reso a.arm) := by
  obtain ⟨first, hfm, -, hfirst⟩ := firstRow_ok hne
  obtain ⟨f, hf, hfok, hfn⟩ := hfiles first hfm
  obtain ⟨out, h1, h2, h3⟩ := readMock_ok (skip := skip) (trueCont := false) hA
    (List.pairwise_map.mpr hc) hfirst hf hfok hfn (truths := truths) (by
      intro hh
      have hsk : skip = false := by rcases hh with hh | hh; exact hh; simp at hh
      obtain ⟨t, ht, hr⟩ := htruth hsk first hfm
      exact ⟨t, ht, fun _ => hr, by simp⟩)
  have hfil : cat.filter (fun r => r "TARGETID" ∈ f.fibermap.map (fun r => r "TARGETID")) =
      cat.filter (fun r => inFile (files (r "HPXPIXEL")) (r "TARGETID")) := by
    refine List.filter_congr fun x hx => ?_
    rw [hpix x hx first hfm, hf]; rfl
  refine ⟨out, h1, by rw [h2, hfil], ?_⟩
  intro s hsm
  obtain ⟨⟨i, hi, hrow⟩, hreso, hcont, -⟩ := h3 s hsm
  have hmem : s.catrow ∈ cat := by
    have : s.catrow ∈ out.map (·.catrow) := List.mem_map_of_mem hsm
    rw [h2] at this
    exact (List.mem_filter.mp this).1
  have hp := hpix _ hmem first hfm
  refine ⟨hcont rfl, ⟨f, i, by rw [hp, hf], hi, hrow⟩, ?_⟩
  rw [hp]
  exact hreso

/-- **C13, whole run.** In a data run with the surveys to keep given, every chunk that any of the
`n + 1` ranks receives is read correctly: the spectra of all ranks together are exactly the catalog
rows whose target is in the file of their own survey and pixel, each with its own data. -/
theorem C13_run_reads_catalog {V W : Type} (cs : Codec Bool V)
    (cq : Codec (List (List (Row Val))) V) (ang2pix : Nat → Val → Val → Val)
    (file : Except Err (Catalog Val)) (l : List Val) (zmin zmax : Val) (n : Nat)
    {c : Catalog Val}
    (h : readQuasarCatalog ang2pix file false false (some l) zmin zmax = .ok c)
    {argsort : List Val → List Nat} (hA : ∀ k, IsArgsort k (argsort k))
    {files : Val → Val → Option (SpecFile Val Wv Im Re)} {arms : List String} {skip : Bool}
    (hfiles : ∀ r ∈ c.rows, ∃ f, files (r "SURVEY") (r "HPXPIXEL") = some f ∧ FileOk f arms ∧
      (f.fibermap.map (fun r => r "TARGETID")).Nodup) :
    ∃ (q : List (List (List (Row Val)))) (out : List (List (List (RawSpectrum Val Wv Im Re Co)))),
      (runJob n (fun r => mpiGetLocalQueue (W := W) cs cq
        (readQuasarCatalog ang2pix file false false (some l) zmin zmax) false (n + 1) r)).1 =
        .done (q.map .ok) ∧
      q.mapM (fun queue => queue.mapM (readHealpixCoadd argsort files arms skip)) = .ok out ∧
      out.flatten.flatten.map (·.catrow) ~
        c.rows.filter (fun r => inFile (files (r "SURVEY") (r "HPXPIXEL")) (r "TARGETID")) ∧
      ∀ s ∈ out.flatten.flatten, s.cont = none ∧
        ∃ f i, files (s.catrow "SURVEY") (s.catrow "HPXPIXEL") = some f ∧
          fileTarget f i = some (s.catrow "TARGETID") ∧
          HasFileRow f arms i s ∧ HasFileReso f skip i s := by
  obtain ⟨q, hq, -, hperm, hch, -⟩ := C06_local_queues (W := W) cs cq ang2pix file false false
    (some l) zmin zmax n c h
  have hchunk : ∀ chunk ∈ q.flatten, ∃ out : List (RawSpectrum Val Wv Im Re Co),
      readHealpixCoadd argsort files arms skip chunk = .ok out ∧
      out.map (·.catrow) =
        chunk.filter (fun r => inFile (files (r "SURVEY") (r "HPXPIXEL")) (r "TARGETID")) ∧
      ∀ s ∈ out, s.cont = none ∧
        ∃ f i, files (s.catrow "SURVEY") (s.catrow "HPXPIXEL") = some f ∧
          fileTarget f i = some (s.catrow "TARGETID") ∧
          HasFileRow f arms i s ∧ HasFileReso f skip i s := by
    intro chunk hc
    obtain ⟨hne, hflt⟩ := hch chunk hc
    obtain ⟨r0, hr0⟩ := List.exists_mem_of_ne_nil _ hne
    have he := hflt r0 hr0
    simp only [Bool.false_eq_true, if_false] at he
    refine C13_coadd_pairing hA hne ?_ ?_ ?_
    · rw [he]; exact C12_queue_chunks_ordered h _
    · intro r hr s hs
      rw [he] at hr hs
      have h1 := (List.mem_filter.mp hr).2
      have h2 := (List.mem_filter.mp hs).2
      simp only [decide_eq_true_eq] at h1 h2
      rw [h1, h2]
    · intro r hr
      rw [he] at hr
      exact hfiles r (List.mem_filter.mp hr).1
  obtain ⟨out, ho, hF⟩ := mapM_ok_of_forall (l := q)
    (f := fun queue => queue.mapM (readHealpixCoadd (Co := Co) argsort files arms skip))
    (R := fun queue out => out.flatten.map (·.catrow) = queue.flatten.filter
        (fun r => inFile (files (r "SURVEY") (r "HPXPIXEL")) (r "TARGETID")) ∧
      ∀ s ∈ out.flatten, s.cont = none ∧
        ∃ f i, files (s.catrow "SURVEY") (s.catrow "HPXPIXEL") = some f ∧
          fileTarget f i = some (s.catrow "TARGETID") ∧
          HasFileRow f arms i s ∧ HasFileReso f skip i s) (by
      intro queue hqm
      obtain ⟨o, ho, hoF⟩ := mapM_ok_of_forall (fun chunk hc =>
        hchunk chunk (List.mem_flatten.mpr ⟨queue, hqm, hc⟩))
      refine ⟨o, ho, ?_, ?_⟩
      · clear ho hqm
        induction hoF with
        | nil => rfl
        | cons h _ ih => simp [h.1, ih]
      · intro s hs
        obtain ⟨o', ho', hs'⟩ := List.mem_flatten.mp hs
        obtain ⟨g, -, hg⟩ := forall₂_mem_right hoF ho'
        exact hg.2 s hs')
  refine ⟨q, out, hq, ho, ?_, ?_⟩
  · have : out.flatten.flatten.map (·.catrow) = q.flatten.flatten.filter
        (fun r => inFile (files (r "SURVEY") (r "HPXPIXEL")) (r "TARGETID")) := by
      clear ho hq hperm hch hchunk
      induction hF with
      | nil => rfl
      | cons h _ ih =>
        simp only [List.flatten_cons, List.flatten_append, List.map_append, List.filter_append,
          h.1, ih]
    rw [this]
    exact hperm.filter _
  · intro s hs
    obtain ⟨o', ho', hs'⟩ := List.mem_flatten.mp hs
    obtain ⟨o'', ho'', hs''⟩ := List.mem_flatten.mp ho'
    obtain ⟨g, -, hg⟩ := forall₂_mem_right hF ho''
    exact hg.2 s (List.mem_flatten.mpr ⟨o', hs'', hs'⟩)

/-! ### C14 -/

/-- **C14.** For a chunk of one pixel ordered by survey and target, and a catalog without the
columns which the exposure file adds: survey by survey there is exactly one spectrum for every
FIBERMAP row whose target is in the catalog for this survey, with the data of this row, and with the
catalog row of its target to which the exposure columns of this row are added. A target may occur in
any number of exposure rows. -/
theorem C14_exposure_pairing {argsort : List Val → List Nat} (hA : ∀ k, IsArgsort k (argsort k))
    {cols : List String} (hcols : ∀ c ∈ ["PETAL_LOC", "FIBER", "NIGHT", "EXPID", "TILEID"], c ∉ cols)
    {files : Val → Val → Option (SpecFile Val Wv Im Re)} {arms : List String} {skip : Bool}
    {cat : List (Row Val)} (hne : cat ≠ []) (hs : SurveyThenTarget cat)
    (hpix : Same "HPXPIXEL" cat)
    (hfiles : ∀ r ∈ cat, ∃ f, files (r "SURVEY") (r "HPXPIXEL") = some f ∧ FileOk f arms) :
    ∃ (surveys : List Val) (outs : List (List (RawSpectrum Val Wv Im Re Co))),
      readHealpixUncoadd argsort cols files arms skip cat = .ok outs.flatten ∧
      surveys.Pairwise (· < ·) ∧ (∀ k, k ∈ surveys ↔ ∃ r ∈ cat, r "SURVEY" = k) ∧
      List.Forall₂ (fun survey out => ∃ (f : SpecFile Val Wv Im Re) (J : List Nat),
        (∀ r ∈ cat, files survey (r "HPXPIXEL") = some f) ∧
        J.Nodup ∧ (∀ i, i ∈ J ↔ ∃ r ∈ cat, r "SURVEY" = survey ∧
          fileTarget f i = some (r "TARGETID")) ∧
        List.Forall₂ (fun i (s : RawSpectrum Val Wv Im Re Co) => s.cont = none ∧
          (∃ r ∈ cat, r "SURVEY" = survey ∧ ∃ fbr, f.fibermap[i]? = some fbr ∧
            fbr "TARGETID" = r "TARGETID" ∧
            ∀ c, s.catrow c = if c ∈ ["PETAL_LOC", "FIBER", "NIGHT", "EXPID", "TILEID"] then fbr c
              else r c) ∧
          HasFileRow f arms i s ∧ HasFileReso f skip i s) J out) surveys outs := by
  have hG := C12_survey_groups hne hs
  obtain ⟨first, hfm, hfirst, -⟩ := firstRow_ok hne
  obtain ⟨surveys, hsur, hsmem, hsF⟩ := isGrouping_keys hG
  obtain ⟨outs, ho, hF⟩ := mapM_ok_of_forall
    (l := splitByKey (fun r : Row Val => r "SURVEY") cat)
    (f := fun g => do
      let r ← firstRow g
      (readGroupUncoadd argsort cols (files (r "SURVEY") (first "HPXPIXEL")) arms skip g :
        Except Err (List (RawSpectrum Val Wv Im Re Co))))
    (R := fun g out => ∃ (f : SpecFile Val Wv Im Re) (J : List Nat),
      (∀ r ∈ g, files (r "SURVEY") (first "HPXPIXEL") = some f) ∧
      J ~ isinIdx (f.fibermap.map (· "TARGETID")) (g.map (· "TARGETID")) ∧
      List.Forall₂ (fun i (s : RawSpectrum Val Wv Im Re Co) => s.cont = none ∧
        (∃ r ∈ g, ∃ fbr, f.fibermap[i]? = some fbr ∧ fbr "TARGETID" = r "TARGETID" ∧
          s.catrow = mergeRow r fbr) ∧
        HasFileRow f arms i s ∧ HasFileReso f skip i s) J out) (by
      intro g hg
      obtain ⟨r, hr, hr1, -⟩ := firstRow_ok (hG.nonempty g hg)
      have hsub := mem_of_group hG hg
      obtain ⟨f, hf, hfok⟩ := hfiles r (hsub r hr)
      obtain ⟨out, J, h1, h2, h3⟩ := readGroupUncoadd_ok (Co := Co) hA hcols hfok skip
        (group_strict hG hs hg)
      refine ⟨out, ?_, f, J, ?_, h2, h3⟩
      · rw [hr1]
        simp only [except_bind_ok]
        rw [hpix first hfm r (hsub r hr), hf, h1]
      · intro x hx
        rw [hG.homogeneous g hg x hx r hr, hpix first hfm r (hsub r hr), hf])
  refine ⟨surveys, outs, ?_, hsur, hsmem, ?_⟩
  · unfold readHealpixUncoadd
    rw [hfirst]
    simp only [except_bind_ok]
    rw [ho]
    rfl
  · refine forall₂_trans' (R := fun k g => g ∈ splitByKey (fun r : Row Val => r "SURVEY") cat ∧
      ∀ r, r ∈ g ↔ r ∈ cat ∧ r "SURVEY" = k) ?_ hsF.flip hF
    rintro k g out ⟨hg, hk⟩ ⟨f, J, h1, h2, h3⟩
    obtain ⟨r0, hr0⟩ := List.exists_mem_of_ne_nil _ (hG.nonempty g hg)
    refine ⟨f, J, ?_, ?_, ?_, ?_⟩
    · intro r hr
      rw [hpix r hr first hfm, ← ((hk r0).mp hr0).2]
      exact h1 r0 hr0
    · refine h2.nodup_iff.mpr ?_
      exact List.nodup_range.filter _
    · intro i
      rw [h2.mem_iff, mem_isinIdx]
      unfold fileTarget
      rw [List.getElem?_map]
      constructor
      · rintro ⟨x, hx, hm⟩
        obtain ⟨r, hr, rfl⟩ := List.mem_map.mp hm
        exact ⟨r, ((hk r).mp hr).1, ((hk r).mp hr).2, hx⟩
      · rintro ⟨r, hr, he, hx⟩
        exact ⟨_, hx, List.mem_map.mpr ⟨r, (hk r).mpr ⟨hr, he⟩, rfl⟩⟩
    · refine h3.imp ?_
      rintro i s ⟨hc, ⟨r, hr, fbr, hf1, hf2, hf3⟩, h4⟩
      refine ⟨hc, ⟨r, ((hk r).mp hr).1, ((hk r).mp hr).2, fbr, hf1, hf2, ?_⟩, h4⟩
      intro c
      rw [hf3]
      rfl

/-- **C14, limit.** A catalog that already has one of the exposure columns (a tile id, say) cannot
be used to read exposures: the reader fails for every file and every chunk. -/
theorem C14_exposure_columns_refused {argsort : List Val → List Nat} {cols : List String}
    (hcols : ∃ c ∈ ["PETAL_LOC", "FIBER", "NIGHT", "EXPID", "TILEID"], c ∈ cols)
    {files : Val → Val → Option (SpecFile Val Wv Im Re)} {arms : List String} {skip : Bool}
    {cat : List (Row Val)} :
    ∃ e, (readHealpixUncoadd argsort cols files arms skip cat :
      Except Err (List (RawSpectrum Val Wv Im Re Co))) = .error e := by
  have hgrp : ∀ file (g : List (Row Val)), ∃ e, (readGroupUncoadd argsort cols file arms skip g :
      Except Err (List (RawSpectrum Val Wv Im Re Co))) = .error e := by
    intro file g
    unfold readGroupUncoadd
    have : fbrColumns.any (· ∈ cols) = true := by
      obtain ⟨c, hc, h⟩ := hcols
      rw [List.any_eq_true]
      exact ⟨c, hc, by simpa using h⟩
    simp only [this, if_true]
    cases h1 : readOneHealpixFile argsort (g.map (· "TARGETID")) file arms skip with
    | error e => exact ⟨e, rfl⟩
    | ok x =>
      obtain ⟨d, i, f⟩ := x
      simp only [except_bind_ok]
      cases h2 : selectCat g i with
      | error e => exact ⟨e, rfl⟩
      | ok g' =>
        simp only [except_bind_ok]
        cases h3 : fancy g' (f.map (fun f => searchsorted (g'.map (· "TARGETID")) (f "TARGETID"))) with
        | error e => exact ⟨e, rfl⟩
        | ok g'' => exact ⟨_, rfl⟩
  unfold readHealpixUncoadd
  cases h0 : firstRow cat with
  | error e => exact ⟨e, rfl⟩
  | ok first =>
    simp only [except_bind_ok]
    obtain ⟨g, hg⟩ : ∃ g, g ∈ splitByKey (fun r : Row Val => r "SURVEY") cat := by
      unfold splitByKey split
      cases (uniqueIdx (cat.map fun r => r "SURVEY")).tail with
      | nil => exact ⟨_, List.mem_cons_self⟩
      | cons _ _ => exact ⟨_, List.mem_cons_self⟩
    obtain ⟨e, he⟩ : ∃ e, (do
        let r ← firstRow g
        (readGroupUncoadd argsort cols (files (r "SURVEY") (first "HPXPIXEL")) arms skip g :
          Except Err (List (RawSpectrum Val Wv Im Re Co)))) = .error e := by
      cases h1 : firstRow g with
      | error e => exact ⟨e, rfl⟩
      | ok r => exact hgrp _ g
    obtain ⟨e', he'⟩ := mapM_error (f := fun g => do
      let r ← firstRow g
      (readGroupUncoadd argsort cols (files (r "SURVEY") (first "HPXPIXEL")) arms skip g :
        Except Err (List (RawSpectrum Val Wv Im Re Co)))) hg he
    exact ⟨e', by rw [he']; rfl⟩

/-! ### C15 -/

/-- **C15.** With the true continuum every spectrum of a mock chunk has the continuum of the row of
the truth file with its own target. -/
theorem C15_true_continuum {argsort : List Val → List Nat} (hA : ∀ k, IsArgsort k (argsort k))
    {files : Val → Option (SpecFile Val Wv Im Re)} {truths : Val → Option (TruthFile Val Re Co)}
    {arms : List String} {skip : Bool} {cat : List (Row Val)} (hne : cat ≠ [])
    (hc : cat.Pairwise (fun r s => r "TARGETID" < s "TARGETID"))
    (hpix : Same "HPXPIXEL" cat)
    (hfiles : ∀ r ∈ cat, ∃ f, files (r "HPXPIXEL") = some f ∧ FileOk f arms ∧
      (f.fibermap.map (fun r => r "TARGETID")).Nodup)
    (htruth : ∀ r ∈ cat, ∃ t, truths (r "HPXPIXEL") = some t ∧
      t.cont.length = t.contIds.length ∧ (skip = false → ∀ arm ∈ arms, ∃ m, t.reso arm = some m) ∧
      (inFile (files (r "HPXPIXEL")) (r "TARGETID") → r "TARGETID" ∈ t.contIds)) :
    ∃ out : List (RawSpectrum Val Wv Im Re Co),
      readMock argsort files truths arms skip true cat = .ok out ∧
      out.map (·.catrow) = cat.filter (fun r => inFile (files (r "HPXPIXEL")) (r "TARGETID")) ∧
      ∀ s ∈ out, ∃ (t : TruthFile Val Re Co) (k : Nat) (c : Co),
        truths (s.catrow "HPXPIXEL") = some t ∧ t.contIds[k]? = some (s.catrow "TARGETID") ∧
        t.cont[k]? = some c ∧ s.cont = some c ∧
        ∃ f i, files (s.catrow "HPXPIXEL") = some f ∧
          fileTarget f i = some (s.catrow "TARGETID") ∧ HasFileRow f arms i s := by
  obtain ⟨first, hfm, -, hfirst⟩ := firstRow_ok hne
  obtain ⟨f, hf, hfok, hfn⟩ := hfiles first hfm
  obtain ⟨out, h1, h2, h3⟩ := readMock_ok (skip := skip) (trueCont := true) hA
    (List.pairwise_map.mpr hc) hfirst hf hfok hfn (truths := truths) (by
      intro _
      obtain ⟨t, ht, hl, hr, -⟩ := htruth first hfm
      refine ⟨t, ht, hr, fun _ => ⟨hl, fun r hr hm => ?_⟩⟩
      obtain ⟨t', ht', -, -, h⟩ := htruth r hr
      have hp := hpix r hr first hfm
      rw [hp, ht] at ht'
      cases ht'
      apply h
      rw [hp, hf]
      simpa [inFile] using hm)
  have hfil : cat.filter (fun r => r "TARGETID" ∈ f.fibermap.map (fun r => r "TARGETID")) =
      cat.filter (fun r => inFile (files (r "HPXPIXEL")) (r "TARGETID")) := by
    refine List.filter_congr fun x hx => ?_
    rw [hpix x hx first hfm, hf]; rfl
  refine ⟨out, h1, by rw [h2, hfil], ?_⟩
  intro s hsm
  obtain ⟨⟨i, hi, hrow⟩, -, -, hcont⟩ := h3 s hsm
  have hmem : s.catrow ∈ cat := by
    have : s.catrow ∈ out.map (·.catrow) := List.mem_map_of_mem hsm
    rw [h2] at this
    exact (List.mem_filter.mp this).1
  have hp := hpix _ hmem first hfm
  obtain ⟨t, k, c, ht, hk, hc, hs⟩ := hcont rfl
  exact ⟨t, k, c, by rw [hp, ht], hk, hc, hs, f, i, by rw [hp, hf], hi, hrow⟩

/-- **C15.** A target with spectrum but without stored continuum makes the reader fail; it is not
given another continuum. -/
theorem C15_missing_continuum_refused {argsort : List Val → List Nat}
    (hA : ∀ k, IsArgsort k (argsort k))
    {files : Val → Option (SpecFile Val Wv Im Re)} {truths : Val → Option (TruthFile Val Re Co)}
    {arms : List String} {skip : Bool} {cat : List (Row Val)} 
    (hc : cat.Pairwise (fun r s => r "TARGETID" < s "TARGETID"))
    (hpix : Same "HPXPIXEL" cat)
    {r : Row Val} (hr : r ∈ cat) {f : SpecFile Val Wv Im Re} (hf : files (r "HPXPIXEL") = some f)
    (hfok : FileOk f arms) (hin : r "TARGETID" ∈ f.fibermap.map (fun r => r "TARGETID"))
    {t : TruthFile Val Re Co} (ht : truths (r "HPXPIXEL") = some t)
    (hm : r "TARGETID" ∉ t.contIds) :
    readMock argsort files truths arms skip true cat = .error .runtimeError := by
  obtain ⟨first, hfm, hfirst, -⟩ := firstRow_ok (List.ne_nil_of_mem hr)
  have hp := hpix first hfm r hr
  have hc' : (cat.map (fun r => r "TARGETID")).Pairwise (· < ·) := List.pairwise_map.mpr hc
  obtain ⟨data, J, fbr, h, -, -, -, -⟩ :=
    readOneHealpixFile_ok hA (cat.map (· "TARGETID")) hfok skip
  have hsel := selectCat_spec (f.fibermap.map (· "TARGETID")) hc'
  unfold readMock
  rw [hfirst]
  simp only [except_bind_ok]
  rw [hp, hf, h]
  simp only [except_bind_ok]
  rw [hsel]
  simp only [except_bind_ok]
  rw [mockContinuum, if_pos rfl, ht, readTrueContinuum_missing (x := r "TARGETID") _ _ hm]
  · rfl
  · rw [List.pairwise_map]; exact hc.filter _
  · refine List.mem_map.mpr ⟨r, List.mem_filter.mpr ⟨hr, ?_⟩, rfl⟩
    simpa using hin

/-! ### Concrete cases -/

/-- Numpy's contract can be met. -/
example (k : List Nat) : IsArgsort k (argsortStable k) := argsortStable_isArgsort k

/-- A file with three fibers, in no order, and one arm. -/
def fileOf (ids : List Nat) : SpecFile Nat String String String :=
  { fibermap := ids.map (fun t c => if c = "TARGETID" then t else if c = "FIBER" then t + 500 else 0)
    arms := fun a => if a = "B" then some
      { wave := "wave", flux := ids.map (fun t => s!"flux {t}"),
        ivar := ids.map (fun t => s!"ivar {t}"), mask := ids.map (fun t => s!"mask {t}"),
        reso := some (ids.map (fun t => s!"reso {t}")) } else none }

theorem fileOf_ok (ids : List Nat) : FileOk (fileOf ids) ["B"] := by
  refine ⟨?_, Or.inr ?_⟩
  · intro arm ha
    simp only [List.mem_singleton] at ha
    subst ha
    exact ⟨_, rfl, by simp [fileOf], by simp [fileOf], by simp [fileOf], by
      intro r hr; simp at hr; subst hr; simp [fileOf]⟩
  · intro arm ha h hh
    simp only [List.mem_singleton] at ha
    subst ha
    simp [fileOf] at hh
    subst hh
    exact ⟨_, rfl⟩

/-- Three targets of two surveys in pixel 7; the file of survey 1 has targets 5, 3 and 9. -/
def exChunk : List (Row Nat) := [surveyRow 3 1, surveyRow 4 1, surveyRow 5 1, surveyRow 2 2]

def exFiles (survey _pix : Nat) : Option (SpecFile Nat String String String) :=
  if survey = 1 then some (fileOf [5, 3, 9]) else some (fileOf [8, 2])

example : exChunk ≠ [] ∧ SurveyThenTarget exChunk ∧ Same "HPXPIXEL" exChunk ∧
    ∀ r ∈ exChunk, ∃ f, exFiles (r "SURVEY") (r "HPXPIXEL") = some f ∧ FileOk f ["B"] ∧
      (f.fibermap.map (fun r => r "TARGETID")).Nodup := by
  refine ⟨by simp [exChunk], by unfold SurveyThenTarget; decide, by unfold Same; decide, ?_⟩
  intro r hr
  have : r "SURVEY" = 1 ∨ r "SURVEY" = 2 := by revert r; decide
  rcases this with h | h
  · exact ⟨_, by rw [h]; rfl, fileOf_ok _, by decide⟩
  · exact ⟨_, by rw [h]; rfl, fileOf_ok _, by decide⟩

/-- Target 4 is not in the file; the others get their own rows although the file is not sorted. -/
example : (readHealpixCoadd argsortStable exFiles ["B"] false exChunk :
      Except Err (List (RawSpectrum Nat String String String Unit))).map
    (fun o => o.map (fun s => (s.catrow "TARGETID", s.arms.map (fun a => (a.flux, a.reso))))) =
    .ok [(3, [("flux 3", some "reso 3")]), (5, [("flux 5", some "reso 5")]),
      (2, [("flux 2", some "reso 2")])] := by decide

/-- A missing file is an error. -/
example : ∃ r ∈ exChunk, (fun s p => if s = 1 then exFiles s p else none) (r "SURVEY")
    (r "HPXPIXEL") = none := ⟨surveyRow 2 2, by simp [exChunk], rfl⟩

/-- Two exposures of target 3: both are read, with their own data. -/
example : (readHealpixUncoadd argsortStable ["TARGETID", "Z", "RA", "DEC", "SURVEY", "HPXPIXEL"]
      (fun _ _ => some (fileOf [3, 9, 5, 3])) ["B"] false [surveyRow 3 1, surveyRow 5 1] :
      Except Err (List (RawSpectrum Nat String String String Unit))).map
    (fun o => o.map (fun s => (s.catrow "TARGETID", s.catrow "FIBER", s.arms.map (·.ivar)))) =
    .ok [(3, 503, ["ivar 3"]), (3, 503, ["ivar 3"]), (5, 505, ["ivar 5"])] := by decide

/-- Rows of one tile in two petals. -/
def tileRow (t petal night : Nat) : Row Nat := fun c =>
  if c = "TARGETID" then t else if c = "PETAL_LOC" then petal else if c = "LASTNIGHT" then night
  else if c = "TILEID" then 80 else 0

def exTileFiles (_tile _night petal : Nat) : Option (SpecFile Nat String String String) :=
  if petal = 0 then some (fileOf [5, 3, 9]) else some (fileOf [8, 2])

example : let cat := [tileRow 3 0 20, tileRow 5 0 20, tileRow 2 1 20]
    cat ≠ [] ∧ PetalThenTarget cat ∧ Same "TILEID" cat ∧ Same "LASTNIGHT" cat ∧
    ∀ r ∈ cat, ∃ f, exTileFiles (r "TILEID") (r "LASTNIGHT") (r "PETAL_LOC") = some f ∧
      FileOk f ["B"] ∧ (f.fibermap.map (fun r => r "TARGETID")).Nodup := by
  refine ⟨by simp, by unfold PetalThenTarget; decide, by unfold Same; decide, by unfold Same; decide,
    ?_⟩
  intro r hr
  have : r "PETAL_LOC" = 0 ∨ r "PETAL_LOC" = 1 := by revert r; decide
  rcases this with h | h
  · exact ⟨_, by rw [h]; rfl, fileOf_ok _, by decide⟩
  · exact ⟨_, by rw [h]; rfl, fileOf_ok _, by decide⟩

/-- **C13, limit.** The tile reader takes the night of the first row of the tile for all petals: if
the catalog has two last nights for a tile, a row is read from the file of another night. -/
theorem C13_tile_two_nights :
    ∃ (files : Nat → Nat → Nat → Option (SpecFile Nat String String String))
      (cat : List (Row Nat)) (out : List (RawSpectrum Nat String String String Unit)),
      PetalThenTarget cat ∧ Same "TILEID" cat ∧
      readTile argsortStable files ["B"] true cat = .ok out ∧
      ∃ s ∈ out, ∃ a ∈ s.arms, a.flux = "flux 5" ∧
        ∀ f, files (s.catrow "TILEID") (s.catrow "LASTNIGHT") (s.catrow "PETAL_LOC") = some f →
          ∀ h, f.arms "B" = some h → "flux 5" ∉ h.flux := by
  refine ⟨fun _ night _ => if night = 20 then some (fileOf [3, 5]) else some (fileOf []),
    [tileRow 3 0 20, tileRow 5 0 21],
    [⟨tileRow 3 0 20, [⟨"B", "wave", "flux 3", "ivar 3", "mask 3", none⟩], none⟩,
     ⟨tileRow 5 0 21, [⟨"B", "wave", "flux 5", "ivar 5", "mask 5", none⟩], none⟩],
    by unfold PetalThenTarget; decide, by unfold Same; decide, rfl,
    ⟨tileRow 5 0 21, [⟨"B", "wave", "flux 5", "ivar 5", "mask 5", none⟩], none⟩, by simp,
    _, List.mem_singleton.mpr rfl, rfl, ?_⟩
  intro f hf h hh
  have : f = fileOf [] := by simpa [tileRow] using hf.symm
  subst this
  simp [fileOf] at hh
  subst hh
  simp

/-- Mocks: the truth file has the continua in another order. -/
def exTruth : TruthFile Nat String String :=
  { contIds := [9, 5, 4, 3], cont := ["c9", "c5", "c4", "c3"], reso := fun _ => some "R" }

example : let cat := [surveyRow 3 1, surveyRow 4 1, surveyRow 5 1]
    cat.Pairwise (fun r s => r "TARGETID" < s "TARGETID") ∧ Same "HPXPIXEL" cat ∧
    ∀ r ∈ cat, r "TARGETID" ∈ exTruth.contIds := by
  refine ⟨by decide, by unfold Same; decide, by decide⟩

example : (readMock argsortStable (fun _ => some (fileOf [5, 3, 9])) (fun _ => some exTruth) ["B"]
      false true [surveyRow 3 1, surveyRow 4 1, surveyRow 5 1] :
      Except Err (List (RawSpectrum Nat String String String String))).map
    (fun o => o.map (fun s => (s.catrow "TARGETID", s.cont, s.arms.map (fun a => (a.flux, a.reso)))))
    = .ok [(3, some "c3", [("flux 3", some "R")]), (5, some "c5", [("flux 5", some "R")])] := by
  decide

end Verif.Props
