import Verif.Proofs.Catalog
import Verif.Proofs.Mpi
import Verif.Spec.Catalog
import Verif.Props.Balance

/-!
# C06, C08 - C11: the catalog and its distribution

`cat` is what the FITS file contains: column names and rows.
-/

namespace Verif.Props
open Verif.Model Verif.Proofs Verif.Spec List

variable {Val : Type} [LinearOrder Val]

/-- **C08.** For a well-formed file the returned catalog has exactly the rows which pass the
cuts, with multiplicity, under standard names and with their pixel; if no row passes, an
exception is raised (so an empty catalog is never returned). -/
theorem C08_catalog_cuts (ang2pix : Nat → Val → Val → Val) (cat : Catalog Val)
    (isMock isTile : Bool) (ks : Option (List Val)) (zmin zmax : Val)
    (hc : HasColumns cat.cols isMock isTile) (hd : NoDuplicates cat.rows isTile) :
    ((∀ r ∈ cat.rows, ¬ Passes cat.cols ks zmin zmax r) →
      readQuasarCatalog ang2pix (.ok cat) isMock isTile ks zmin zmax = .error .exception) ∧
    ((∃ r ∈ cat.rows, Passes cat.cols ks zmin zmax r) →
      ∃ c, readQuasarCatalog ang2pix (.ok cat) isMock isTile ks zmin zmax = .ok c ∧
        c.rows ~ (cat.rows.filter (Passes cat.cols ks zmin zmax)).map
          (fun r => withPixel cat.cols (ang2pix (if isMock then 16 else 64))
            (standardNames cat.cols r))) := by
  have h := read_of_good ang2pix cat isMock isTile ks zmin zmax hc hd
  constructor
  · intro h0
    exact h.1 (by simpa using h0)
  · intro h0
    obtain ⟨c, h1, -, h2, -⟩ := h.2 (by simpa using h0)
    exact ⟨c, h1, h2⟩

/-- What a successful reading tells about the file. -/
theorem read_ok_inv {ang2pix : Nat → Val → Val → Val} {file : Except Err (Catalog Val)}
    {isMock isTile : Bool} {ks : Option (List Val)} {zmin zmax : Val} {c : Catalog Val}
    (h : readQuasarCatalog ang2pix file isMock isTile ks zmin zmax = .ok c) :
    ∃ cat, file = .ok cat ∧ HasColumns cat.cols isMock isTile ∧ NoDuplicates cat.rows isTile ∧
      cat.rows.filter (Passes cat.cols ks zmin zmax) ≠ [] ∧
      c.cols = readCols cat.cols ∧
        c.rows ~ (cat.rows.filter (Passes cat.cols ks zmin zmax)).map
          (outRow cat.cols (ang2pix (if isMock then 16 else 64))) ∧
        c.rows.Pairwise (fun r s => rowLe (sortOrder cat.cols ks isTile ++
          (readCols cat.cols).filter (· ∉ sortOrder cat.cols ks isTile)) r s) := by
  cases file with
  | error e =>
    simp [readQuasarCatalog, readCatalogFile, bind, Except.bind] at h
  | ok cat =>
    refine ⟨cat, rfl, ?_⟩
    by_cases hg : HasColumns cat.cols isMock isTile ∧ NoDuplicates cat.rows isTile
    · have h' := read_of_good ang2pix cat isMock isTile ks zmin zmax hg.1 hg.2
      by_cases he : cat.rows.filter (Passes cat.cols ks zmin zmax) = []
      · rw [h'.1 he] at h; simp at h
      · obtain ⟨c', h1, h2⟩ := h'.2 he
        rw [h1] at h
        simp only [Except.ok.injEq] at h
        subst h
        exact ⟨hg.1, hg.2, he, h2⟩
    · rw [read_error_of_bad _ _ _ _ _ _ _ hg] at h; simp at h

/-- **C08.** No catalog that is returned is empty. -/
theorem C08_never_empty {ang2pix : Nat → Val → Val → Val} {file : Except Err (Catalog Val)}
    {isMock isTile : Bool} {ks : Option (List Val)} {zmin zmax : Val} {c : Catalog Val}
    (h : readQuasarCatalog ang2pix file isMock isTile ks zmin zmax = .ok c) : c.rows ≠ [] := by
  obtain ⟨cat, -, -, -, hne, -, hp, -⟩ := read_ok_inv h
  intro e
  rw [e] at hp
  exact hne (by simpa using hp.symm.eq_nil)

/-- Whether the survey takes part in the sorting: the column exists and more than one survey is
kept. -/
def SortsBySurvey (cols : List String) (ks : Option (List Val)) : Prop :=
  "SURVEY" ∈ cols ∧ ∃ l, ks = some l ∧ 1 < l.length

/-- **C09.** In tile mode the rows are in lexicographic order of TILEID, PETAL_LOC, TARGETID. -/
theorem C09_tile_order {ang2pix : Nat → Val → Val → Val} {file : Except Err (Catalog Val)}
    {isMock : Bool} {ks : Option (List Val)} {zmin zmax : Val} {c : Catalog Val}
    (h : readQuasarCatalog ang2pix file isMock true ks zmin zmax = .ok c) :
    c.rows.Pairwise (fun r s => r "TILEID" < s "TILEID" ∨ r "TILEID" = s "TILEID" ∧
      (r "PETAL_LOC" < s "PETAL_LOC" ∨ r "PETAL_LOC" = s "PETAL_LOC" ∧
        r "TARGETID" ≤ s "TARGETID")) := by
  obtain ⟨cat, -, -, -, -, -, -, hs⟩ := read_ok_inv h
  refine hs.imp fun {r s} hrs => ?_
  simp only [sortOrder, if_true, List.cons_append] at hrs
  rcases rowLe_head hrs with h | ⟨e, h⟩
  · exact Or.inl h
  · refine Or.inr ⟨e, ?_⟩
    rcases rowLe_head h with h | ⟨e, h⟩
    · exact Or.inl h
    · exact Or.inr ⟨e, rowLe_le h⟩

/-- **C09.** With several surveys the rows are in lexicographic order of
HPXPIXEL, SURVEY, TARGETID. -/
theorem C09_survey_order {ang2pix : Nat → Val → Val → Val} {cat : Catalog Val}
    {isMock : Bool} {ks : Option (List Val)} {zmin zmax : Val} {c : Catalog Val}
    (h : readQuasarCatalog ang2pix (.ok cat) isMock false ks zmin zmax = .ok c)
    (hs : SortsBySurvey cat.cols ks) :
    c.rows.Pairwise (fun r s => r "HPXPIXEL" < s "HPXPIXEL" ∨ r "HPXPIXEL" = s "HPXPIXEL" ∧
      (r "SURVEY" < s "SURVEY" ∨ r "SURVEY" = s "SURVEY" ∧ r "TARGETID" ≤ s "TARGETID")) := by
  obtain ⟨cat', e, -, -, -, -, -, hp⟩ := read_ok_inv h
  cases e
  obtain ⟨h1, l, rfl, h2⟩ := hs
  refine hp.imp fun {r s} hrs => ?_
  simp only [sortOrder, h1, h2, and_self, if_true, List.cons_append, Bool.false_eq_true,
    if_false] at hrs
  rcases rowLe_head hrs with h | ⟨e, h⟩
  · exact Or.inl h
  · refine Or.inr ⟨e, ?_⟩
    rcases rowLe_head h with h | ⟨e, h⟩
    · exact Or.inl h
    · exact Or.inr ⟨e, rowLe_le h⟩

/-- **C09.** Otherwise they are in lexicographic order of HPXPIXEL, TARGETID. -/
theorem C09_pixel_order {ang2pix : Nat → Val → Val → Val} {cat : Catalog Val}
    {isMock : Bool} {ks : Option (List Val)} {zmin zmax : Val} {c : Catalog Val}
    (h : readQuasarCatalog ang2pix (.ok cat) isMock false ks zmin zmax = .ok c)
    (hs : ¬ SortsBySurvey cat.cols ks) :
    c.rows.Pairwise (fun r s => r "HPXPIXEL" < s "HPXPIXEL" ∨ r "HPXPIXEL" = s "HPXPIXEL" ∧
      r "TARGETID" ≤ s "TARGETID") := by
  obtain ⟨cat', e, -, -, -, -, -, hp⟩ := read_ok_inv h
  cases e
  have ho : sortOrder cat.cols ks false = ["HPXPIXEL", "TARGETID"] := by
    unfold sortOrder
    cases ks with
    | none => rfl
    | some l =>
      have : ¬ ("SURVEY" ∈ cat.cols ∧ 1 < l.length) := fun hh => hs ⟨hh.1, l, rfl, hh.2⟩
      simp [this]
  refine hp.imp fun {r s} hrs => ?_
  simp only [ho, List.cons_append] at hrs
  rcases rowLe_head hrs with h | ⟨e, h⟩
  · exact Or.inl h
  · exact Or.inr ⟨e, rowLe_le h⟩

/-- **C10.** A file with a duplicate is rejected with an exception. -/
theorem C10_duplicates_refused (ang2pix : Nat → Val → Val → Val) (cat : Catalog Val)
    (isMock isTile : Bool) (ks : Option (List Val)) (zmin zmax : Val)
    (hd : ¬ NoDuplicates cat.rows isTile) :
    readQuasarCatalog ang2pix (.ok cat) isMock isTile ks zmin zmax = .error .exception :=
  read_error_of_bad _ _ _ _ _ _ _ (fun h => hd h.2)

/-- **C10.** Without duplicates and with the required columns validation succeeds. -/
theorem C10_no_duplicates_accepted (cat : Catalog Val) (isMock isTile : Bool)
    (hc : HasColumns cat.cols isMock isTile) (hd : NoDuplicates cat.rows isTile) :
    ∃ c, validateAdjustColumnNames cat isMock isTile = .ok c :=
  ⟨_, validate_ok cat isMock isTile hc hd⟩

theorem outRow_targetid (cols : List String) (pix : Val → Val → Val) (r : Row Val) :
    outRow cols pix r "TARGETID" = r "TARGETID" := by
  unfold outRow withPixel
  split
  · exact standardNames_other _ _ (by decide)
  · simp [Function.update, standardNames_other]

theorem outRow_tileid (cols : List String) (pix : Val → Val → Val) (r : Row Val) :
    outRow cols pix r "TILEID" = r "TILEID" := by
  unfold outRow withPixel
  split
  · exact standardNames_other _ _ (by decide)
  · simp [Function.update, standardNames_other]

/-- **C10.** No returned catalog has two rows for one target (in tile mode: for one target on
one tile). -/
theorem C10_result_no_duplicates {ang2pix : Nat → Val → Val → Val}
    {file : Except Err (Catalog Val)} {isMock isTile : Bool} {ks : Option (List Val)}
    {zmin zmax : Val} {c : Catalog Val}
    (h : readQuasarCatalog ang2pix file isMock isTile ks zmin zmax = .ok c) :
    NoDuplicates c.rows isTile := by
  obtain ⟨cat, -, -, hd, -, -, hp, -⟩ := read_ok_inv h
  unfold NoDuplicates at *
  cases isTile
  · simp only at *
    rw [(hp.map (fun r => r "TARGETID")).nodup_iff, List.map_map]
    have : (fun r : Row Val => r "TARGETID") ∘ outRow cat.cols
        (ang2pix (if isMock then 16 else 64)) = fun r => r "TARGETID" := by
      funext r; exact outRow_targetid _ _ r
    rw [this]
    exact hd.sublist (List.filter_sublist.map _)
  · simp only at *
    rw [(hp.map (fun r => (r "TARGETID", r "TILEID"))).nodup_iff, List.map_map]
    have : (fun r : Row Val => (r "TARGETID", r "TILEID")) ∘ outRow cat.cols
        (ang2pix (if isMock then 16 else 64)) = fun r => (r "TARGETID", r "TILEID") := by
      funext r
      simp [outRow_targetid, outRow_tileid]
    rw [this]
    exact hd.sublist (List.filter_sublist.map _)

/-- **C11.** A file without a required column is rejected with an exception. -/
theorem C11_missing_column_refused (ang2pix : Nat → Val → Val → Val) (cat : Catalog Val)
    (isMock isTile : Bool) (ks : Option (List Val)) (zmin zmax : Val)
    (hc : ¬ HasColumns cat.cols isMock isTile) :
    readQuasarCatalog ang2pix (.ok cat) isMock isTile ks zmin zmax = .error .exception :=
  read_error_of_bad _ _ _ _ _ _ _ (fun h => hc h.1)

/-- **C11.** Validation keeps rows and their order, gives every row its values under the
standard names (the standard name wins over its alternatives, all other columns keep their
values), and the columns stay in their places: each column keeps its name or gets the standard
name of an alternative. -/
theorem C11_standard_names (cat : Catalog Val) (isMock isTile : Bool)
    (c : Catalog Val) (h : validateAdjustColumnNames cat isMock isTile = .ok c) :
    c.rows = cat.rows.map (standardNames cat.cols) ∧
    c.cols.length = cat.cols.length ∧
    (∀ i (hi : i < cat.cols.length) (hi' : i < c.cols.length),
      c.cols[i] = cat.cols[i] ∨
      (cat.cols[i] = "TARGET_RA" ∧ c.cols[i] = "RA" ∧ "RA" ∉ cat.cols) ∨
      (cat.cols[i] = "TARGET_DEC" ∧ c.cols[i] = "DEC" ∧ "DEC" ∉ cat.cols) ∨
      (cat.cols[i] ∈ ["COADD_LASTNIGHT", "LAST_NIGHT"] ∧ c.cols[i] = "LASTNIGHT" ∧
        "LASTNIGHT" ∉ cat.cols)) := by
  by_cases hg : HasColumns cat.cols isMock isTile ∧ NoDuplicates cat.rows isTile
  · rw [validate_ok cat isMock isTile hg.1 hg.2] at h
    simp only [Except.ok.injEq] at h
    subst h
    refine ⟨rfl, by simp [validated], ?_⟩
    intro i hi hi'
    simp only [validated, List.getElem_map]
    rw [renameCol_colnameMap]
    split
    · rename_i h; right; left; exact ⟨h.1, rfl, h.2.2⟩
    split
    · rename_i h; right; right; left; exact ⟨h.1, rfl, h.2.2⟩
    split
    · rename_i h; right; right; right; exact ⟨by simp [h.1], rfl, h.2.2⟩
    split
    · rename_i h; right; right; right; exact ⟨by simp [h.1], rfl, h.2.2.2⟩
    · left; rfl
  · rw [(validate_spec cat isMock isTile).2 hg] at h; simp at h

/-- **C11.** The standard names are present after validation. -/
theorem C11_standard_names_present (cat : Catalog Val) (isMock isTile : Bool)
    (c : Catalog Val) (h : validateAdjustColumnNames cat isMock isTile = .ok c) :
    "RA" ∈ c.cols ∧ "DEC" ∈ c.cols ∧ (isMock = false → "LASTNIGHT" ∈ c.cols) ∧
      (cat.cols.Nodup → c.cols.Nodup) := by
  by_cases hg : HasColumns cat.cols isMock isTile ∧ NoDuplicates cat.rows isTile
  · rw [validate_ok cat isMock isTile hg.1 hg.2] at h
    simp only [Except.ok.injEq] at h
    subst h
    simp only [validated, List.mem_map]
    refine ⟨?_, ?_, ?_, ?_⟩
    · by_cases m : "RA" ∈ cat.cols
      · exact ⟨_, m, by rw [renameCol_colnameMap]; simp⟩
      · obtain ⟨x, hx, hm⟩ := hg.1.ra
        simp only [List.mem_cons, List.not_mem_nil, or_false] at hx
        rcases hx with rfl | rfl
        · exact ⟨_, hm, by rw [renameCol_colnameMap]; simp [hm, m]⟩
        · exact absurd hm m
    · by_cases m : "DEC" ∈ cat.cols
      · exact ⟨_, m, by rw [renameCol_colnameMap]; simp⟩
      · obtain ⟨x, hx, hm⟩ := hg.1.dec
        simp only [List.mem_cons, List.not_mem_nil, or_false] at hx
        rcases hx with rfl | rfl
        · exact ⟨_, hm, by rw [renameCol_colnameMap]; simp [hm, m]⟩
        · exact absurd hm m
    · intro hmock
      by_cases m : "LASTNIGHT" ∈ cat.cols
      · exact ⟨_, m, by rw [renameCol_colnameMap]; simp⟩
      · by_cases m2 : "COADD_LASTNIGHT" ∈ cat.cols
        · exact ⟨_, m2, by rw [renameCol_colnameMap]; simp [m, m2]⟩
        · obtain ⟨x, hx, hm⟩ := hg.1.lastnight hmock
          simp only [List.mem_cons, List.not_mem_nil, or_false] at hx
          rcases hx with rfl | rfl | rfl
          · exact absurd hm m2
          · exact ⟨_, hm, by rw [renameCol_colnameMap]; simp [hm, m, m2]⟩
          · exact absurd hm m
    · intro hn
      refine hn.map_on ?_
      intro x hx y hy e
      simp only [renameCol_colnameMap] at e
      grind
  · rw [(validate_spec cat isMock isTile).2 hg] at h; simp at h

theorem read_error_isException {ang2pix : Nat → Val → Val → Val}
    {file : Except Err (Catalog Val)} (hf : ∀ e, file = .error e → e.isException = true)
    {isMock isTile : Bool} {ks : Option (List Val)} {zmin zmax : Val} {e : Err}
    (h : readQuasarCatalog ang2pix file isMock isTile ks zmin zmax = .error e) :
    e.isException = true := by
  cases file with
  | error e' =>
    simp [readQuasarCatalog, readCatalogFile, Bind.bind, Except.bind] at h
    subst h; exact hf _ rfl
  | ok cat =>
    by_cases hg : HasColumns cat.cols isMock isTile ∧ NoDuplicates cat.rows isTile
    · have h' := read_of_good ang2pix cat isMock isTile ks zmin zmax hg.1 hg.2
      by_cases he : cat.rows.filter (Passes cat.cols ks zmin zmax) = []
      · rw [h'.1 he] at h; cases h; rfl
      · obtain ⟨c', h1, h2⟩ := h'.2 he
        rw [h1] at h; simp at h
    · rw [read_error_of_bad _ _ _ _ _ _ _ hg] at h; cases h; rfl

/-- **C06.** If reading fails on the root, every rank raises `QsonicException`, whatever the
number of processes. -/
theorem C06_failure_is_uniform {V W : Type} (cs : Codec Bool V)
    (cq : Codec (List (List (Row Val))) V) (ang2pix : Nat → Val → Val → Val)
    (file : Except Err (Catalog Val)) (hf : ∀ e, file = .error e → e.isException = true)
    (isMock isTile : Bool) (ks : Option (List Val)) (zmin zmax : Val) (n : Nat) (e : Err)
    (h : readQuasarCatalog ang2pix file isMock isTile ks zmin zmax = .error e) :
    (runJob n (fun r => mpiGetLocalQueue (W := W) cs cq
      (readQuasarCatalog ang2pix file isMock isTile ks zmin zmax) isTile (n + 1) r)).1 =
      .done (List.replicate (n + 1) (.error .qsonic)) := by
  have he := read_error_isException hf h
  rw [runJob_eq_runFam, h]
  have hP : ∀ r, mpiGetLocalQueue (W := W) cs cq (.error e) isTile (n + 1) r =
      .bcast (cs.enc false) (fun v => if cs.dec v = false then .raise .qsonic
        else .scatter none fun v => .ret (cq.dec v)) := by
    intro r
    unfold mpiGetLocalQueue
    by_cases hr : r = 0
    · simp [hr, he]
    · simp [hr]
  simp only [hP]
  rw [runFam_bcast]
  simp only [cs.dec_enc, if_true]
  have := runFam_fin (V := V) (W := W) (A := List (List (Row Val))) n
    (fun _ => .error .qsonic) (fun _ => [])
  simp only [fin] at this
  rw [this]
  simp [List.map_const']

/-- **C06.** If reading succeeds, the `n + 1` ranks get queues which together hold every row of
the catalog exactly once; every chunk is exactly the set of catalog rows (in catalog order) with
one value of the split key (the tile or the healpix pixel), no chunk is empty and no value
occurs in two chunks, so all rows of a pixel are in one chunk of one rank. -/
theorem C06_local_queues {V W : Type} (cs : Codec Bool V)
    (cq : Codec (List (List (Row Val))) V) (ang2pix : Nat → Val → Val → Val)
    (file : Except Err (Catalog Val)) (isMock isTile : Bool) (ks : Option (List Val))
    (zmin zmax : Val) (n : Nat) (c : Catalog Val)
    (h : readQuasarCatalog ang2pix file isMock isTile ks zmin zmax = .ok c) :
    ∃ q : List (List (List (Row Val))),
      (runJob n (fun r => mpiGetLocalQueue (W := W) cs cq
        (readQuasarCatalog ang2pix file isMock isTile ks zmin zmax) isTile (n + 1) r)).1 =
        .done (q.map .ok) ∧
      q.length = n + 1 ∧ q.flatten.flatten ~ c.rows ∧
      (∀ chunk ∈ q.flatten, chunk ≠ [] ∧ ∀ r ∈ chunk, chunk = c.rows.filter
        (fun s => s (if isTile then "TILEID" else "HPXPIXEL") =
          r (if isTile then "TILEID" else "HPXPIXEL"))) ∧
      q.flatten.Pairwise (fun a b => ∀ r ∈ a, ∀ s ∈ b,
        r (if isTile then "TILEID" else "HPXPIXEL") ≠
          s (if isTile then "TILEID" else "HPXPIXEL")) := by
  set key := if isTile then "TILEID" else "HPXPIXEL" with hkey
  have hsorted : c.rows.Pairwise (fun r s => r key ≤ s key) := by
    obtain ⟨cat, -, -, -, -, -, -, hs⟩ := read_ok_inv h
    refine hs.imp fun {r s} hrs => ?_
    have : ∃ tl, sortOrder cat.cols ks isTile = key :: tl := by
      rw [hkey]
      unfold sortOrder
      cases isTile
      · simp only [Bool.false_eq_true, if_false]
        cases ks with
        | none => exact ⟨_, rfl⟩
        | some l => simp only; split <;> exact ⟨_, rfl⟩
      · exact ⟨_, rfl⟩
    obtain ⟨tl, e⟩ := this
    rw [e] at hrs
    exact rowLe_le hrs
  have hG := splitByKey_isGrouping (fun r : Row Val => r key) c.rows (C08_never_empty h) hsorted
  obtain ⟨q, hq, hlen, hperm⟩ := C01_balance_load_partitions
    (Np.splitByKey (fun r : Row Val => r key) c.rows) (n + 1) (Nat.succ_pos n)
  refine ⟨q, ?_, hlen, ?_, ?_, ?_⟩
  · rw [runJob_eq_runFam, h]
    have hm : makeQueues c isTile (n + 1) = .ok q := by
      unfold makeQueues; rw [← hkey]; exact hq
    have hP : ∀ r, mpiGetLocalQueue (W := W) cs cq (.ok c) isTile (n + 1) r =
        .bcast (cs.enc (decide (r = 0))) (fun v => if cs.dec v = false then .raise .qsonic
          else .scatter (if r = 0 then some (q.map cq.enc) else none)
            fun v => .ret (cq.dec v)) := by
      intro r
      unfold mpiGetLocalQueue
      by_cases hr : r = 0
      · simp [hr, hm]
      · simp [hr]
    simp only [hP]
    rw [runFam_bcast]
    simp only [cs.dec_enc, decide_true, Bool.true_eq_false, if_false]
    rw [runFam_scatter n _ _ _ (fun r => cq.enc (q.getD r []))]
    · simp only [cq.dec_enc]
      have := runFam_fin (V := V) (W := W) (A := List (List (Row Val))) n
        (fun r => .ok (q.getD r [])) (fun _ => [])
      simp only [fin] at this
      rw [this]
      simp only [Outcome.done.injEq]
      refine List.ext_getElem (by simp [hlen]) ?_
      intro i h1 h2
      simp only [List.length_map] at h2
      simp [List.getD_eq_getElem?_getD, h2]
    · simp only [if_true, Option.some.injEq]
      refine List.ext_getElem (by simp [hlen]) ?_
      intro i h1 h2
      simp only [List.length_map] at h1
      simp [List.getD_eq_getElem?_getD, h1]
  · refine hperm.flatten.trans ?_
    rw [hG.flatten]
  · intro chunk hchunk
    have hm := hperm.mem_iff.mp hchunk
    exact ⟨hG.nonempty _ hm, fun r hr => isGrouping_eq_filter hG hm hr⟩
  · refine (hperm.pairwise_iff ?_).mpr ?_
    · intro a b hab r hr s hs
      exact (hab s hs r hr).symm
    · exact hG.distinct.imp fun hab r hr s hs => ne_of_lt (hab r hr s hs)

/-! ### Concrete cases -/

/-- A file with four quasars, values are natural numbers (surveys are 1 and 2). -/
def exFile : Catalog Nat :=
  { cols := ["TARGETID", "Z", "TARGET_RA", "DEC", "SURVEY", "COADD_LASTNIGHT", "JUNK"]
    rows := [(fun c => if c = "TARGETID" then 40 else if c = "Z" then 3 else
        if c = "TARGET_RA" then 5 else if c = "SURVEY" then 1 else 0),
      (fun c => if c = "TARGETID" then 30 else if c = "Z" then 2 else
        if c = "TARGET_RA" then 4 else if c = "SURVEY" then 2 else 0),
      (fun c => if c = "TARGETID" then 20 else if c = "Z" then 2 else
        if c = "TARGET_RA" then 5 else if c = "SURVEY" then 1 else 0),
      (fun c => if c = "TARGETID" then 10 else if c = "Z" then 9 else
        if c = "TARGET_RA" then 5 else if c = "SURVEY" then 1 else 0)] }

/-- The pixel of a position in the examples. -/
def exPix : Nat → Nat → Nat → Nat := fun _ ra dec => ra + dec

theorem exFile_columns : HasColumns exFile.cols false false :=
  ⟨by decide, by decide, ⟨"TARGET_RA", by decide, by decide⟩, ⟨"DEC", by decide, by decide⟩,
    by decide, fun _ => ⟨"COADD_LASTNIGHT", by decide, by decide⟩, by decide, by decide⟩

example : HasColumns exFile.cols false false ∧ NoDuplicates exFile.rows false ∧
    (∃ r ∈ exFile.rows, Passes exFile.cols (some [1, 2]) 2 3 r) ∧
    SortsBySurvey exFile.cols (some [1, 2]) :=
  ⟨exFile_columns, by unfold NoDuplicates; decide,
    ⟨_, List.mem_cons_self, by unfold Passes; decide⟩, by decide, _, rfl, by decide⟩

/-- Three rows survive, sorted by pixel, survey and target. -/
example : (readQuasarCatalog exPix (.ok exFile) false false (some [1, 2]) 2 3).map
    (fun c => c.rows.map (fun r => (r "HPXPIXEL", r "SURVEY", r "TARGETID", r "RA"))) =
    .ok [(4, 2, 30, 4), (5, 1, 20, 5), (5, 1, 40, 5)] := by decide

/-- Two ranks: pixel 5 with two quasars on one, pixel 4 on the other. -/
example : ((readQuasarCatalog exPix (.ok exFile) false false (some [1, 2]) 2 3).bind
    (fun c => makeQueues c false 2)).map
      (fun q => q.map (fun chunks => chunks.map (fun ch => ch.map (fun r => r "TARGETID")))) =
    .ok [[[20, 40]], [[30]]] := by decide

/-- Duplicates and missing columns do occur. -/
example : ¬ NoDuplicates (exFile.rows ++ exFile.rows) false ∧
    ¬ HasColumns (exFile.cols.drop 1) false false :=
  ⟨by unfold NoDuplicates; decide, fun h => absurd h.targetid (by decide)⟩

end Verif.Props
