import Verif.Model.Catalog
import Verif.Spec.Catalog
import Verif.Proofs.Split
import Verif.Proofs.Balance
import Mathlib.Data.Prod.Lex
import Mathlib.Tactic.Tauto

/-! Lemmas about the catalog model. -/

namespace Verif.Proofs
open Verif.Np Verif.Model Verif.Spec List

variable {Val : Type} [LinearOrder Val]

theorem rowLe_total (fs : List String) (r s : Row Val) : rowLe fs r s ∨ rowLe fs s r := by
  induction fs with
  | nil => simp [rowLe]
  | cons c cs ih =>
    unfold rowLe
    by_cases h1 : r c < s c
    · simp [h1]
    · by_cases h2 : s c < r c
      · simp [h2]
      · simpa [h1, h2] using ih

theorem rowLe_trans (fs : List String) (r s t : Row Val) (h1 : rowLe fs r s) (h2 : rowLe fs s t) :
    rowLe fs r t := by
  induction fs with
  | nil => simp [rowLe]
  | cons c cs ih =>
    unfold rowLe at h1 h2 ⊢
    split at h1
    · rename_i hrs
      split at h2
      · rename_i hst
        simp [lt_trans hrs hst]
      · split at h2
        · simp at h2
        · rename_i h3 h4
          simp [lt_of_lt_of_le hrs (not_lt.mp h4)]
    · split at h1
      · simp at h1
      · rename_i h3 h4
        have e : r c = s c := le_antisymm (not_lt.mp h4) (not_lt.mp h3)
        rw [e]
        split at h2
        · rename_i h5; simp [h5]
        · split at h2
          · simp at h2
          · rename_i h5 h6
            simp [h5, h6, ih h1 h2]

instance (fs : List String) : Std.Total (fun r s : Row Val => rowLe fs r s = true) :=
  ⟨rowLe_total fs⟩

instance (fs : List String) : IsTrans (Row Val) (fun r s : Row Val => rowLe fs r s = true) :=
  ⟨rowLe_trans fs⟩

theorem rowLe_head {c : String} {cs : List String} {r s : Row Val} (h : rowLe (c :: cs) r s) :
    r c < s c ∨ (r c = s c ∧ rowLe cs r s) := by
  unfold rowLe at h
  split at h
  · left; assumption
  · split at h
    · simp at h
    · rename_i h1 h2
      right; exact ⟨le_antisymm (not_lt.mp h2) (not_lt.mp h1), h⟩

theorem rowLe_le {c : String} {cs : List String} {r s : Row Val} (h : rowLe (c :: cs) r s) :
    r c ≤ s c := by
  rcases rowLe_head h with h | h
  · exact le_of_lt h
  · exact le_of_eq h.1

theorem sortCatalog_ok {order : List String} {cat c : Catalog Val}
    (h : sortCatalog order cat = .ok c) :
    c.cols = cat.cols ∧ c.rows ~ cat.rows ∧
      c.rows.Pairwise (fun r s => rowLe (order ++ cat.cols.filter (· ∉ order)) r s) := by
  unfold sortCatalog at h
  split at h
  · cases h
    exact ⟨rfl, List.perm_insertionSort _ _, List.pairwise_insertionSort _ _⟩
  · simp at h

theorem sortCatalog_of_subset {order : List String} {cat : Catalog Val}
    (h : ∀ x ∈ order, x ∈ cat.cols) : ∃ c, sortCatalog order cat = .ok c := by
  unfold sortCatalog
  rw [if_pos (by simpa using h)]
  exact ⟨_, rfl⟩

theorem checkRequiredColumns_ok {req : List (List String)} {cols : List String} :
    checkRequiredColumns req cols = .ok () ↔ ∀ s ∈ req, ∃ c ∈ s, c ∈ cols := by
  induction req with
  | nil => simp [checkRequiredColumns]
  | cons s req ih =>
    unfold checkRequiredColumns
    by_cases h : s.any (· ∈ cols)
    · rw [if_pos h, ih]
      simp only [List.any_eq_true, decide_eq_true_eq] at h
      simp [h]
    · rw [if_neg h]
      simp only [List.any_eq_true, decide_eq_true_eq] at h
      simp only [reduceCtorEq, List.mem_cons, forall_eq_or_imp, false_iff, not_and]
      intro h'; exact absurd h' h

theorem checkRequiredColumns_cases (req : List (List String)) (cols : List String) :
    checkRequiredColumns req cols = .ok () ∨
      checkRequiredColumns req cols = .error .exception := by
  induction req with
  | nil => left; rfl
  | cons s req ih =>
    unfold checkRequiredColumns
    split
    · exact ih
    · right; rfl

theorem length_dedup_eq_iff {α : Type} [DecidableEq α] (l : List α) :
    l.length = l.dedup.length ↔ l.Nodup := by
  constructor
  · intro h
    have : l.dedup = l := (List.dedup_sublist l).eq_of_length h.symm
    rw [← this]; exact List.nodup_dedup l
  · intro h; rw [List.dedup_eq_self.mpr h]

theorem hasColumns_iff (cols : List String) (isMock isTile : Bool) :
    HasColumns cols isMock isTile ↔
      (∀ s ∈ requiredColumns, ∃ c ∈ s, c ∈ cols) ∧
      (isMock = false → ∀ s ∈ requiredDataColumns, ∃ c ∈ s, c ∈ cols) ∧
      (isTile = true → ∀ s ∈ requiredTileColumns, ∃ c ∈ s, c ∈ cols) := by
  simp only [requiredColumns, requiredDataColumns, requiredTileColumns, List.mem_cons,
    List.not_mem_nil, or_false, forall_eq_or_imp, forall_eq, exists_eq_left]
  constructor
  · intro h
    exact ⟨⟨h.targetid, h.z, by simpa [HasOne] using h.ra, by simpa [HasOne] using h.dec⟩,
      fun hm => ⟨h.survey hm, by simpa [HasOne] using h.lastnight hm⟩,
      fun ht => ⟨h.tileid ht, h.petal ht⟩⟩
  · rintro ⟨⟨h1, h2, h3, h4⟩, h5, h6⟩
    exact ⟨h1, h2, by simpa [HasOne] using h3, by simpa [HasOne] using h4, fun hm => (h5 hm).1,
      fun hm => by simpa [HasOne] using (h5 hm).2, fun ht => (h6 ht).1, fun ht => (h6 ht).2⟩

/-- Complete description of `_validate_adjust_column_names`. -/
theorem validate_spec (cat : Catalog Val) (isMock isTile : Bool) :
    (HasColumns cat.cols isMock isTile ∧ NoDuplicates cat.rows isTile →
      validateAdjustColumnNames cat isMock isTile =
        .ok (if (colnameMap cat.cols).isEmpty then cat
             else renameFields (colnameMap cat.cols) cat)) ∧
    (¬ (HasColumns cat.cols isMock isTile ∧ NoDuplicates cat.rows isTile) →
      validateAdjustColumnNames cat isMock isTile = .error .exception) := by
  have e1 := checkRequiredColumns_ok (req := requiredColumns) (cols := cat.cols)
  have e2 := checkRequiredColumns_ok (req := requiredDataColumns) (cols := cat.cols)
  have e3 := checkRequiredColumns_ok (req := requiredTileColumns) (cols := cat.cols)
  have d1 := length_dedup_eq_iff (cat.rows.map (· "TARGETID"))
  have d2 := length_dedup_eq_iff (cat.rows.map (fun r => (r "TARGETID", r "TILEID")))
  rw [List.length_map] at d1 d2
  unfold validateAdjustColumnNames NoDuplicates
  rw [hasColumns_iff, ← e1, ← e2, ← e3, ← d1, ← d2]
  rcases checkRequiredColumns_cases requiredColumns cat.cols with h1 | h1 <;>
  rcases checkRequiredColumns_cases requiredDataColumns cat.cols with h2 | h2 <;>
  rcases checkRequiredColumns_cases requiredTileColumns cat.cols with h3 | h3 <;>
  cases isMock <;> cases isTile <;>
  simp [h1, h2, h3, bind, Except.bind, throw, throwThe, MonadExceptOf.throw, pure, Except.pure] <;>
  (try constructor) <;> intro h <;> simp [h] <;> (try split <;> simp_all)

theorem renameCol_colnameMap (cols : List String) (o : String) :
    renameCol (colnameMap cols) o =
      if o = "TARGET_RA" ∧ "TARGET_RA" ∈ cols ∧ "RA" ∉ cols then "RA"
      else if o = "TARGET_DEC" ∧ "TARGET_DEC" ∈ cols ∧ "DEC" ∉ cols then "DEC"
      else if o = "COADD_LASTNIGHT" ∧ "COADD_LASTNIGHT" ∈ cols ∧ "LASTNIGHT" ∉ cols then
        "LASTNIGHT"
      else if o = "LAST_NIGHT" ∧ "LAST_NIGHT" ∈ cols ∧ "COADD_LASTNIGHT" ∉ cols ∧
        "LASTNIGHT" ∉ cols then "LASTNIGHT"
      else o := by
  unfold renameCol colnameMap
  by_cases h1 : o = "TARGET_RA"
  · subst h1; split <;> split <;> (try split) <;> (try split) <;> simp_all [List.lookup]
  by_cases h2 : o = "TARGET_DEC"
  · subst h2; split <;> split <;> (try split) <;> (try split) <;> simp_all [List.lookup]
  by_cases h3 : o = "COADD_LASTNIGHT"
  · subst h3; split <;> split <;> (try split) <;> (try split) <;> simp_all [List.lookup] <;> tauto
  by_cases h4 : o = "LAST_NIGHT"
  · subst h4; split <;> split <;> (try split) <;> (try split) <;> simp_all [List.lookup] <;> tauto
  have e1 : (o == "TARGET_RA") = false := by simpa using h1
  have e2 : (o == "TARGET_DEC") = false := by simpa using h2
  have e3 : (o == "COADD_LASTNIGHT") = false := by simpa using h3
  have e4 : (o == "LAST_NIGHT") = false := by simpa using h4
  simp only [h1, h2, h3, h4, false_and, if_false]
  split <;> split <;> (try split) <;> (try split) <;>
    simp [List.lookup, e1, e2, e3, e4]

theorem renameRow_eq {m : List (String × String)} {cols : List String} {r : Row Val} {c : String}
    {v : Val} (h1 : ∀ o ∈ cols, renameCol m o = c → r o = v)
    (h2 : (∃ o ∈ cols, renameCol m o = c) ∨ r c = v) : renameRow m cols r c = v := by
  unfold renameRow
  cases h : cols.find? (fun old => renameCol m old = c) with
  | some old =>
    have h3 := List.find?_some h
    exact h1 old (List.mem_of_find?_eq_some h) (by simpa using h3)
  | none =>
    rcases h2 with ⟨o, ho, e⟩ | h2
    · have := List.find?_eq_none.mp h o ho
      simp [e] at this
    · exact h2

/-- Renaming the columns gives the rows under the standard names. -/
theorem renameRow_standard (cols : List String) (r : Row Val) :
    renameRow (colnameMap cols) cols r = standardNames cols r := by
  funext c
  unfold standardNames
  by_cases c1 : c = "RA"
  · subst c1
    simp only [if_true]
    refine renameRow_eq ?_ ?_
    · intro o ho e
      rw [renameCol_colnameMap] at e
      by_cases o1 : o = "TARGET_RA"
      · subst o1; simp_all
      · simp only [o1, false_and, if_false] at e
        split at e <;> (try simp at e)
        split at e <;> (try simp at e)
        split at e <;> (try simp at e)
        subst e; simp [ho]
    · by_cases m1 : "RA" ∈ cols
      · left; exact ⟨_, m1, by rw [renameCol_colnameMap]; simp⟩
      · by_cases m2 : "TARGET_RA" ∈ cols
        · left; exact ⟨_, m2, by rw [renameCol_colnameMap]; simp [m1, m2]⟩
        · right; simp [m1, m2]
  by_cases c2 : c = "DEC"
  · subst c2
    simp only [c1, if_true, if_false]
    refine renameRow_eq ?_ ?_
    · intro o ho e
      rw [renameCol_colnameMap] at e
      by_cases o1 : o = "TARGET_DEC"
      · subst o1; simp_all
      · simp only [o1, false_and, if_false] at e
        split at e <;> (try simp at e)
        split at e <;> (try simp at e)
        split at e <;> (try simp at e)
        subst e; simp [ho]
    · by_cases m1 : "DEC" ∈ cols
      · left; exact ⟨_, m1, by rw [renameCol_colnameMap]; simp⟩
      · by_cases m2 : "TARGET_DEC" ∈ cols
        · left; exact ⟨_, m2, by rw [renameCol_colnameMap]; simp [m1, m2]⟩
        · right; simp [m1, m2]
  by_cases c3 : c = "LASTNIGHT"
  · subst c3
    simp only [c1, c2, if_true, if_false]
    refine renameRow_eq ?_ ?_
    · intro o ho e
      rw [renameCol_colnameMap] at e
      split at e
      · simp at e
      split at e
      · simp at e
      split at e
      · rename_i h; simp [h]
      · split at e
        · rename_i h; simp [h]
        · subst e; simp [ho]
    · by_cases m1 : "LASTNIGHT" ∈ cols
      · left; exact ⟨_, m1, by rw [renameCol_colnameMap]; simp⟩
      · by_cases m2 : "COADD_LASTNIGHT" ∈ cols
        · left; exact ⟨_, m2, by rw [renameCol_colnameMap]; simp [m1, m2]⟩
        · by_cases m3 : "LAST_NIGHT" ∈ cols
          · left; exact ⟨_, m3, by rw [renameCol_colnameMap]; simp [m1, m2, m3]⟩
          · right; simp [m1, m2, m3]
  · simp only [c1, c2, c3, if_false]
    refine renameRow_eq ?_ (Or.inr rfl)
    intro o ho e
    rw [renameCol_colnameMap] at e
    split at e
    · exact absurd e.symm c1
    split at e
    · exact absurd e.symm c2
    split at e
    · exact absurd e.symm c3
    split at e
    · exact absurd e.symm c3
    · rw [e]

theorem standardNames_of_map_empty {cols : List String} (h : colnameMap cols = [])
    (r : Row Val) : standardNames cols r = r := by
  rw [← renameRow_standard, h]
  funext c
  refine renameRow_eq ?_ (Or.inr rfl)
  intro o _ e
  simp [renameCol] at e
  rw [e]

theorem hasColumns_filter (cols : List String) (isMock isTile : Bool) :
    HasColumns (cols.filter (· ∈ allColumns)) isMock isTile ↔ HasColumns cols isMock isTile := by
  rw [hasColumns_iff, hasColumns_iff]
  simp only [requiredColumns, requiredDataColumns, requiredTileColumns, List.mem_cons,
    List.not_mem_nil, or_false, forall_eq_or_imp, forall_eq, exists_eq_left, List.mem_filter,
    decide_eq_true_eq, exists_eq_or_imp]
  simp [allColumns, requiredColumns, requiredDataColumns, requiredTileColumns, optionalColumns]

/-- The validated catalog. -/
def validated (cat : Catalog Val) : Catalog Val :=
  { cols := cat.cols.map (renameCol (colnameMap cat.cols))
    rows := cat.rows.map (standardNames cat.cols) }

theorem validate_ok (cat : Catalog Val) (isMock isTile : Bool)
    (hc : HasColumns cat.cols isMock isTile) (hd : NoDuplicates cat.rows isTile) :
    validateAdjustColumnNames cat isMock isTile = .ok (validated cat) := by
  rw [(validate_spec cat isMock isTile).1 ⟨hc, hd⟩]
  unfold validated
  by_cases h : colnameMap cat.cols = []
  · rw [if_pos (by simp [h])]
    have : standardNames cat.cols = (id : Row Val → Row Val) := by
      funext r; exact standardNames_of_map_empty h r
    have h2 : renameCol [] = id := by funext c; simp [renameCol]
    simp [this, h, h2]
  · rw [if_neg (by simpa using h)]
    simp only [renameFields]
    congr 2
    refine List.map_congr_left fun r _ => ?_
    exact renameRow_standard cat.cols r

instance (cols : List String) (ks : Option (List Val)) (zmin zmax : Val) :
    DecidablePred (Passes cols ks zmin zmax) := fun r => by
  unfold Passes
  cases ks with
  | none => exact decidable_of_iff (zmin ≤ r "Z" ∧ r "Z" ≤ zmax) (by simp)
  | some l =>
    exact decidable_of_iff (zmin ≤ r "Z" ∧ r "Z" ≤ zmax ∧ ("SURVEY" ∈ cols → r "SURVEY" ∈ l))
      (by simp)

/-- The columns of `_prime_catalog`'s result. -/
def primedCols (cols : List String) : List String :=
  if "HPXPIXEL" ∈ cols then cols else cols ++ ["HPXPIXEL"]

theorem sortOrder_subset (cols : List String) (ks : Option (List Val)) (isTile : Bool)
    (h : "TARGETID" ∈ cols) (ht : isTile = true → "TILEID" ∈ cols ∧ "PETAL_LOC" ∈ cols) :
    ∀ x ∈ sortOrder cols ks isTile, x ∈ primedCols cols := by
  have hsub : ∀ x, x ∈ cols → x ∈ primedCols cols := by
    intro x hx; unfold primedCols; split <;> simp [hx]
  have hp : "HPXPIXEL" ∈ primedCols cols := by
    unfold primedCols; split <;> simp [*]
  intro x hx
  unfold sortOrder at hx
  split at hx
  · rename_i h'
    obtain ⟨h1, h2⟩ := ht h'
    simp at hx
    rcases hx with rfl | rfl | rfl <;> exact hsub _ (by assumption)
  · split at hx
    · split at hx
      · rename_i h'
        simp at hx
        rcases hx with rfl | rfl | rfl
        · exact hp
        · exact hsub _ h'.1
        · exact hsub _ h
      · simp at hx
        rcases hx with rfl | rfl
        · exact hp
        · exact hsub _ h
    · simp at hx
      rcases hx with rfl | rfl
      · exact hp
      · exact hsub _ h

theorem prime_spec (ang2pix : Nat → Val → Val → Val) (cat : Catalog Val) (nSide : Nat)
    (ks : Option (List Val)) (zmin zmax : Val) (isTile : Bool)
    (h : "TARGETID" ∈ cat.cols)
    (ht : isTile = true → "TILEID" ∈ cat.cols ∧ "PETAL_LOC" ∈ cat.cols) :
    (cat.rows.filter (Passes cat.cols ks zmin zmax) = [] →
      primeCatalog ang2pix cat nSide ks zmin zmax isTile = .error .exception) ∧
    (cat.rows.filter (Passes cat.cols ks zmin zmax) ≠ [] →
      ∃ c, primeCatalog ang2pix cat nSide ks zmin zmax isTile = .ok c ∧
        c.cols = primedCols cat.cols ∧
        c.rows ~ (cat.rows.filter (Passes cat.cols ks zmin zmax)).map
          (withPixel cat.cols (ang2pix nSide)) ∧
        c.rows.Pairwise (fun r s => rowLe (sortOrder cat.cols ks isTile ++
          (primedCols cat.cols).filter (· ∉ sortOrder cat.cols ks isTile)) r s)) := by
  have hf : selectRows cat.cols ks zmin zmax cat.rows =
      cat.rows.filter (Passes cat.cols ks zmin zmax) := by
    unfold selectRows
    cases ks with
    | none =>
      refine List.filter_congr fun r _ => ?_
      simp [Passes]
    | some l =>
      simp only
      split
      · rename_i hs
        rw [List.filter_filter]
        refine List.filter_congr fun r _ => ?_
        rw [Bool.eq_iff_iff]
        simp [Passes, hs]
        tauto
      · rename_i hs
        refine List.filter_congr fun r _ => ?_
        rw [Bool.eq_iff_iff]
        simp [Passes, hs]
  have ha : ∀ rows : List (Row Val), addHealpix ang2pix nSide { cat with rows := rows } cat.cols =
      { cols := primedCols cat.cols, rows := rows.map (withPixel cat.cols (ang2pix nSide)) } := by
    intro rows
    unfold addHealpix primedCols
    have : (withPixel cat.cols (ang2pix nSide) : Row Val → Row Val) =
        if "HPXPIXEL" ∈ cat.cols then id else
        fun r => Function.update r "HPXPIXEL" (ang2pix nSide (r "RA") (r "DEC")) := by
      funext r; unfold withPixel; split <;> rfl
    rw [this]
    split <;> simp
  unfold primeCatalog
  simp only [hf, ha]
  constructor
  · intro he; simp [he]
  · intro he
    rw [if_neg (by simpa using he)]
    obtain ⟨c, hc⟩ := sortCatalog_of_subset (order := sortOrder cat.cols ks isTile)
      (cat := Catalog.mk (primedCols cat.cols)
        ((cat.rows.filter (Passes cat.cols ks zmin zmax)).map
          (withPixel cat.cols (ang2pix nSide))))
      (sortOrder_subset cat.cols ks isTile h ht)
    have := sortCatalog_ok hc
    exact ⟨c, hc, this⟩

/-- Names that renaming does not touch. -/
theorem mem_renamed {cols : List String} {x : String}
    (hx : x ∉ ["TARGET_RA", "RA", "TARGET_DEC", "DEC", "COADD_LASTNIGHT", "LAST_NIGHT",
      "LASTNIGHT"]) :
    x ∈ cols.map (renameCol (colnameMap cols)) ↔ x ∈ cols := by
  simp only [List.mem_cons, List.not_mem_nil, or_false, not_or] at hx
  obtain ⟨h1, h2, h3, h4, h5, h6, h7⟩ := hx
  rw [List.mem_map]
  constructor
  · rintro ⟨o, ho, e⟩
    rw [renameCol_colnameMap] at e
    split at e
    · exact absurd e.symm h2
    split at e
    · exact absurd e.symm h4
    split at e
    · exact absurd e.symm h7
    split at e
    · exact absurd e.symm h7
    · rwa [← e]
  · intro h
    exact ⟨x, h, by rw [renameCol_colnameMap]; simp [h1, h3, h5, h6]⟩

theorem mem_filter_all {cols : List String} {x : String} (hx : x ∈ allColumns) :
    x ∈ cols.filter (· ∈ allColumns) ↔ x ∈ cols := by simp [hx]

theorem standardNames_filter (cols : List String) :
    (standardNames (cols.filter (· ∈ allColumns)) : Row Val → Row Val) = standardNames cols := by
  funext r c
  unfold standardNames
  simp only [mem_filter_all (x := "RA") (by decide), mem_filter_all (x := "DEC") (by decide),
    mem_filter_all (x := "TARGET_RA") (by decide), mem_filter_all (x := "TARGET_DEC") (by decide),
    mem_filter_all (x := "LASTNIGHT") (by decide),
    mem_filter_all (x := "COADD_LASTNIGHT") (by decide),
    mem_filter_all (x := "LAST_NIGHT") (by decide)]

theorem standardNames_other (cols : List String) (r : Row Val) {x : String}
    (hx : x ∉ ["RA", "DEC", "LASTNIGHT"]) : standardNames cols r x = r x := by
  simp only [List.mem_cons, List.not_mem_nil, or_false, not_or] at hx
  simp [standardNames, hx]

/-- The columns after reading. -/
def readCols (cols : List String) : List String :=
  primedCols ((cols.filter (· ∈ allColumns)).map
    (renameCol (colnameMap (cols.filter (· ∈ allColumns)))))

/-- The row as it is returned. -/
def outRow (cols : List String) (pix : Val → Val → Val) (r : Row Val) : Row Val :=
  withPixel cols pix (standardNames cols r)

theorem read_error_of_bad (ang2pix : Nat → Val → Val → Val) (cat : Catalog Val)
    (isMock isTile : Bool) (ks : Option (List Val)) (zmin zmax : Val)
    (h : ¬ (HasColumns cat.cols isMock isTile ∧ NoDuplicates cat.rows isTile)) :
    readQuasarCatalog ang2pix (.ok cat) isMock isTile ks zmin zmax = .error .exception := by
  have h' : ¬ (HasColumns (cat.cols.filter (· ∈ allColumns)) isMock isTile ∧
      NoDuplicates cat.rows isTile) := by rwa [hasColumns_filter]
  have := (validate_spec { cat with cols := cat.cols.filter (· ∈ allColumns) } isMock isTile).2 h'
  simp [readQuasarCatalog, readCatalogFile, bind, Except.bind, pure, Except.pure, this]

theorem read_of_good (ang2pix : Nat → Val → Val → Val) (cat : Catalog Val)
    (isMock isTile : Bool) (ks : Option (List Val)) (zmin zmax : Val)
    (hc : HasColumns cat.cols isMock isTile) (hd : NoDuplicates cat.rows isTile) :
    (cat.rows.filter (Passes cat.cols ks zmin zmax) = [] →
      readQuasarCatalog ang2pix (.ok cat) isMock isTile ks zmin zmax = .error .exception) ∧
    (cat.rows.filter (Passes cat.cols ks zmin zmax) ≠ [] →
      ∃ c, readQuasarCatalog ang2pix (.ok cat) isMock isTile ks zmin zmax = .ok c ∧
        c.cols = readCols cat.cols ∧
        c.rows ~ (cat.rows.filter (Passes cat.cols ks zmin zmax)).map
          (outRow cat.cols (ang2pix (if isMock then 16 else 64))) ∧
        c.rows.Pairwise (fun r s => rowLe (sortOrder cat.cols ks isTile ++
          (readCols cat.cols).filter (· ∉ sortOrder cat.cols ks isTile)) r s)) := by
  have hv := validate_ok { cat with cols := cat.cols.filter (· ∈ allColumns) } isMock isTile
    ((hasColumns_filter _ _ _).mpr hc) hd
  have e : readQuasarCatalog ang2pix (.ok cat) isMock isTile ks zmin zmax =
      primeCatalog ang2pix (validated { cat with cols := cat.cols.filter (· ∈ allColumns) })
        (if isMock then 16 else 64) ks zmin zmax isTile := by
    simp [readQuasarCatalog, readCatalogFile, bind, Except.bind, pure, Except.pure, hv]
  have hcols : ∀ x ∈ ["TARGETID", "TILEID", "PETAL_LOC", "SURVEY", "HPXPIXEL"],
      (x ∈ (validated { cat with cols := cat.cols.filter (· ∈ allColumns) } : Catalog Val).cols ↔
        x ∈ cat.cols) := by
    intro x hx
    unfold validated
    simp only
    rw [mem_renamed, mem_filter_all]
    · revert x; decide
    · revert x; decide
  have hP : ∀ r : Row Val,
      Passes (validated { cat with cols := cat.cols.filter (· ∈ allColumns) } : Catalog Val).cols
        ks zmin zmax (standardNames cat.cols r) ↔ Passes cat.cols ks zmin zmax r := by
    intro r
    unfold Passes
    rw [hcols "SURVEY" (by decide), standardNames_other _ _ (by decide),
      standardNames_other _ _ (by decide)]
  have hrows : (validated { cat with cols := cat.cols.filter (· ∈ allColumns) } : Catalog Val).rows
      = cat.rows.map (standardNames cat.cols) := by
    simp only [validated, standardNames_filter]
  have hfilt : (validated { cat with cols := cat.cols.filter (· ∈ allColumns) } :
        Catalog Val).rows.filter
      (Passes (validated { cat with cols := cat.cols.filter (· ∈ allColumns) } :
        Catalog Val).cols ks zmin zmax) =
      (cat.rows.filter (Passes cat.cols ks zmin zmax)).map (standardNames cat.cols) := by
    rw [hrows, List.filter_map]
    congr 1
    refine List.filter_congr fun r _ => ?_
    simp [hP]
  have hpix : ∀ pix : Val → Val → Val, (withPixel
      (validated { cat with cols := cat.cols.filter (· ∈ allColumns) } : Catalog Val).cols pix :
        Row Val → Row Val) = withPixel cat.cols pix := by
    intro pix; funext r
    unfold withPixel
    simp only [hcols "HPXPIXEL" (by decide)]
  have hso : sortOrder (validated { cat with cols := cat.cols.filter (· ∈ allColumns) } :
      Catalog Val).cols ks isTile = sortOrder cat.cols ks isTile := by
    unfold sortOrder
    simp only [hcols "SURVEY" (by decide)]
  have := prime_spec ang2pix (validated { cat with cols := cat.cols.filter (· ∈ allColumns) })
    (if isMock then 16 else 64) ks zmin zmax isTile
    ((hcols "TARGETID" (by decide)).mpr hc.targetid)
    (fun ht => ⟨(hcols "TILEID" (by decide)).mpr (hc.tileid ht),
      (hcols "PETAL_LOC" (by decide)).mpr (hc.petal ht)⟩)
  rw [hfilt] at this
  rw [e]
  constructor
  · intro h0
    exact this.1 (by rw [h0]; rfl)
  · intro h0
    obtain ⟨c, h1, h2, h3, h4⟩ := this.2 (by simpa using h0)
    refine ⟨c, h1, h2, ?_, ?_⟩
    · rw [hpix, List.map_map] at h3
      exact h3
    · rw [hso] at h4
      exact h4

end Verif.Proofs
