import Verif.Model.ExposureRun
import Verif.Spec.WholeRun

/-!
# Specification vocabulary for a run with `--exposures after`
-/

namespace Verif.Spec
open Verif.Np Verif.Model

/-- The rows of the targets `ids` in a pixel, by TARGETID. -/
def targetRows {Val : Type} [LinearOrder Val] (tid : Row Val → Int) (c : Catalog Val) (ids : List Int) (p : Val) :
    List (Row Val) :=
  ((catPixelRows false c p).filter (fun r => decide (tid r ∈ ids))).insertionSort
    (fun r s => r "TARGETID" ≤ s "TARGETID")

/-- The reader of exposures reads the rows of one pixel, and what it gives for `rows` is `fe rows`: good spectra of
targets of these rows. Every spectrum knows its row of the catalog, and no target has two coadded spectra. -/
structure ReadsExposures {Val K : Type} [LinearOrder Val] [Field K] [LinearOrder K] [FloorRing K] (C : ExposureCfg Val K)
    (c : Catalog Val) (f : Val → List (ReadSpec K)) (fe : List (Row Val) → List (ReadSpec K)) : Prop where
  catrow : ∀ r ∈ c.rows, C.catrow (C.run.tid r) = r
  tid : ∀ r ∈ c.rows, ∀ s ∈ c.rows, r "TARGETID" = s "TARGETID" → C.run.tid r = C.run.tid s
  one : ∀ p ∈ catPixels false c, ((f p).map (fun x => x.row.targetid)).Nodup
  ok : ∀ p, ∀ rows ≠ [], (∀ r ∈ rows, r ∈ catPixelRows false c p) → C.expReader rows = .ok (fe rows)
  row : ∀ p, ∀ rows ≠ [], (∀ r ∈ rows, r ∈ catPixelRows false c p) → ∀ x ∈ fe rows, ∃ r ∈ rows,
    C.run.tid r = x.row.targetid
  data : ∀ p, ∀ rows ≠ [], (∀ r ∈ rows, r ∈ catPixelRows false c p) → ∀ x ∈ fe rows,
    DataOk x.spec ∧ Fresh x.spec ∧ 0 < 1 + x.spec.z
  coadd : C.run.sel.coaddBefore = true → ∀ p, ∀ rows ≠ [], (∀ r ∈ rows, r ∈ catPixelRows false c p) → ∀ x ∈ fe rows,
    CoaddReady C.run.sel x.spec

/-- The exposures of the targets `ids` that pass the cuts. -/
def exposuresOf {Val K : Type} [LinearOrder Val] [Field K] [LinearOrder K] [FloorRing K] (C : ExposureCfg Val K)
    (c : Catalog Val) (fe : List (Row Val) → List (ReadSpec K)) (ids : List Int) : List (ReadSpec K) :=
  ((catPixels false c).flatMap (fun p =>
    if targetRows C.run.tid c ids p = [] then [] else fe (targetRows C.run.tid c ids p))).filter
      (fun x => decide (PassesCuts C.run.sel x))

end Verif.Spec
