import Verif.Model.WholeRun
import Verif.Spec.Select

/-!
# Specification vocabulary for the whole run
-/

namespace Verif.Spec
open Verif.Np Verif.Model

/-- The column by which the catalog is split. -/
def splitCol (tile : Bool) : String := if tile then "TILEID" else "HPXPIXEL"

/-- The pixels (or tiles) of a catalog, each once. -/
def catPixels {Val : Type} [DecidableEq Val] (tile : Bool) (c : Catalog Val) : List Val :=
  (c.rows.map (fun r => r (splitCol tile))).dedup

/-- The rows of one pixel (or tile). -/
def catPixelRows {Val : Type} [DecidableEq Val] (tile : Bool) (c : Catalog Val) (p : Val) : List (Row Val) :=
  c.rows.filter (fun r => decide (r (splitCol tile) = p))

/-- `m` is the last night of the catalog. -/
def IsLastNight {Val : Type} [LE Val] (c : Catalog Val) (m : Val) : Prop :=
  (∃ r ∈ c.rows, r "LASTNIGHT" = m) ∧ ∀ r ∈ c.rows, r "LASTNIGHT" ≤ m

/-- Two sets of files: no name occurs twice in one of them, the names are the same, and files of the same name have
the same contents up to their order. -/
def SameFiles {N S : Type} (A B : List (N × List S)) : Prop :=
  (A.map Prod.fst).Nodup ∧ (B.map Prod.fst).Nodup ∧
  (∀ x ∈ A, ∃ y ∈ B, y.1 = x.1 ∧ y.2.Perm x.2) ∧ ∀ y ∈ B, ∃ x ∈ A, x.1 = y.1 ∧ x.2.Perm y.2

/-- The reader reads every pixel of the catalog, and what it gives for a pixel `p` is `f p`: good spectra, that belong
to rows of this pixel. -/
structure ReadsPixels {Val K : Type} [DecidableEq Val] [Field K] [LinearOrder K] [FloorRing K] (C : WholeCfg Val K) (c : Catalog Val)
    (f : Val → List (ReadSpec K)) : Prop where
  ok : ∀ p ∈ catPixels C.tile c, C.reader (catPixelRows C.tile c p) = .ok (f p)
  row : ∀ p ∈ catPixels C.tile c, ∀ x ∈ f p, ∃ r ∈ catPixelRows C.tile c p,
    C.tid r = x.row.targetid ∧ C.pix x.row.targetid = r "HPXPIXEL"
  data : ∀ p ∈ catPixels C.tile c, ∀ x ∈ f p, DataOk x.spec ∧ Fresh x.spec ∧ 0 < 1 + x.spec.z
  coadd : C.sel.coaddBefore = true → ∀ p ∈ catPixels C.tile c, ∀ x ∈ f p, CoaddReady C.sel x.spec

/-- The options and functions make sense: the root of a number that is not positive
is taken to be zero, calibrations are positive or not zero, and the grids of the stack are those of the forest. -/
structure PlainRun {Val K : Type} [Field K] [LinearOrder K] [FloorRing K] (C : WholeCfg Val K) (dw dr : K) : Prop where
  sqrt : ∀ v, v ≤ 0 → C.sel.sqrt v = 0
  eta : ∀ eta, C.sel.eta = some eta → ∀ w, 0 < eta w
  stack : ∀ st, C.sel.stack = some st → ∀ w, st w ≠ 0
  obs : linGrid C.sel.wave1 C.sel.wave2 dw = .ok C.fit.obs
  obsPos : C.sel.wave1 < C.sel.wave2
  rf : linGrid C.sel.forestW1 C.sel.forestW2 dr = .ok C.fit.rf
  rfPos : C.sel.forestW1 < C.sel.forestW2

/-- A rank without rows can take part: neither blinding nor the BAL and DLA masks need rows. -/
def IdleOk {Val K : Type} (C : WholeCfg Val K) : Prop :=
  C.mock = true ∧ C.sel.bal = false ∧ C.sel.dla = none

/-- What the first process does with the attributes file `fname`, if any, ends with the variance functions and the
statistics of the state `g`. -/
def EndsWith {Q D : Type} (P : FitterFns (FullState K) (Spectrum K) (StackSums K) Q D) (fname : String)
    (ev : List (SaverEv (String × D))) (g : FullState K) : Prop :=
  fname ≠ "" → ∃ pre, ev = pre ++ [.write fname ("VAR_FUNC-fit", P.dataVar g),
    .write fname ("VAR_STATS", P.dataStats g), .close fname]

end Verif.Spec
