import Verif.Model.AllRun
import Verif.Spec.CatalogRun
import Verif.Spec.ExposureRun
import Verif.Spec.TailRun

/-!
# Specification vocabulary for a run with all steps after the fit
-/

namespace Verif.Spec
open Verif.Np Verif.Model

variable {Val K : Type} [Field K] [LinearOrder K] [FloorRing K]

/-- The cuts for exposures are those of the spectra, but arms are coadded first if coadding is asked for at all. -/
def exposureOptions (C : AllCfg Val K) (e : (List (Row Val) → Except Err (List (ReadSpec K))) × (Int → Row Val)) :
    ExposureCfg Val K :=
  ⟨{ C.cat.run with sel := { C.cat.run.sel with coaddBefore := C.cat.run.sel.coaddBefore || C.after } }, e.1, e.2⟩

/-- A spectrum without its chi square, which is in no delta file. -/
def noChi2 (x : ReadSpec K) : ReadSpec K := { x with spec := { x.spec with chi2 := 0 } }

/-- The steps after the fit give `t` for the fitted spectrum `x` by itself, with the variance functions `v` and `e`. -/
def TailGives (C : AllCfg Val K) (v e : K → K) (x : ReadSpec K) (t : Spectrum K) : Prop :=
  fitTail C.fns C.ncal C.after v e [x.spec] = .ok [t]

/-- `w` is the row of the catalog with the options, and `w0` the row without. They are equal unless the fit is valid and
`--coadd-arms after` is given. Then `w` describes the coadded spectrum: one arm, its signal-to-noise and its chi square. -/
def TailRow (C : AllCfg Val K) (v e : K → K) (F : List (ReadSpec K)) (w0 w : ChiRow K) : Prop :=
  if C.after = true ∧ w0.valid = true then
    ∃ x ∈ F, x.row.targetid = w0.targetid ∧ ∃ t y, TailGives C v e x t ∧ t.meanSnr = [("brz", y)] ∧
      w = { w0 with arms := "brz", meanSnr := [y, 0, 0], chi2 := t.chi2 }
  else w = w0

end Verif.Spec
