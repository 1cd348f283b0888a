import Verif.Model.FitterErr
import Verif.Spec.FitRun
import Verif.Spec.WholeRun

/-!
# Specification vocabulary for the end of a run
-/

namespace Verif.Spec
open Verif.Np Verif.Model

variable {Val K : Type} [LinearOrder Val] [Field K] [LinearOrder K] [FloorRing K]

/-- A reader of spectra fails only with exceptions other than the one of the package (no function of py/qsonic/io.py
that reads spectra raises `QsonicException` or calls `sys.exit`). -/
def OrdinaryErrors {A B : Type} (reader : A → Except Err B) : Prop :=
  ∀ rows e, reader rows = .error e → Unexpected e

/-- The BAL mask is wanted but the catalog has not all of its columns. -/
def NoBalColumns (C : WholeCfg Val K) : Prop :=
  C.sel.bal = true ∧ ∃ s ∈ ["VMIN_CIV_450", "VMAX_CIV_450", "VMIN_CIV_2000", "VMAX_CIV_2000"], s ∉ C.cols

/-- The spectrum after it was fitted with the mean continua `gs`, one after the other. -/
def fittedWith (C : CatalogCfg Val K) (gs : List (FullState K)) (x : ReadSpec K) : FitRec K :=
  gs.foldl (fun y g => C.run.fit.fitRec C.cov g y) (C.start x)

/-- The pixels of the catalog are distributed over `n + 1` processes, and after some iteration no spectrum of any of them
has a valid fit. -/
def NoValidFit (C : CatalogCfg Val K) (c : Catalog Val) (g0 : FullState K) (n : Nat) : Prop :=
  ∃ (q : Nat → List (List (Row Val))) (gs : List (FullState K)),
    ((List.range (n + 1)).flatMap q).Perm ((catPixels C.run.tile c).map (catPixelRows C.run.tile c)) ∧
    gs.head? = some g0 ∧ gs.length ≤ C.run.niter ∧
    ∀ r ≤ n, ∃ l, C.run.prepare (q r) = .ok l ∧ ∀ x ∈ l, (fittedWith C gs x).spec.valid = false

/-- Some update of the mean continuum or of the variance functions raises `e`. -/
def UpdateRaises {G R Q : Type} (E : UpdateErrs G R Q) (e : Err) : Prop :=
  (∃ g s, E.mean g s = some e) ∨ ∃ g s, E.var g s = some e

end Verif.Spec
