import Verif.Model.Delta
import Verif.Model.Save

/-!
# Model of delta files: what `save_deltas` puts into a file and what `read_deltas` gives (`py/qsonic/io.py`)

A file is the list of its tables, without the primary HDU. If an exception occurs only the exception is modelled, not
what has been written before.
-/

namespace Verif.Model
open Verif.Np

variable {κ K : Type} [LinearOrder κ] [Field K] [LinearOrder K]

/-- A fitted spectrum, with what `Spectrum.write` needs besides the arrays. `meanReso` is `mean_resolution`.
py/qsonic/spectrum.py:716-772. -/
structure FitSpec (K : Type) where
  id : Ident K
  rsnr : K
  meanReso : String → K
  spec : Spectrum K

/-- py/qsonic/io.py:272-273: the tables of one file. -/
def writeFile (st : ClassState) (l : List (SavedSpec κ (FitSpec K))) : Except Err (List (Hdu K)) := do
  let t ← l.mapM (fun s => s.data.spec.write st s.data.id s.data.meanReso s.data.rsnr)
  pure t.flatten

/-- py/qsonic/io.py:226-275 `save_deltas`, with what is in the files. `blinding_not_set` is
py/qsonic/spectrum.py:169-172. -/
def saveDeltaFiles (argsort : List κ → List Nat) (st : ClassState) (spectra : List (SavedSpec κ (FitSpec K)))
    (outdir saveByHpx : Bool) (mpiRank : Option Nat) : Except Err (List (DeltaName κ × List (Hdu K))) := do
  let files ← saveDeltas argsort st.blinding.isSome spectra outdir saveByHpx mpiRank
  files.mapM (fun f => do
    let t ← writeFile st f.2
    pure (f.1, t))

/-- py/qsonic/io.py:202-223 `read_deltas`; `none` is a file that cannot be opened. -/
def readDeltas (pick : List String → Option String) (pow10 : K → K) (file : Option (List (Hdu K))) :
    Except Err (List (Delta K)) :=
  match file with
  | none => .error .osError
  | some t => t.mapM (Delta.read pick pow10)

end Verif.Model
