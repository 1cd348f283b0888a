import Verif.Model.TailRun
import Verif.Spec.WholeRun

/-!
# Specification vocabulary for a run with the steps after the fit
-/

namespace Verif.Spec
open Verif.Np Verif.Model

variable {Val K : Type} [Field K]

/-- A spectrum without its weights and without its chi square. -/
def noWeights (x : ReadSpec K) : ReadSpec K := { x with spec := { x.spec with weight := none, chi2 := 0 } }

/-- What identifies a spectrum: target, row, `rsnr` and redshift. -/
def onlyTarget (x : ReadSpec K) : ReadSpec K :=
  { x with spec := Spectrum.blank x.spec.z x.spec.dwave [] [] [] [] }

/-- What the files have of spectra, seen through `φ`. -/
def filesBy (φ : ReadSpec K → ReadSpec K) (F : List (DeltaName Val × List (SavedSpec Val (ReadSpec K)))) :
    List (DeltaName Val × List (SavedSpec Val (ReadSpec K))) :=
  F.map (fun f => (f.1, f.2.map (fun s => { s with data := φ s.data })))

/-- The same pixels and the same continuum, unless the arms of one of them were dropped. -/
def SameOrDropped (s t : Spectrum K) : Prop :=
  (s.fwave = t.fwave ∧ s.cont = t.cont) ∨ s.fwave = [] ∨ t.fwave = []

end Verif.Spec
