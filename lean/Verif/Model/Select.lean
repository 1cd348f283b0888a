import Verif.Model.Calibration
import Verif.Model.Coadd
import Verif.Model.Masks

/-!
# Which spectra are fitted (`py/qsonic/scripts/qsonic_fit.py:98-312`)

What the reader functions return is a parameter here (they are modelled in `Verif.Model.Io`), and so are the files
of calibrations and masks. Logging and the count of all spectra (`comm.reduce`) are left out; the collective calls
of these functions are modelled in `Verif.Model.FitRun`.
-/

namespace Verif.Model
open Verif Verif.Np

variable {K : Type} [Field K] [LinearOrder K] [FloorRing K]

/-- A spectrum with the parts of its catalog row which masks use, and `rsnr` as set by the constructor.
py/qsonic/scripts/qsonic_fit.py:267-312. -/
structure ReadSpec (K : Type) where
  row : MaskRow K
  rsnr : K
  spec : Spectrum K

/-- The options, and numpy functions (`sqrt`), smoothing, uninitialised and undefined values (`junk`, `nan`),
`1e-6` and `1e-8` (`eps`, `eps8`), and the transmission of one DLA. `eta` is the interpolator of
`--noise-calibration`, `stack` that of `--flux-calibration`; `sky`, `dla` the tables of the mask files.
py/qsonic/scripts/qsonic_fit.py:267-312. -/
structure SelectCfg (K : Type) where
  sqrt : K → K
  smooth : List K → K → List K
  junk : Nat → K
  nan : K
  eps : K
  eps8 : K
  dlaFlux : K → K → K → K
  wave1 : K
  wave2 : K
  forestW1 : K
  forestW2 : K
  minRsnr : K
  minSnr : K
  skip : K
  coaddBefore : Bool
  eta : Option (K → K)
  stack : Option (K → K)
  sky : Option (List (SkyLine K))
  bal : Bool
  dla : Option (List (DlaRow K))

namespace SelectCfg

variable (C : SelectCfg K)

/-- py/qsonic/scripts/qsonic_fit.py:131-134: the body of the loop over spectra. -/
def setForest (x : ReadSpec K) : ReadSpec K :=
  { x with spec := (x.spec.setForestRegion C.sqrt C.eps C.wave1 C.wave2 C.forestW1 C.forestW2).removeNonforestPixels }

/-- py/qsonic/scripts/qsonic_fit.py:136-139: the condition of the comprehension. -/
def keepRead (x : ReadSpec K) : Bool := decide (x.spec.fwave ≠ [] ∧ C.minRsnr ≤ x.rsnr)

/-- py/qsonic/scripts/qsonic_fit.py:143-144: `coadd_arms_forest` with its default arguments. -/
def coadd (x : ReadSpec K) : Except Err (ReadSpec K) := do
  let s ← x.spec.coaddArmsForest C.sqrt C.smooth C.junk C.nan C.eps8 (fun _ => 0) (fun _ => 1)
  pure { x with spec := s }

/-- py/qsonic/scripts/qsonic_fit.py:98-151 `mpi_read_spectra_local_queue`. Simplification: all files are read before
the regions are set. -/
def readLocal {Cat : Type} (reader : Cat → Except Err (List (ReadSpec K))) (queue : List Cat) :
    Except Err (List (ReadSpec K)) := do
  let l ← queue.mapM reader
  let l := l.flatMap (fun specs => (specs.map C.setForest).filter C.keepRead)
  if C.coaddBefore then l.mapM C.coadd else pure l

omit [FloorRing K] in
/-- Replacement of the spectra of a list. py/qsonic/scripts/qsonic_fit.py:267-312. -/
def setSpecs (l : List (ReadSpec K)) (s : List (Spectrum K)) : List (ReadSpec K) :=
  List.zipWith (fun x t => { x with spec := t }) l s

omit [FloorRing K] in
/-- py/qsonic/scripts/qsonic_fit.py:155-160. -/
def noise (l : List (ReadSpec K)) : Except Err (List (ReadSpec K)) :=
  match C.eta with
  | some eta => do
    let s ← NoiseCal.apply ⟨eta, none⟩ (l.map (·.spec))
    pure (setSpecs l s)
  | none => pure l

omit [FloorRing K] in
/-- py/qsonic/scripts/qsonic_fit.py:162-166. -/
def flux (l : List (ReadSpec K)) : List (ReadSpec K) :=
  match C.stack with
  | some st => setSpecs l (fluxApply st (l.map (·.spec)))
  | none => l

omit [FloorRing K] in
/-- py/qsonic/scripts/qsonic_fit.py:169-220 `mpi_read_masks` with the tables read; `ids` are the TARGETIDs of the local
catalogs. The check of the BAL columns is in `balCheckCatalog`. -/
def maskers (ids : List Int) : List (Masker K) :=
  (C.sky.map Masker.sky).toList ++ (if C.bal then [.bal] else []) ++
    (C.dla.map (fun cat => Masker.dla (dlaInit cat (some ids) (8 / 10)))).toList

/-- py/qsonic/scripts/qsonic_fit.py:223-252 `apply_masks`. -/
def mask (m : List (Masker K)) (l : List (ReadSpec K)) : List (ReadSpec K) :=
  l.map (fun x => { x with spec := applyMasks C.dlaFlux x.row m x.spec })

omit [FloorRing K] in
/-- py/qsonic/scripts/qsonic_fit.py:255-264 `remove_short_spectra`. -/
def removeShort (l : List (ReadSpec K)) : List (ReadSpec K) :=
  if C.skip = 0 then l else l.filter (fun x => x.spec.isLong (C.forestW2 - C.forestW1) C.skip)

/-- py/qsonic/scripts/qsonic_fit.py:267-312 `mpi_read_calibrate_mask_select_spectra`. -/
def select {Cat : Type} (reader : Cat → Except Err (List (ReadSpec K))) (ids : List Int) (queue : List Cat) :
    Except Err (List (ReadSpec K)) := do
  let l ← C.readLocal reader queue
  let l ← C.noise l
  let l := C.removeShort (C.mask (C.maskers ids) (C.flux l))
  pure (l.filter (fun x => decide (C.minSnr ≤ x.spec.effectiveMeansnr C.eps8)))

end SelectCfg
end Verif.Model
