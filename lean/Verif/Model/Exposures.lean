import Verif.Model.Spectrum
import Verif.Model.SpectrumInit
import Verif.Model.Coadd
import Verif.Np.Round

/-!
# Model of `mpi_read_exposures_after` (`py/qsonic/scripts/qsonic_fit.py`)

Reading, calibration, masks and selection of the exposures are those of the other spectra
(`mpi_read_calibrate_mask_select_spectra`); modelled here is the assignment of continua.
-/

namespace Verif.Model
open Verif.Np

variable {K : Type} [Field K] [LinearOrder K] [FloorRing K]

/-- The stop of a Python slice of an array of size `n`: negative indices count from the end.
py/qsonic/scripts/qsonic_fit.py:431-439. -/
def pyStop (n : Nat) (i : Int) : Nat := if i < 0 then (n + i).toNat else i.toNat

/-- py/qsonic/scripts/qsonic_fit.py:425-435: `(i1, i2, j1, j2)` from the wavelengths of the arm in the exposure and
in the
coadded spectrum. `wave[0]` of an empty array raises. -/
def matchIdx (dwave : K) (waveArm waveCoadd : List K) : Except Err (Nat × Int × Nat × Int) := do
  let e0 ← firstElem waveArm
  let c0 ← firstElem waveCoadd
  let a := pyRound ((e0 - c0) / dwave)
  let e1 ← lastElem waveArm
  let c1 ← lastElem waveCoadd
  let b := pyRound ((c1 - e1) / dwave)
  .ok ((-a).toNat, (waveArm.length : Int) + min b 0, a.toNat, (waveCoadd.length : Int) - max b 0)

/-- py/qsonic/scripts/qsonic_fit.py:436-442: `spec.slice`, the continuum, and the comparison of sizes. Simplified:
`slice'` gets a
negative stop as index from the start; with shared dictionaries, the second and third cut of the ivar would count it
from
the end of the shortened array. -/
def assignCont (arm : String) (i1 : Nat) (i2 : Int) (cont : List K) (s : Spectrum K) : Spectrum K :=
  let s1 := s.slice' arm i1 (pyStop (s.fwave.arr arm).length i2)
  { s1 with
    cont := s1.cont.set arm cont
    valid := s1.valid && decide ((s1.fwave.arr arm).length = cont.length) }

/-- py/qsonic/scripts/qsonic_fit.py:419-442: one arm. Deleting an entry of the dictionary under iteration makes the
next step
of the iteration raise `RuntimeError`, also after the last entry. -/
def matchArm (coadd : Spectrum K) (s : Spectrum K) (arm : String) (waveArm : List K) : Except Err (Spectrum K) :=
  match coadd.fwave.lookup arm with
  | none => .error .runtimeError
  | some waveCoadd => do
    let x ← matchIdx s.dwave waveArm waveCoadd
    let cont ← dictGet coadd.cont arm
    .ok (assignCont arm x.1 x.2.1 (slice cont x.2.2.1 (pyStop cont.length x.2.2.2)) s)

/-- py/qsonic/scripts/qsonic_fit.py:416-442: the loop over the arms, after `cont_params` has been copied with no
continua. -/
def matchExposure (coadd : Spectrum K) (s : Spectrum K) : Except Err (Spectrum K) :=
  s.fwave.foldlM (fun t x => matchArm coadd t x.1 x.2)
    { s with
      cont := []
      valid := coadd.valid
      chi2 := coadd.chi2
      x0 := coadd.x0 }

/-- py/qsonic/scripts/qsonic_fit.py:413-415: the first of the fitted spectra with this target. `coadds` are in the
order of the
sorted local catalog. `np.nonzero(...)[0][0]` raises if the target is not there. -/
def coaddOf (coadds : List (Int × Spectrum K)) (targetid : Int) : Except Err (Spectrum K) :=
  match coadds.lookup targetid with
  | none => .error .indexError
  | some c => .ok c

/-- py/qsonic/scripts/qsonic_fit.py:412-442: all exposures, each with its target. -/
def matchExposures (coadds exposures : List (Int × Spectrum K)) : Except Err (List (Int × Spectrum K)) :=
  exposures.mapM (fun e => do
    let coadd ← coaddOf coadds e.1
    let s ← matchExposure coadd e.2
    .ok (e.1, s))

end Verif.Model
