import Verif.Model.Fiducial
import Verif.Model.Shared

/-!
# The tables written by a run and read by the calibrators of another one
(`py/qsonic/picca_continuum.py:596-630`, `py/qsonic/scripts/qsonic_calib.py:241-259`, `py/qsonic/calibration.py`)

A file is the list of its extensions, a table the list of its columns. `fitsio` compares the names of extensions
without case; the names written here differ in more than case. Not modelled: storage of the numbers.
-/

namespace Verif.Model
open Verif Verif.Np

variable {K : Type} [Field K] [LinearOrder K]

/-- The columns of a binary table. py/qsonic/calibration.py:72-87. -/
abbrev FitsTable (K : Type) := List (String × List K)

/-- The extensions of a file. py/qsonic/calibration.py:72-73. -/
abbrev FitsFile (K : Type) := List (String × FitsTable K)

/-- `fitsio.FITS(fname)[ext].read()`; `none`: the file cannot be opened.
py/qsonic/calibration.py:72-73, 166-167, py/qsonic/picca_continuum.py:178-179. -/
def fitsRead {K : Type} (file : Option (FitsFile K)) (ext : String) : Except Err (FitsTable K) :=
  match file with
  | none => .error .osError
  | some f => (f.lookup ext).elim (.error .osError) .ok

/-- `data[name]` (py/qsonic/calibration.py:75-87, 169-178, py/qsonic/picca_continuum.py:181-191). -/
def fitsColumn {K : Type} (t : FitsTable K) (name : String) : Except Err (List K) :=
  (t.lookup name).elim (.error .valueError) .ok

/-- py/qsonic/calibration.py:71-91 `NoiseCalibrator._read`. Simplification: the columns are looked up before the
test on the spacing; both raise. -/
def noiseReadFile (junk : Nat → K) (rtol atol : K) (file : Option (FitsFile K)) :
    Except Err (CubicInterp K × CubicInterp K) := do
  let t ← fitsRead file "VAR_FUNC"
  let waves ← fitsColumn t "lambda"
  let varlss ← fitsColumn t "var_lss"
  let eta ← fitsColumn t "eta"
  noiseRead junk rtol atol waves varlss eta

/-- py/qsonic/calibration.py:93-106 `NoiseCalibrator.__init__`; `file` is what each rank would read. -/
def noiseInit [FloorRing K] {V W : Type} (c : Codec (Option (CubicInterp K × CubicInterp K)) V) (called : W)
    (junk : Nat → K) (rtol atol : K) (addVarlss noEta : Bool) (file : Nat → Option (FitsFile K)) (rank : Nat) :
    Prog V W (NoiseCal K) :=
  (mpiFncBcast c called (noiseReadFile junk rtol atol (file rank)) true rank).bind fun r =>
  .ret (NoiseCal.mk' r addVarlss noEta)

/-- py/qsonic/calibration.py:165-181 `FluxCalibrator._read`. Simplification as in `noiseReadFile`. -/
def fluxReadFile (rtol atol : K) (file : Option (FitsFile K)) : Except Err (LinInterp K) := do
  let t ← fitsRead file "STACKED_FLUX"
  let waves ← fitsColumn t "lambda"
  let stacked ← fitsColumn t "stacked_flux"
  fluxRead rtol atol waves stacked

/-- py/qsonic/calibration.py:183-187 `FluxCalibrator.__init__`. -/
def fluxInit {V W : Type} (c : Codec (Option (LinInterp K)) V) (called : W) (rtol atol : K)
    (file : Nat → Option (FitsFile K)) (rank : Nat) : Prog V W (LinInterp K) :=
  mpiFncBcast c called (fluxReadFile rtol atol (file rank)) true rank

/-- An evenly spaced array of bin centers (py/qsonic/picca_continuum.py:824, 1277). -/
def evenGrid {K : Type} [Field K] (x0 dx : K) (n : Nat) : List K := (List.range n).map (fun k : Nat => x0 + (k : K) * dx)

/-- py/qsonic/picca_continuum.py:612-615: the table STACKED_FLUX. -/
def fluxTable {K : Type} (waves fp : List K) : FitsTable K := [("lambda", waves), ("stacked_flux", fp)]

/-- py/qsonic/picca_continuum.py:625-630: the table VAR_FUNC. -/
def varTable {K : Type} (waves v ve e ee : List K) : FitsTable K :=
  [("lambda", waves), ("var_lss", v), ("e_var_lss", ve), ("eta", e), ("e_eta", ee)]

/-- The fitter on its objects with the tables of py/qsonic/picca_continuum.py:596-630 `save`; `stats` makes the table
VAR_STATS. -/
def FitObjs.attrFns [FloorRing K] {Q : Type} (C : FullCfg K) (P : VarPart K Q) (stats : Q → FitsTable K) :
    FitterFns (FitObjs K Q) (Spectrum K) (StackSums K) Q (FitsTable K) :=
  { FitObjs.fns C P (fun _ => []) stats with
    dataCont := fun w => [("lambda_rf", C.rfwave), ("mean_cont", (w.obj w.fitter.mean).fp),
      ("e_mean_cont", (w.obj w.fitter.mean).ep)]
    dataFlux := fun w => fluxTable (evenGrid C.obs.x0 C.obs.dx C.obs.n) w.stack.fp
    dataFluxRf := fun w => [("lambda_rf", C.rfwave), ("stacked_flux_rf", w.stack.fpRf), ("e_stacked_flux_rf",
    w.stack.epRf)]
    dataVar := fun w => varTable (evenGrid P.x0 P.dx P.n) (w.obj w.fitter.var).fp (w.obj w.fitter.var).ep
      (w.obj w.fitter.eta).fp (w.obj w.fitter.eta).ep }

/-- py/qsonic/scripts/qsonic_calib.py:241-259: the file of `qsonic-calib`; `fit` are the rows of `fit_results` and
`std_results`,
`stack` the result of `mpi_stack_fluxes`. -/
def calibTables (stats : FitsTable K) (x0 dx : K) (n : Nat) (v ve e ee : List K) (stack : List K × List K) : FitsFile K :=
  [("VAR_STATS", stats), ("VAR_FUNC", varTable (evenGrid x0 dx n) v ve e ee), ("STACKED_FLUX", fluxTable stack.1
  stack.2)]

end Verif.Model
