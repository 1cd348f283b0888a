import Verif.Model.Spectrum
import Verif.Np.Float

/-!
# Model of the options: `_float_range` (`py/qsonic/io.py:714-728`), `args_logic_fnc_qsonic_fit`
(`py/qsonic/scripts/qsonic_fit.py:60-95`) and the redshift range (`mpi_run_all`, 459-461)
-/

namespace Verif.Model
open Verif.Np

/-- py/qsonic/io.py:714-728 `_float_range`: `parse` is `float`, `none` if it raises `ValueError`; the result is an
error if `argparse.ArgumentTypeError` is raised. -/
def floatRange {K : Type} [LT K] [DecidableLT K] (f1 f2 : Fl K) (parse : String → Option (Fl K)) (arg : String) :
    Except Err (Fl K) :=
  match parse arg with
  | none => .error .typeError
  | some f => if f.lt f1 || f2.lt f then .error .typeError else .ok f

/-- The options that `args_logic_fnc_qsonic_fit` looks at. Options that are a file or a directory name are `none` if
not given. py/qsonic/scripts/qsonic_fit.py:60-95. -/
structure FitArgs (K : Type) where
  arms : List String
  trueContinuum : Bool
  continuumModel : String
  mockAnalysis : Bool
  fiducialMeanflux : Option String
  fiducialVarlss : Option String
  inputContinuumDir : Option String
  wave1 : K
  wave2 : K
  forestW1 : K
  forestW2 : K
  tileFormat : Bool
  saveByHpx : Bool
  exposures : String

/-- The truth value of an optional string: not `None` and not empty. py/qsonic/scripts/qsonic_fit.py:60-95. -/
def given : Option String → Bool
  | none => false
  | some s => decide (s ≠ "")

variable {K : Type}

/-- py/qsonic/scripts/qsonic_fit.py:64-83: the conditions; `tc` is `args.true_continuum` after line 62. -/
def argConditions [LE K] [DecidableLE K] (a : FitArgs K) (tc : Bool) : List (Bool × String) :=
  [(tc && !a.mockAnalysis, "True continuum is only applicable to mock analysis."),
   (tc && !given a.fiducialMeanflux, "True continuum analysis requires fiducial mean flux."),
   (tc && !given a.fiducialVarlss, "True continuum analysis requires fiducial var_lss."),
   (tc && given a.inputContinuumDir, "Both true continuum and input continuum cannot be set."),
   (decide (a.wave2 ≤ a.wave1), "wave2 must be greater than wave1."),
   (decide (a.forestW2 ≤ a.forestW1), "forest_w2 must be greater than forest_w1."),
   (a.mockAnalysis && a.tileFormat, "Mock analysis in tile format is not supported."),
   (a.tileFormat && a.saveByHpx, "Cannot save deltas in healpixes in tile format."),
   (decide (a.exposures ≠ "disable") && a.tileFormat, "Cannot save exposures in tile format.")]

/-- py/qsonic/scripts/qsonic_fit.py:90-93: the model. -/
def argModel (tc : Bool) (dir : Option String) (model : String) : String :=
  if given dir then "input" else if tc then "true" else model

/-- py/qsonic/scripts/qsonic_fit.py:60-95 `args_logic_fnc_qsonic_fit`: the options after it, the messages it logs and
its
result. `setOrder` is the order in which the elements of a set are listed. -/
def argsLogic [LE K] [DecidableLE K] (setOrder : List String → List String) (a : FitArgs K) :
    FitArgs K × List String × Bool :=
  let tc := a.trueContinuum || decide (a.continuumModel = "true")
  let bad := (argConditions a tc).filter (fun x => x.1)
  ({ a with
      arms := setOrder a.arms
      trueContinuum := tc
      continuumModel := argModel tc a.inputContinuumDir a.continuumModel },
   bad.map Prod.snd, bad.isEmpty)

/-- py/qsonic/scripts/qsonic_fit.py:459-461: the redshift range. -/
def redshiftRange [Field K] (wave1 wave2 forestW1 forestW2 skip : K) : K × K :=
  let tol := (forestW2 - forestW1) * skip
  (wave1 / (forestW2 - tol) - 1, wave2 / (forestW1 + tol) - 1)

end Verif.Model
