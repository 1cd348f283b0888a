import Verif.Model.Calibration
import Verif.Model.MpiCalls

/-!
# Model of the fiducial mean flux and var_lss (`py/qsonic/picca_continuum.py:149-216`)
-/

namespace Verif.Model
open Verif Verif.Np

variable {K : Type} [Field K] [LinearOrder K]

/-- py/qsonic/picca_continuum.py:177-193 `_read`; `table` are the columns of the STATS extension, `none` if the file or the
extension cannot be read. The test on the spacing is the one of the calibrators. -/
def fiducialRead (rtol atol : K) (table : Option (Dict (List K))) (col : String) : Except Err (LinInterp K) :=
  match table with
  | none => .error .osError
  | some t =>
    match t.lookup "LAMBDA" with
    | none => .error .valueError
    | some waves => (readGrid rtol atol waves).bind (fun g =>
      match t.lookup col with
      | none => .error .valueError
      | some data => .ok ⟨g.1, g.2, data⟩)

/-- py/qsonic/picca_continuum.py:195-198: only the root reads. -/
def fiducialInterp {V W : Type} (c : Codec (Option (LinInterp K)) V) (called : W) (rtol atol : K)
    (table : Nat → Option (Dict (List K))) (col : String) (rank : Nat) : Prog V W (LinInterp K) :=
  mpiFncBcast c called (fiducialRead rtol atol (table rank) col) true rank

/-- py/qsonic/picca_continuum.py:205-206: the mean flux without a file. -/
def defaultMeanflux (wave1 wave2 : K) : LinInterp K := ⟨wave1, wave2 - wave1, [1, 1, 1]⟩

/-- py/qsonic/picca_continuum.py:200-206; `--fiducial-meanflux`. -/
def meanfluxInterp {V W : Type} (c : Codec (Option (LinInterp K)) V) (called : W) (rtol atol wave1 wave2 : K)
    (file : Bool) (table : Nat → Option (Dict (List K))) (rank : Nat) : Prog V W (LinInterp K) :=
  if file then fiducialInterp c called rtol atol table "MEANFLUX" rank else .ret (defaultMeanflux wave1 wave2)

/-- py/qsonic/picca_continuum.py:208-211; `--fiducial-varlss`. -/
def fiducialVarlss {V W : Type} (c : Codec (Option (LinInterp K)) V) (called : W) (rtol atol : K)
    (table : Nat → Option (Dict (List K))) (rank : Nat) : Prog V W (LinInterp K) :=
  fiducialInterp c called rtol atol table "VAR_LSS" rank

end Verif.Model
