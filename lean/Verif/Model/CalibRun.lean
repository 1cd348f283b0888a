import Verif.Model.FitRun

/-!
# Model of the control flow of `qsonic-calib` (`py/qsonic/scripts/qsonic_calib.py:206-281`) with stages that may fail

As in `Verif/Model/FitRun.lean`: `S` is what a rank holds, `U` any data read or exchanged.
-/

namespace Verif.Model
open Prog

/-- The options that decide on the control flow. py/qsonic/scripts/qsonic_calib.py:206-260. -/
structure CalibOpts where
  removeList : Bool
  catalog : Bool
  deriving DecidableEq

/-- Stages that a rank does on its own. py/qsonic/scripts/qsonic_calib.py:148-260. -/
inductive CalibLoc where
  /-- 208-209, on the root -/
  | makedirs
  /-- 162-174, 227-233 -/
  | read
  /-- 240-256, the file on the root -/
  | writeVar
  /-- 258-263, the file on the root -/
  | writeStack
  deriving DecidableEq

/-- Files read on the root. py/qsonic/scripts/qsonic_calib.py:88-145. -/
inductive CalibFile where
  /-- 116-119 -/
  | targetids
  /-- 122-123 -/
  | catalog
  /-- 152-155 -/
  | deltas
  deriving DecidableEq

/-- Data of all ranks. py/qsonic/scripts/qsonic_calib.py:176-260. -/
inductive CalibVal where
  /-- py/qsonic/picca_continuum.py:935-940, py/qsonic/mathtools.py:561-562 -/
  | variance
  /-- 178-193; the first delta of the rank is used -/
  | stack
  /-- 195 -/
  | weights
  deriving DecidableEq

/-- What every rank does with the same data. py/qsonic/scripts/qsonic_calib.py:206-260. -/
inductive CalibGlob where
  /-- 211-214 -/
  | fitter
  /-- 127-146; raises `QsonicException` without BAL columns -/
  | remove
  /-- 236-238; raises `QsonicException` if many fits fail -/
  | fit
  deriving DecidableEq

/-- What the stages do. py/qsonic/scripts/qsonic_calib.py:206-260. -/
structure CalibFns (S U : Type) where
  s0 : Nat → S
  loc : CalibLoc → Nat → CalibOpts → List U → S → Except Err S
  file : CalibFile → Nat → CalibOpts → Except Err U
  value : CalibVal → Nat → CalibOpts → S → Except Err U
  combine : List U → U
  glob : CalibGlob → CalibOpts → List U → Except Err U

namespace CalibFns

variable {S U V W : Type} (F : CalibFns S U) (cf : Codec (Option U) V) (cv : Codec U V) (called : W) (o : CalibOpts)
  (rank : Nat)

/-- A file read with `mpi_fnc_bcast`, only with the option. py/qsonic/scripts/qsonic_calib.py:88-145. -/
def optFile (opt : Bool) (f : CalibFile) : Prog V W (List U) :=
  if opt then (mpiFncBcast cf called (F.file f rank o) true rank).bind fun u => .ret [u] else .ret []

/-- `comm.Allreduce`. py/qsonic/scripts/qsonic_calib.py:193-195. -/
def allred (st : CalibVal) (s : S) : Prog V W U :=
  (ofExcept (F.value st rank o s)).bind fun u =>
  .allreduce (fun l => cv.enc (F.combine (l.map cv.dec))) (cv.enc u) fun v => .ret (cv.dec v)

/-- py/qsonic/scripts/qsonic_calib.py:206-263 `mpi_run_all` after the options are parsed. -/
def runOpts : Prog V W Unit :=
  (ofExcept (F.loc .makedirs rank o [] (F.s0 rank))).bind fun s =>
  (ofExcept (F.glob .fitter o [])).bind fun _ =>
  (F.optFile cf called o rank o.removeList .targetids).bind fun ids =>
  (F.optFile cf called o rank o.catalog .catalog).bind fun cat =>
  (ofExcept (F.glob .remove o (ids ++ cat))).bind fun remove =>
  (F.optFile cf called o rank true .deltas).bind fun files =>
  (ofExcept (F.loc .read rank o (remove :: files) s)).bind fun s =>
  (F.allred cv o rank .variance s).bind fun q =>
  (ofExcept (F.glob .fit o [q])).bind fun fit =>
  (ofExcept (F.loc .writeVar rank o [fit] s)).bind fun s =>
  (F.allred cv o rank .stack s).bind fun flux =>
  (F.allred cv o rank .weights s).bind fun weights =>
  (ofExcept (F.loc .writeStack rank o [flux, weights] s)).bind fun _ => .ret ()

/-- py/qsonic/scripts/qsonic_calib.py:206-263 `mpi_run_all`; there is no `args_logic_fnc`. -/
def runAll (co : Codec (Option CalibOpts) V) (parse : Except Err CalibOpts) : Prog V W Unit :=
  (mpiParse co parse (fun o => .ok (true, o)) rank).bind fun o => F.runOpts cf cv called o rank

end CalibFns

end Verif.Model
