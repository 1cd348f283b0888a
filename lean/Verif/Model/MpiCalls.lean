import Verif.Model.Mpi
import Verif.Model.MpiUtils

/-!
# Model of `py/qsonic/mpi_utils.py`: functions with collectives
-/

namespace Verif.Model
open Prog

variable {V W : Type}

/-- py/qsonic/mpi_utils.py:13-45 `mpi_parse`. `parse` is the outcome of
`parser.parse_args(options)` on the root (argparse raises `SystemExit` on bad options and on
`--help`), `logic` the outcome of `args_logic_fnc`, which may modify the arguments.
`none` stands for the value `-1` that marks a failure. -/
def mpiParse {Args : Type} (c : Codec (Option Args) V) (parse : Except Err Args)
    (logic : Args → Except Err (Bool × Args)) (rank : Nat) : Prog V W Args :=
  let after (args : Option Args) : Prog V W Args :=          -- lines 41-45
    .bcast (c.enc args) fun v => orRaise (.systemExit 0) (c.dec v)
  if rank = 0 then                                           -- lines 31-37
    match parse with
    | .error (.systemExit _) => after none
    | .error e => .raise e
    | .ok a =>
      match logic a with
      | .error (.systemExit _) => after none
      | .error e => .raise e
      | .ok (ok, a') => if ok then after (some a') else after none
  else after none                                            -- lines 38-39

/-- py/qsonic/mpi_utils.py:52-107 `mpi_fnc_bcast`. `fnc` is the outcome of calling the
function on this rank, `called` the event of calling it, `comm = false` is `comm=None`.
`none` stands for the sentinel class `_INVALID_VALUE` (line 48), which pickles by reference so
that `is` works after `bcast`. -/
def mpiFncBcast {β : Type} (c : Codec (Option β) V) (called : W) (fnc : Except Err β)
    (comm : Bool) (rank : Nat) : Prog V W β :=
  let after (result : Option β) : Prog V W β :=              -- lines 101-107
    if comm then .bcast (c.enc result) (fun v => orRaise .qsonic (c.dec v))
    else orRaise .qsonic result
  if rank = 0 ∨ comm = false then                            -- lines 93-99
    .emit called <|
      match fnc with
      | .ok x => after (some x)
      | .error e => if e.isException then after none else .raise e
  else after none

/-- py/qsonic/mpi_utils.py:136-173 `MPISaver`: the open FITS file, if any. -/
structure Saver where
  fts : Option String
  deriving DecidableEq, Repr

/-- Observable file events of a saver. `D` is the type of what is written. py/qsonic/mpi_utils.py:147-173. -/
inductive SaverEv (D : Type)
  | create (fname : String)
  | write (fname : String) (data : D)
  | close (fname : String)
  deriving DecidableEq, Repr

variable {D : Type}

/-- py/qsonic/mpi_utils.py:147-151 `MPISaver.__init__`. -/
def Saver.init (fname : String) (rank : Nat) : List (SaverEv D) × Saver :=
  if rank = 0 ∧ fname ≠ "" then ([.create fname], ⟨some fname⟩) else ([], ⟨none⟩)

/-- py/qsonic/mpi_utils.py:158-173 `MPISaver.write`. -/
def Saver.write (s : Saver) (d : D) : List (SaverEv D) :=
  match s.fts with
  | some f => [.write f d]
  | none => []

/-- py/qsonic/mpi_utils.py:153-156 `MPISaver.close`. -/
def Saver.close (s : Saver) : List (SaverEv D) :=
  match s.fts with
  | some f => [.close f]
  | none => []

/-- A life of a saver: opened, written to, closed. py/qsonic/mpi_utils.py:147-173. -/
def Saver.session (fname : String) (rank : Nat) (ds : List D) : List (SaverEv D) :=
  let (ev, s) := Saver.init (D := D) fname rank
  ev ++ ds.flatMap s.write ++ s.close

end Verif.Model
