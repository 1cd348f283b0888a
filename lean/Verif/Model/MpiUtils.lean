import Verif.Np.Argmin
import Mathlib.Data.List.Sort

/-!
# Model of `py/qsonic/mpi_utils.py`: load balancing

The collectives of this module are in `Verif/Model/Mpi.lean`.
-/

namespace Verif.Model
open Verif.Np

variable {α : Type}

/-- py/qsonic/mpi_utils.py:127 `split_catalog.sort(key=lambda x: x.size, reverse=True)`.
Python's sort is stable and `reverse=True` keeps the order of equal keys, which is what
insertion sort with `≥` does. -/
def sortBySizeDesc (split : List (List α)) : List (List α) :=
  split.insertionSort (fun a b => b.length ≤ a.length)

/-- py/qsonic/mpi_utils.py:128-131, the loop body. The state is
`(number_of_spectra, local_queues)`. -/
def balanceStep (st : List Nat × List (List (List α))) (cat : List α) :
    Except Err (List Nat × List (List (List α))) :=
  match argmin st.1 with
  | .error e => .error e
  | .ok i => .ok (st.1.modify i (· + cat.length), st.2.modify i (· ++ [cat]))

/-- The loop of py/qsonic/mpi_utils.py:128-131. -/
def balanceLoop : List (List α) → List Nat × List (List (List α)) →
    Except Err (List Nat × List (List (List α)))
  | [], st => .ok st
  | cat :: cats, st =>
    match balanceStep st cat with
    | .error e => .error e
    | .ok st' => balanceLoop cats st'

/-- py/qsonic/mpi_utils.py:110-133 `balance_load`. A chunk (a numpy record array) is the
list of its rows and `x.size` its length. -/
def balanceLoad (split : List (List α)) (mpiSize : Nat) :
    Except Err (List (List (List α))) :=
  match balanceLoop (sortBySizeDesc split)
      (List.replicate mpiSize 0, List.replicate mpiSize []) with
  | .error e => .error e
  | .ok st => .ok st.2

end Verif.Model
