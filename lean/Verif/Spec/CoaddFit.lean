import Verif.Model.Pipeline
import Verif.Spec.CoaddDeltas
import Verif.Spec.Delta
import Verif.Spec.WrittenRun

/-!
# Specification vocabulary for `qsonic-coadd-deltas` after `qsonic-fit`
-/

namespace Verif.Spec
open Verif.Np Verif.Model

variable {Val K : Type} [Field K] [LinearOrder K]

/-- What `glob` and `read_deltas` give in a directory `dir` with these files: their names in any order, with the directory,
and what is read of each. -/
def DirHas (pick : List String → Option String) (pow10 : K → K) (glob : String → List String)
    (read : String → Except Err (List (Delta K))) (dir : String) (files : Dict (List (Hdu K))) : Prop :=
  ∃ names : List String, names.Perm files.keys ∧ glob dir = names.map (fun k => dir ++ "/" ++ k) ∧
    ∀ k ∈ names, read (dir ++ "/" ++ k) = readDeltas pick pow10 (files.lookup k)

/-- The resolution of an arm with `n` pixels: without resolution in all runs (`none`), or a matrix with columns of `n` pixels and an
odd or even number of diagonals as in all runs. -/
def ArmReso (parity : Option Nat) (n : Nat) (reso : Option (List (List K))) : Prop :=
  match parity with
  | none => reso = none
  | some p => ∃ rows, reso = some rows ∧ (∀ r ∈ rows, r.length = n) ∧ rows.length % 2 = p

/-- An arm that can be coadded: pixels on the grid `w0`, `w0 + dwave`, … up to a twentieth of the spacing, weights that are not
negative and not more than ivar, and resolution as in all arms or in none. -/
structure ArmOk (w0 dwave : K) (parity : Option Nat) (x : ReadSpec K) (a : String × List K) : Prop where
  nonempty : a.2 ≠ []
  grid : ∃ j, OnGridFrom w0 dwave j a.2
  weight : ∀ (i : Nat) (v w : K), (x.spec.fivar.arr a.1)[i]? = some v → (x.spec.fweight.arr a.1)[i]? = some w →
    0 ≤ w ∧ w ≤ v
  reso : ArmReso parity a.2.length (x.spec.freso.lookup a.1)

end Verif.Spec
