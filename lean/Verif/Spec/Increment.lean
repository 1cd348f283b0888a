import Verif.Spec.CoaddDeltas
import Verif.Spec.Delta
import Verif.Model.DeltaIo

/-!
# Specification vocabulary for coadding in steps
-/

namespace Verif.Spec
open Verif.Np Verif.Model

/-- The delta files of a disk: the names that `glob` finds in a directory, and the tables of a file (`none`: it cannot be
opened). -/
structure Disk (K : Type) where
  glob : String → List String
  tables : String → Option (List (Hdu K))

/-- On the second disk the directory `dir` has the given files and no others, whatever order `glob` finds them in, and the
directories `others` are as on the first disk. -/
structure NewDir {K : Type} (D E : Disk K) (dir : String) (files : List (String × List (Hdu K)))
    (others : List String) : Prop where
  names : (E.glob dir).Perm (files.map Prod.fst)
  tables : ∀ f ∈ files, E.tables f.1 = some f.2
  same : ∀ d ∈ others, E.glob d = D.glob d ∧ ∀ f ∈ D.glob d, E.tables f = D.tables f

/-- All deltas of some directories, in the order of `glob`; every file can be read. -/
def DirDeltas {K : Type} [Field K] [LinearOrder K] (pick : List String → Option String) (pow10 : K → K) (D : Disk K)
    (dirs : List String) (l : List (Delta K)) : Prop :=
  ∃ data : String → List (Delta K), (∀ f ∈ dirs.flatMap D.glob, readDeltas pick pow10 (D.tables f) = .ok (data f)) ∧
    l = (dirs.flatMap D.glob).flatMap data

end Verif.Spec
