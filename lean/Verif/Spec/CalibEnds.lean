import Verif.Spec.CalibWhole

/-!
# What ends a run of `qsonic-calib`
-/

namespace Verif.Spec
open Verif Verif.Model

variable {K : Type} [Field K] [LinearOrder K]

/-- The files of a rank: of every `k` consecutive files, with `k` the number of files per rank (rounded down, at least one),
the first `k` for the root, the next for rank 1 and so on. -/
def fileShare {α : Type} (files : List α) (size rank : Nat) : List α :=
  ((files.zipIdx).filter (fun p => decide (p.2 / max 1 (files.length / size) = rank))).map Prod.fst

/-- The root can read the list of targets and the catalog if they are given, and finds the names of the delta files; the
catalog has the columns of BALs if these are to be removed. -/
structure RootReads (C : CalibCfg K) (inp : CalibIn K) (ids : List Int) (rows : Option (List (CalRow K)))
    (files : List String) : Prop where
  ids : if C.removeList then inp.ids = .ok ids else ids = []
  cat : if C.catalog then ∃ l, inp.cat = .ok l ∧ rows = some l else rows = none
  bal : C.catalog = true → C.removeBal = true → "VMIN_CIV_450" ∈ C.cols ∧ "VMAX_CIV_450" ∈ C.cols ∧
    "VMIN_CIV_2000" ∈ C.cols ∧ "VMAX_CIV_2000" ∈ C.cols
  glob : inp.glob = .ok files

/-- The deltas of a rank that are to be used, if `data` is what it reads from the files. -/
noncomputable def usedBy (C : CalibCfg K) (ids : List Int) (rows : Option (List (CalRow K))) (files : List String)
    (data : String → List (CalDelta K)) (size rank : Nat) : List (CalDelta K) :=
  calUsed C ids rows ((fileShare files size rank).flatMap data)

end Verif.Spec
