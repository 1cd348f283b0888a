import Verif.Model.Delta

/-!
# Specification of the coadd of delta files
-/

namespace Verif.Spec
open Verif.Np Verif.Model

/-- The deltas of a list coadded one after the other to the first. -/
def coaddAll {D : Type} (coadd : D → D → Except Err D) : List D → Except Err D
  | [] => .error .exception
  | x :: l => l.foldlM coadd x

/-- The deltas of a target, in order. -/
def ofTarget {K : Type} [DecidableEq K] (t : HVal K) (l : List (Delta K)) : List (Delta K) :=
  l.filter (fun d => decide (d.targetid = t))

/-- All pairs of a file name and an HDU in the file. -/
def contents {H : Type} (files : List (String × List H)) : List (String × H) :=
  files.flatMap (fun f => f.2.map (fun h => (f.1, h)))

end Verif.Spec
