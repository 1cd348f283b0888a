import Verif.Model.VarLss

/-!
# The life of the `VarLSSFitter` objects of a run
-/

namespace Verif.Spec
open Verif Verif.Model

variable {K : Type} [Field K] [LinearOrder K] [FloorRing K] {n : Nat} {c : VarCfg K}

/-- A call of a method. `add` and `reset` act on one rank (the others are unaffected), statistics are calculated by all
ranks together. -/
inductive VarCall (K : Type)
  | add (rank : Nat) (spectrum : List (VPix K))
  | reset (rank : Nat)
  | calculate (useCov : Bool)

/-- The objects of the ranks after the call; exceptions are caught. -/
def VarCall.run (eps : K) (ranks : List (VarLss K n c)) : VarCall K → List (VarLss K n c)
  | .add r l => ranks.modify r (fun s => (s.add l).1)
  | .reset r => ranks.modify r (fun s => s.reset)
  | .calculate u => (VarLss.calculate eps u ranks).map Prod.fst

/-- The objects after any calls, beginning with new objects. -/
def varLife (c : VarCfg K) (h : 0 < n) (size : Nat) (eps : K) (calls : List (VarCall K)) : List (VarLss K n c) :=
  calls.foldl (VarCall.run eps) ((List.range size).map (fun r => VarLss.new c h r size))

end Verif.Spec
