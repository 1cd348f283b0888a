import Mathlib.Data.List.Basic

/-!
# Python dictionaries with string keys

A dictionary is the list of its items in insertion order.
-/

namespace Verif.Np

/-- `d[key] = v` for a dictionary with insertion order. py/qsonic/spectrum.py:291-295. -/
def dictSet {α β : Type} [DecidableEq α] (d : List (α × β)) (k : α) (v : β) : List (α × β) :=
  if k ∈ d.map Prod.fst then d.map (fun x => if x.1 = k then (k, v) else x) else d ++ [(k, v)]

/-- A dictionary from arm names. py/qsonic/spectrum.py:205-218. -/
abbrev Dict (α : Type) := List (String × α)

namespace Dict

variable {α β : Type}

/-- `d.keys()`. py/qsonic/spectrum.py:118. -/
def keys (d : Dict α) : List String := List.map Prod.fst d

/-- `d[key] = v`. py/qsonic/spectrum.py:291-295. -/
def set (d : Dict α) (k : String) (v : α) : Dict α := dictSet d k v

/-- `d.pop(key, None)`. py/qsonic/spectrum.py:344-350. -/
def pop (d : Dict α) (k : String) : Dict α := List.filter (fun x => decide (x.1 ≠ k)) d

/-- `{k: f(k, v) for k, v in d.items()}`, also a loop that replaces or changes in place every
value. py/qsonic/spectrum.py:491-497. -/
def mapVals (f : String → α → β) (d : Dict α) : Dict β := List.map (fun x => (x.1, f x.1 x.2)) d

/-- `d[key]` for an array valued dictionary. Simplification: a missing key is the empty array (in
the code a `KeyError`); that the keys are there is part of the invariants proved. py/qsonic/spectrum.py:491-497. -/
def arr (d : Dict (List α)) (k : String) : List α := (List.lookup k d).getD []

end Dict
end Verif.Np
