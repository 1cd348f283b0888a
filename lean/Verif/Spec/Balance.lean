/-!
# Specification vocabulary for load balancing
-/

namespace Verif.Spec

/-- Number of quasars (rows) in a queue of chunks. -/
def queueLoad {α : Type} (q : List (List α)) : Nat := (q.map List.length).sum

end Verif.Spec
