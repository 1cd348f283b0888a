import Mathlib.Order.Defs.LinearOrder

/-!
# Specification: grouping of rows by a key
-/

namespace Verif.Spec

/-- `pieces` is the grouping of `l` by `key`: together they are `l`, no piece is empty, each
piece has one key, and different pieces have different (increasing) keys. -/
structure IsGrouping {α κ : Type} [LinearOrder κ] (key : α → κ) (l : List α)
    (pieces : List (List α)) : Prop where
  flatten : pieces.flatten = l
  nonempty : ∀ p ∈ pieces, p ≠ []
  homogeneous : ∀ p ∈ pieces, ∀ x ∈ p, ∀ y ∈ p, key x = key y
  distinct : pieces.Pairwise (fun p q => ∀ x ∈ p, ∀ y ∈ q, key x < key y)

end Verif.Spec
