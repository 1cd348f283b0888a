import Verif.Np.Err

/-!
# `np.argmin` on an integer array
-/

namespace Verif.Np

/-- Index of the first smallest element, scanning with a current best. py/qsonic/mpi_utils.py:129. -/
def argminGo : List Nat → (idx best bestIdx : Nat) → Nat
  | [], _, _, bi => bi
  | x :: xs, i, b, bi => if x < b then argminGo xs (i + 1) x i else argminGo xs (i + 1) b bi

/-- `np.argmin`: first index of the minimum; an empty array raises `ValueError`. py/qsonic/mpi_utils.py:129. -/
def argmin : List Nat → Except Err Nat
  | [] => .error .valueError
  | x :: xs => .ok (argminGo xs 1 x 0)

theorem argminGo_spec (l pre : List Nat) (b bi : Nat)
    (hbi : bi < pre.length) (hb : pre[bi]'hbi = b) (hmin : ∀ x ∈ pre, b ≤ x) :
    ∃ h : argminGo l pre.length b bi < (pre ++ l).length,
      ∀ x ∈ pre ++ l, (pre ++ l)[argminGo l pre.length b bi]'h ≤ x := by
  induction l generalizing pre b bi with
  | nil =>
    refine ⟨by simpa [argminGo] using hbi, ?_⟩
    intro x hx
    simp only [List.append_nil] at hx
    simpa [argminGo, hb] using hmin x hx
  | cons y ys ih =>
    have e : pre ++ y :: ys = (pre ++ [y]) ++ ys := by simp
    have hl : (pre ++ [y]).length = pre.length + 1 := by simp
    unfold argminGo
    split
    · rename_i hlt
      have := ih (pre ++ [y]) y pre.length (by simp) (by simp) (by
        intro x hx
        rcases List.mem_append.mp hx with h | h
        · exact Nat.le_of_lt (Nat.lt_of_lt_of_le hlt (hmin x h))
        · simp at h; omega)
      simpa only [hl, ← e] using this
    · rename_i hge
      have := ih (pre ++ [y]) b bi (by simp; omega)
        (by rw [List.getElem_append_left hbi]; exact hb) (by
        intro x hx
        rcases List.mem_append.mp hx with h | h
        · exact hmin x h
        · simp at h; omega)
      simpa only [hl, ← e] using this

/-- `np.argmin` of a non-empty array is a valid index of a smallest element. -/
theorem argmin_spec {l : List Nat} (hl : l ≠ []) :
    ∃ i, argmin l = .ok i ∧ ∃ h : i < l.length, ∀ x ∈ l, l[i] ≤ x := by
  cases l with
  | nil => exact absurd rfl hl
  | cons x xs =>
    refine ⟨_, rfl, ?_⟩
    have := argminGo_spec xs [x] x 0 (by simp) (by simp) (by simp)
    simpa using this

end Verif.Np
