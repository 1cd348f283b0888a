import Verif.Np.Unique
import Verif.Spec.Spectrum

/-! Slices between `searchsorted` positions. -/

namespace Verif.Proofs
open Verif.Np Verif.Model Verif.Spec List

variable {K α : Type}

@[simp] theorem slice_nil (i j : Nat) : slice ([] : List α) i j = [] := by simp [slice]

theorem slice_cons_zero (a : α) (l : List α) (j : Nat) :
    slice (a :: l) 0 (j + 1) = a :: slice l 0 j := by simp [slice]

theorem slice_zero_zero (l : List α) (i : Nat) : slice l i 0 = [] := by simp [slice]

theorem slice_cons_succ (a : α) (l : List α) (i j : Nat) :
    slice (a :: l) (i + 1) (j + 1) = slice l i j := by simp [slice]

theorem slice_of_length_le (l : List α) {j : Nat} (h : l.length ≤ j) : slice l 0 j = l := by
  simp [slice, List.take_of_length_le h]

section
variable [LinearOrder K]

@[simp] theorem searchsorted_nil (x : K) : searchsorted [] x = 0 := rfl

theorem searchsorted_cons (w : K) (ws : List K) (x : K) :
    searchsorted (w :: ws) x = if x ≤ w then 0 else searchsorted ws x + 1 := by
  unfold searchsorted
  rw [List.findIdx_cons]
  by_cases h : x ≤ w <;> simp [h]

theorem searchsorted_le (l : List K) (x : K) : searchsorted l x ≤ l.length := List.findIdx_le_length

/-- The first position on sorted arrays: everything before is smaller, everything from there on is
not. -/
theorem lt_searchsorted_iff {l : List K} (h : l.Pairwise (· < ·)) {x : K} {i : Nat} {y : K}
    (hy : l[i]? = some y) : i < searchsorted l x ↔ y < x := by
  induction l generalizing i with
  | nil => simp at hy
  | cons w ws ih =>
    rw [searchsorted_cons]
    rw [List.pairwise_cons] at h
    cases i with
    | zero =>
      simp at hy
      subst hy
      split
      next hx => simp [hx]
      next hx => simp; exact not_le.mp hx
    | succ i =>
      simp at hy
      have := ih h.2 hy
      split
      next hx =>
        have h3 : w < y := h.1 y (List.mem_of_getElem? hy)
        have : ¬ y < x := not_lt.mpr (le_of_lt (lt_of_le_of_lt hx h3))
        simp [this]
      next hx => rw [← this]; omega
end

section
variable [Field K] [LinearOrder K]

theorem pixelsWhere_nil (p : K → Prop) [DecidablePred p] (y : List α) :
    pixelsWhere p [] y = [] := rfl

theorem pixelsWhere_cons (p : K → Prop) [DecidablePred p] (w : K) (ws : List K) (a : α)
    (y : List α) :
    pixelsWhere p (w :: ws) (a :: y) =
      if p w then a :: pixelsWhere p ws y else pixelsWhere p ws y := by
  unfold pixelsWhere
  rw [List.zip_cons_cons, List.filter_cons]
  by_cases h : p w <;> simp [h]

theorem pixelsWhere_congr {p q : K → Prop} [DecidablePred p] [DecidablePred q] {wave : List K}
    (h : ∀ w ∈ wave, p w ↔ q w) (y : List α) : pixelsWhere p wave y = pixelsWhere q wave y := by
  unfold pixelsWhere
  congr 1
  refine List.filter_congr fun x hx => ?_
  have : x.1 ∈ wave := (List.of_mem_zip hx).1
  simp [h x.1 this]

theorem pixelsWhere_eq_nil {p : K → Prop} [DecidablePred p] {wave : List K}
    (h : ∀ w ∈ wave, ¬ p w) (y : List α) : pixelsWhere p wave y = [] := by
  unfold pixelsWhere
  rw [List.map_eq_nil_iff, List.filter_eq_nil_iff]
  intro x hx
  simpa using h x.1 (List.of_mem_zip hx).1

/-- The slice between two `searchsorted` positions is the selection by wavelength. -/
theorem slice_searchsorted {wave : List K} (h : wave.Pairwise (· < ·)) (l1 l2 : K) {y : List α}
    (hy : y.length = wave.length) :
    slice y (searchsorted wave l1) (searchsorted wave l2) =
      pixelsWhere (fun w => l1 ≤ w ∧ w < l2) wave y := by
  induction wave generalizing y with
  | nil => simp at hy; simp [hy, pixelsWhere_nil]
  | cons w ws ih =>
    obtain ⟨a, y', rfl⟩ : ∃ a y', y = a :: y' := by
      cases y with
      | nil => simp at hy
      | cons a y' => exact ⟨a, y', rfl⟩
    have hy' : y'.length = ws.length := by simpa using hy
    rw [List.pairwise_cons] at h
    have IH := ih h.2 hy'
    rw [searchsorted_cons, searchsorted_cons, pixelsWhere_cons]
    by_cases h2 : l2 ≤ w
    · rw [if_pos h2, slice_zero_zero, if_neg (fun hh => absurd h2 (not_le.mpr hh.2))]
      rw [pixelsWhere_eq_nil]
      intro x hx hh
      exact absurd (lt_of_le_of_lt h2 (h.1 x hx)) (not_lt.mpr hh.2.le)
    · rw [if_neg h2]
      by_cases h1 : l1 ≤ w
      · rw [if_pos h1, slice_cons_zero, if_pos ⟨h1, not_le.mp h2⟩, ← IH]
        have : searchsorted ws l1 = 0 := by
          cases ws with
          | nil => rfl
          | cons v vs =>
            rw [searchsorted_cons, if_pos]
            exact le_trans h1 (h.1 v (by simp)).le
        rw [this]
      · rw [if_neg h1, slice_cons_succ, if_neg (fun hh => h1 hh.1), IH]

theorem pixelsWhere_self (p : K → Prop) [DecidablePred p] (wave : List K) :
    pixelsWhere p wave wave = wave.filter (fun w => decide (p w)) := by
  induction wave with
  | nil => rfl
  | cons w ws ih =>
    rw [pixelsWhere_cons, ih, List.filter_cons]
    by_cases h : p w <;> simp [h]

theorem length_pixelsWhere (p : K → Prop) [DecidablePred p] {wave : List K} {y : List α}
    (h : y.length = wave.length) :
    (pixelsWhere p wave y).length = wave.countP (fun w => decide (p w)) := by
  induction wave generalizing y with
  | nil => simp [pixelsWhere_nil]
  | cons w ws ih =>
    cases y with
    | nil => simp at h
    | cons a y =>
      rw [pixelsWhere_cons, List.countP_cons]
      have := ih (y := y) (by simpa using h)
      by_cases h : p w <;> simp [h, this]

theorem numGood_eq_zero {ivar : List K} : numGood ivar = 0 ↔ ¬ HasGood ivar := by
  unfold numGood HasGood
  rw [List.countP_eq_zero]
  simp

theorem numGood_pos {ivar : List K} : 0 < numGood ivar ↔ HasGood ivar := by
  rw [Nat.pos_iff_ne_zero, ne_eq, numGood_eq_zero, not_not]

end

end Verif.Proofs
