import Verif.Model.ReadImage
import Verif.Spec.ReadImage
import Verif.Proofs.Readers

/-! Copying rows of an image into a new array. -/

namespace Verif.Proofs
open Verif.Np Verif.Model Verif.Spec List

variable {α ρ σ Val : Type}

theorem except_ok_bind {ε β γ : Type} {x : Except ε β} {f : β → Except ε γ} {c : γ}
    (h : x >>= f = .ok c) : ∃ b, x = .ok b ∧ f b = .ok c := by
  cases x with
  | error e => cases h
  | ok b => exact ⟨b, rfl, h⟩

theorem getIdx_ok {l : List ρ} {i : Nat} {x : ρ} : getIdx l i = .ok x ↔ l[i]? = some x := by
  unfold getIdx
  cases h : l[i]? with
  | none => simp
  | some y => simp

/-- The loop leaves what is before `k` alone and writes one element per index. -/
theorem fillRows_ok {assign : ρ → Except Err σ} {image : List ρ} {J : List Nat} {k : Nat}
    {data out : List σ} (hl : data.length = k + J.length)
    (h : fillRows assign image J k data = .ok out) :
    out.length = data.length ∧ (∀ j < k, out[j]? = data[j]?) ∧
    ∀ j i, J[j]? = some i → ∃ row o, image[i]? = some row ∧ out[k + j]? = some o ∧
      assign row = .ok o := by
  induction J generalizing k data with
  | nil =>
    simp only [fillRows, Except.ok.injEq] at h
    subst h
    exact ⟨rfl, fun _ _ => rfl, fun j i hj => by simp at hj⟩
  | cons i is ih =>
    unfold fillRows at h
    obtain ⟨row, hrow, h⟩ := except_ok_bind h
    obtain ⟨r, hr, h⟩ := except_ok_bind h
    simp only [List.length_cons] at hl
    obtain ⟨h1, h2, h3⟩ := ih (k := k + 1) (data := data.set k r)
      (by rw [List.length_set]; omega) h
    refine ⟨by rw [h1, List.length_set], ?_, ?_⟩
    · intro j hj
      rw [h2 j (by omega), List.getElem?_set_ne (by omega)]
    · intro j i' hj
      cases j with
      | zero =>
        simp only [List.getElem?_cons_zero, Option.some.injEq] at hj
        subst hj
        refine ⟨row, r, getIdx_ok.mp hrow, ?_, hr⟩
        rw [Nat.add_zero, h2 k (by omega), List.getElem?_set_self (by omega)]
      | succ j =>
        simp only [List.getElem?_cons_succ] at hj
        obtain ⟨row', o, a, b, c⟩ := h3 j i' hj
        exact ⟨row', o, a, by rw [← b]; congr 1; omega, c⟩

theorem fillRows_rows {assign : ρ → Except Err σ} {image : List ρ} {J : List Nat}
    {x : σ} {out : List σ}
    (h : fillRows assign image J 0 (replicate J.length x) = .ok out) :
    RowsAre (fun row o => assign row = .ok o) J image out := by
  obtain ⟨h1, -, h3⟩ := fillRows_ok (by simp) h
  refine ⟨by simpa using h1, ?_⟩
  intro k i hk
  obtain ⟨row, o, a, b, c⟩ := h3 k i hk
  exact ⟨row, o, a, by simpa using b, c⟩

/-- If every row can be assigned, the loop is the choice of rows. -/
theorem fillRows_eq {assign : ρ → Except Err σ} {g : ρ → σ} {image : List ρ}
    (hg : ∀ row ∈ image, assign row = .ok (g row)) (J : List Nat) (k : Nat) (data : List σ)
    (hl : data.length = k + J.length) :
    fillRows assign image J k data = (fancy image J).map (fun o => data.take k ++ o.map g) := by
  induction J generalizing k data with
  | nil =>
    have : data.take k = data := List.take_of_length_le (by simp at hl; omega)
    simp [fillRows, fancy, Except.map, this]
  | cons i is ih =>
    simp only [List.length_cons] at hl
    unfold fillRows fancy getIdx
    cases hi : image[i]? with
    | none => rfl
    | some row =>
      have hr := hg row (List.mem_of_getElem? hi)
      simp only [except_bind_ok, hr]
      rw [ih (k + 1) (data.set k (g row)) (by rw [List.length_set]; omega)]
      have ht : (data.set k (g row)).take (k + 1) = data.take k ++ [g row] := by
        rw [List.take_succ, List.getElem?_set_self (by omega), List.take_set_of_le (le_refl k)]
        rfl
      cases fancy image is with
      | error e => rfl
      | ok xs =>
        simp only [Except.map, ht]
        simp

theorem assignRow_width {n : Nat} {row : List α} (h : row.length = n) :
    assignRow n row = .ok (row.map some) := by
  unfold assignRow
  rw [if_pos h]

theorem assignRow_copy {n : Nat} {row : List α} {o : List (Option α)}
    (h : assignRow n row = .ok o) : CopyOf n row o := by
  unfold assignRow at h
  split at h
  · rename_i hn
    exact Or.inl ⟨hn, (Except.ok.inj h).symm⟩
  · split at h
    · rename_i x _
      exact Or.inr ⟨_, rfl, (Except.ok.inj h).symm⟩
    · cases h

theorem assignMat_width {nd n : Nat} {m : List (List α)} (h : m.length = nd)
    (hw : Width n m) : assignMat nd n m = .ok (m.map (·.map some)) := by
  unfold assignMat
  have : m.mapM (assignRow n) = .ok (m.map (·.map some)) :=
    mapM_eq_ok (fun row hr => assignRow_width (hw row hr))
  rw [this]
  simp [h]

end Verif.Proofs
