import Verif.Model.Io
import Verif.Proofs.Split
import Verif.Proofs.ExceptList
import Mathlib.Data.List.Perm.Basic
import Mathlib.Tactic.Tauto

/-! Lemmas about index arrays and the readers. -/

namespace Verif.Proofs
open Verif.Np Verif.Model List

variable {α κ : Type} [LinearOrder κ]

theorem fancy_ok_iff {l out : List α} {idx : List Nat} :
    fancy l idx = .ok out ↔ idx.map (fun i => l[i]?) = out.map some := by
  induction idx generalizing out with
  | nil =>
    cases out with
    | nil => simp [fancy]
    | cons => simp [fancy]
  | cons i is ih =>
    unfold fancy
    cases hi : l[i]? with
    | none => cases out <;> simp [hi]
    | some x =>
      cases hf : fancy l is with
      | error e =>
        simp only [reduceCtorEq, false_iff]
        cases out with
        | nil => simp
        | cons y ys =>
          simp only [map_cons, cons.injEq, not_and]
          intro _ h
          rw [ih.mpr h] at hf; simp at hf
      | ok xs =>
        have := ih.mp hf
        cases out with
        | nil => simp
        | cons y ys =>
          simp only [Except.ok.injEq, cons.injEq, map_cons, hi, Option.some.injEq, this]
          constructor
          · rintro ⟨rfl, rfl⟩; simp
          · rintro ⟨h1, h2⟩
            exact ⟨h1, List.map_injective_iff.mpr (Option.some_injective _) h2⟩

theorem fancy_of_lt {l : List α} {idx : List Nat} (h : ∀ i ∈ idx, i < l.length) :
    ∃ out, fancy l idx = .ok out := by
  induction idx with
  | nil => exact ⟨[], rfl⟩
  | cons i is ih =>
    obtain ⟨out, ho⟩ := ih (fun j hj => h j (by simp [hj]))
    have hi := h i (by simp)
    exact ⟨l[i] :: out, by simp [fancy, ho, hi]⟩

theorem fancy_length {l out : List α} {idx : List Nat} (h : fancy l idx = .ok out) :
    out.length = idx.length := by
  have := congrArg List.length (fancy_ok_iff.mp h)
  simpa using this.symm

theorem fancy_getElem? {l out : List α} {idx : List Nat} (h : fancy l idx = .ok out) {k i : Nat}
    (hk : idx[k]? = some i) : out[k]? = l[i]? := by
  have := congrArg (fun x => x[k]?) (fancy_ok_iff.mp h)
  simp only [getElem?_map, hk, Option.map_some] at this
  cases ho : out[k]? with
  | none => rw [ho] at this; simp at this
  | some y => rw [ho] at this; simp at this; simp [this]

theorem mem_isinIdx {l test : List κ} {i : Nat} :
    i ∈ isinIdx l test ↔ ∃ x, l[i]? = some x ∧ x ∈ test := by
  unfold isinIdx
  simp only [mem_filter, mem_range, decide_eq_true_eq, and_iff_right_iff_imp]
  rintro ⟨x, hx, -⟩
  exact (List.getElem?_eq_some_iff.mp hx).1

theorem isinIdx_nodup (l test : List κ) : (isinIdx l test).Nodup :=
  List.nodup_range.filter _

/-- The indices after sorting by target. -/
theorem idxFbr_spec {argsort : List κ → List Nat} (hA : ∀ k, IsArgsort k (argsort k))
    (ids test : List κ) :
    ∃ F J, fancy ids (isinIdx ids test) = .ok F ∧ fancy (isinIdx ids test) (argsort F) = .ok J ∧
      J ~ isinIdx ids test ∧
      J.Pairwise (fun i j => ∀ x y, ids[i]? = some x → ids[j]? = some y → x ≤ y) := by
  obtain ⟨F, hF⟩ := fancy_of_lt (l := ids) (idx := isinIdx ids test) (by
    intro i hi
    obtain ⟨x, hx, -⟩ := mem_isinIdx.mp hi
    exact (List.getElem?_eq_some_iff.mp hx).1)
  have hlen := fancy_length hF
  have hp := (hA F).perm
  obtain ⟨J, hJ⟩ := fancy_of_lt (l := isinIdx ids test) (idx := argsort F) (by
    intro i hi
    have := hp.mem_iff.mp hi
    simp only [mem_range] at this
    omega)
  refine ⟨F, J, hF, hJ, ?_, ?_⟩
  · have h1 := fancy_ok_iff.mp hJ
    have h2 : (argsort F).map (fun i => (isinIdx ids test)[i]?) ~
        (isinIdx ids test).map some := by
      refine (hp.map _).trans ?_
      rw [hlen]
      refine List.Perm.of_eq (List.ext_getElem? fun k => ?_)
      by_cases hk : k < (isinIdx ids test).length
      · simp [hk]
      · simp [hk]
    rw [h1] at h2
    exact (List.map_perm_map_iff (Option.some_injective _)).mp h2
  · have hs := (hA F).sorted
    have h1 := fancy_ok_iff.mp hJ
    have h2 : ((argsort F).map (fun i => (isinIdx ids test)[i]?)).Pairwise
        (fun a b => ∀ i ∈ a, ∀ j ∈ b, ∀ x y, ids[i]? = some x → ids[j]? = some y → x ≤ y) := by
      rw [List.pairwise_map]
      refine hs.imp ?_
      intro a b hab i hi j hj x y hx hy
      refine hab x y ?_ ?_
      · rw [fancy_getElem? hF hi, hx]
      · rw [fancy_getElem? hF hj, hy]
    rw [h1, List.pairwise_map] at h2
    exact h2.imp fun h x y hx hy => h _ rfl _ rfl x y hx hy

/-- Two strictly sorted lists with the same members are equal. -/
theorem eq_of_strict_sorted {a b : List κ} (ha : a.Pairwise (· < ·)) (hb : b.Pairwise (· < ·))
    (h : ∀ x, x ∈ a ↔ x ∈ b) : a = b := by
  have hna : a.Nodup := ha.imp fun h => ne_of_lt h
  have hnb : b.Nodup := hb.imp fun h => ne_of_lt h
  have hp : a ~ b := (List.perm_ext_iff_of_nodup hna hnb).mpr h
  exact hp.eq_of_pairwise (le := (· < ·)) (fun x y _ _ h1 h2 => absurd (lt_trans h1 h2) (lt_irrefl x)) ha hb

theorem intersectVals_eq_filter (a : List κ) {b : List κ} (hb : b.Pairwise (· < ·)) :
    intersectVals a b = b.filter (· ∈ a) := by
  refine eq_of_strict_sorted ((uniqueVals_pairwise a).filter _) (hb.filter _) ?_
  intro x
  simp only [intersectVals, mem_filter, mem_uniqueVals, decide_eq_true_eq]
  tauto

/-- Taking the rows whose key was found gives the rows whose key is in the file. -/
theorem fancy_intersect {key : α → κ} (a : List κ) {rows : List α}
    (hb : (rows.map key).Pairwise (· < ·)) :
    fancy rows (intersectIdx₂ a (rows.map key)) = .ok (rows.filter (fun r => key r ∈ a)) := by
  rw [fancy_ok_iff]
  unfold intersectIdx₂
  rw [intersectVals_eq_filter a hb, List.map_map, List.filter_map, List.map_map]
  refine List.map_congr_left ?_
  intro r hr
  have hr' : r ∈ rows := (mem_filter.mp hr).1
  have hn : (rows.map key).Nodup := hb.imp fun h => ne_of_lt h
  obtain ⟨i, hi, rfl⟩ := List.mem_iff_getElem.mp hr'
  simp only [Function.comp_apply]
  have : (rows.map key).idxOf (key rows[i]) = i := by
    have := hn.idxOf_getElem i (by simpa using hi)
    simpa using this
  rw [this, List.getElem?_eq_getElem hi]

theorem selectCat_spec {Val : Type} [LinearOrder Val] (a : List Val) {cat : List (Row Val)}
    (hb : (cat.map (· "TARGETID")).Pairwise (· < ·)) :
    selectCat cat (intersectIdx₂ a (cat.map (· "TARGETID"))) =
      .ok (cat.filter (fun r => r "TARGETID" ∈ a)) := by
  unfold selectCat
  split
  · exact fancy_intersect a hb
  · rename_i h
    have hf := fancy_length (fancy_intersect (key := fun r : Row Val => r "TARGETID") a hb)
    simp only [ne_eq, not_not] at h
    rw [h] at hf
    rw [(List.filter_sublist).eq_of_length hf]

/-- The targets of the sorted file rows are the catalog targets in the file. -/
theorem idxFbr_targets {ids test : List κ} (hn : ids.Nodup) (ht : test.Pairwise (· < ·))
    {J : List Nat} (hp : J ~ isinIdx ids test)
    (hs : J.Pairwise (fun i j => ∀ x y, ids[i]? = some x → ids[j]? = some y → x ≤ y)) :
    J.map (fun i => ids[i]?) = (test.filter (· ∈ ids)).map some := by
  have hmem : ∀ i ∈ J, ∃ x, ids[i]? = some x ∧ x ∈ test := fun i hi =>
    mem_isinIdx.mp (hp.mem_iff.mp hi)
  obtain ⟨T, hT⟩ := fancy_of_lt (l := ids) (idx := J) (fun i hi => by
    obtain ⟨x, hx, -⟩ := hmem i hi
    exact (List.getElem?_eq_some_iff.mp hx).1)
  have hT' := fancy_ok_iff.mp hT
  rw [hT']
  congr 1
  have hJn : J.Nodup := hp.nodup_iff.mpr (isinIdx_nodup _ _)
  refine eq_of_strict_sorted ?_ (ht.filter _) ?_
  · have : (J.map (fun i => ids[i]?)).Pairwise (fun a b => ∀ x ∈ a, ∀ y ∈ b, x < y) := by
      rw [List.pairwise_map]
      refine List.Pairwise.imp₂ ?_ hs hJn
      intro i j h1 h2 x hx y hy
      refine lt_of_le_of_ne (h1 x y hx hy) ?_
      rintro rfl
      have hi := List.getElem?_eq_some_iff.mp hx
      have hj := List.getElem?_eq_some_iff.mp hy
      exact h2 ((List.Nodup.getElem_inj_iff hn).mp (hi.2.trans hj.2.symm))
    rw [hT', List.pairwise_map] at this
    exact this.imp fun h => h _ rfl _ rfl
  · intro x
    have : x ∈ T ↔ some x ∈ J.map (fun i => ids[i]?) := by rw [hT']; simp
    rw [this]
    simp only [mem_map, mem_filter, decide_eq_true_eq]
    constructor
    · rintro ⟨i, hi, hx⟩
      obtain ⟨y, hy, hyt⟩ := hmem i hi
      rw [hx] at hy; cases hy
      exact ⟨hyt, List.mem_of_getElem? hx⟩
    · rintro ⟨h1, h2⟩
      obtain ⟨i, hi⟩ := List.mem_iff_getElem?.mp h2
      exact ⟨i, hp.mem_iff.mpr (mem_isinIdx.mpr ⟨x, hi, h1⟩), hi⟩

end Verif.Proofs
