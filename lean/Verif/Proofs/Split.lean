import Verif.Np.Unique
import Verif.Spec.Grouping
import Mathlib.Data.List.TakeWhile

/-! Lemmas about `np.unique` and `np.split`. -/

namespace Verif.Proofs
open Verif.Np List

variable {α κ : Type} [LinearOrder κ]

theorem mem_uniqueVals {keys : List κ} {k : κ} : k ∈ uniqueVals keys ↔ k ∈ keys := by
  simp [uniqueVals]

theorem uniqueVals_pairwise (keys : List κ) : (uniqueVals keys).Pairwise (· < ·) := by
  have h1 : (uniqueVals keys).Pairwise (· ≤ ·) := List.pairwise_insertionSort _ _
  have h2 : (uniqueVals keys).Nodup :=
    (List.perm_insertionSort _ _).nodup_iff.mpr (List.nodup_dedup keys)
  exact (h1.and h2).imp (fun h => lt_of_le_of_ne h.1 h.2)

theorem eq_uniqueVals {keys l : List κ} (hl : l.Pairwise (· < ·)) (hm : ∀ k, k ∈ l ↔ k ∈ keys) :
    uniqueVals keys = l := by
  apply List.Pairwise.eq_of_mem_iff (r := (· < ·)) (uniqueVals_pairwise keys) hl
  intro k
  rw [mem_uniqueVals, hm]

theorem splitFrom_shift (g r : List α) (st : Nat) (idx : List Nat) :
    splitFrom (g ++ r) (g.length + st) (idx.map (g.length + ·)) = splitFrom r st idx := by
  induction idx generalizing st with
  | nil => simp [splitFrom, List.drop_append]
  | cons i is ih =>
    simp only [splitFrom, List.map_cons, ih]
    congr 1
    simp [slice, List.take_append, List.drop_append]

theorem uniqueIdx_head {l : List κ} (b : κ) (hs : (b :: l).Pairwise (· ≤ ·)) :
    ∃ t, uniqueIdx (b :: l) = 0 :: t := by
  have hb : b ∈ uniqueVals (b :: l) := by rw [mem_uniqueVals]; simp
  have hp := uniqueVals_pairwise (b :: l)
  unfold uniqueIdx
  cases h : uniqueVals (b :: l) with
  | nil => rw [h] at hb; simp at hb
  | cons k ks =>
    have hk : k ∈ b :: l := by rw [← mem_uniqueVals, h]; simp
    have h1 : b ≤ k := by
      rcases List.mem_cons.mp hk with rfl | hk
      · exact le_refl _
      · exact (List.pairwise_cons.mp hs).1 k hk
    have h2 : k ≤ b := by
      rw [h] at hb hp
      rcases List.mem_cons.mp hb with rfl | hb
      · exact le_refl _
      · exact le_of_lt ((List.pairwise_cons.mp hp).1 b hb)
    have : k = b := le_antisymm h2 h1
    subst this
    exact ⟨_, by simp; rfl⟩

/-- Splitting a list sorted by key at the first occurrences: unrolled once. -/
theorem splitByKey_cons (key : α → κ) (a : α) (g r : List α)
    (hg : ∀ x ∈ g, key x = key a) (hr : ∀ x ∈ r, key a < key x)
    (hs : r.Pairwise (fun x y => key x ≤ key y)) :
    splitByKey key (a :: g ++ r) =
      if r = [] then [a :: g] else (a :: g) :: splitByKey key r := by
  have hvals : uniqueVals ((a :: g ++ r).map key) = key a :: uniqueVals (r.map key) := by
    apply eq_uniqueVals
    · rw [List.pairwise_cons]
      refine ⟨?_, uniqueVals_pairwise _⟩
      intro k hk
      rw [mem_uniqueVals] at hk
      obtain ⟨x, hx, rfl⟩ := List.mem_map.mp hk
      exact hr x hx
    · intro k
      simp only [List.mem_cons, mem_uniqueVals, List.map_append, List.map_cons, List.mem_append,
        List.mem_map]
      constructor
      · rintro (rfl | h)
        · left; left; rfl
        · right; exact h
      · rintro ((rfl | ⟨x, hx, rfl⟩) | h)
        · left; rfl
        · left; exact hg x hx
        · right; exact h
  have hidx : uniqueIdx ((a :: g ++ r).map key) =
      0 :: (uniqueIdx (r.map key)).map ((a :: g).length + ·) := by
    unfold uniqueIdx
    rw [hvals, List.map_cons, List.map_map]
    congr 1
    · simp
    · refine List.map_congr_left ?_
      intro k hk
      rw [mem_uniqueVals] at hk
      simp only [Function.comp_apply, List.map_append]
      rw [List.idxOf_append_of_notMem]
      · simp
      · intro hm
        obtain ⟨x, hx, rfl⟩ := List.mem_map.mp hk
        obtain ⟨y, hy, hxy⟩ := List.mem_map.mp hm
        have h1 := hr x hx
        rcases List.mem_cons.mp hy with rfl | hy
        · exact absurd hxy.symm (ne_of_gt h1)
        · exact absurd ((hg y hy).symm.trans hxy) (ne_of_lt h1)
  rw [splitByKey, hidx, List.tail_cons]
  split
  next h => subst h; simp [uniqueIdx, uniqueVals, split, splitFrom]
  next h =>
    obtain ⟨b, r', rfl⟩ := List.exists_cons_of_ne_nil h
    have hs' : ((b :: r').map key).Pairwise (· ≤ ·) := List.pairwise_map.mpr hs
    obtain ⟨t, ht⟩ := uniqueIdx_head (key b) (l := r'.map key) (by simpa using hs')
    have ht' : uniqueIdx ((b :: r').map key) = 0 :: t := by simpa using ht
    rw [ht', splitByKey, ht']
    simp only [List.map_cons, List.tail_cons, split, splitFrom]
    congr 1
    · simp [slice]
    · exact splitFrom_shift (a :: g) (b :: r') 0 t

theorem splitByKey_nil (key : α → κ) : splitByKey key ([] : List α) = [[]] := by
  simp [splitByKey, split, splitFrom, uniqueIdx, uniqueVals]

/-- Splitting a sorted list at the first occurrences of its keys groups it. -/
theorem splitByKey_isGrouping (key : α → κ) (l : List α) (hl : l ≠ [])
    (hs : l.Pairwise (fun x y => key x ≤ key y)) :
    Verif.Spec.IsGrouping key l (splitByKey key l) := by
  induction hn : l.length using Nat.strong_induction_on generalizing l with
  | _ n ih =>
    obtain ⟨a, l', rfl⟩ := List.exists_cons_of_ne_nil hl
    rw [List.pairwise_cons] at hs
    -- the rows with the first key, and the rest
    set g := l'.takeWhile (fun x => decide (key x = key a)) with hgdef
    set r := l'.dropWhile (fun x => decide (key x = key a)) with hrdef
    have hgr : g ++ r = l' := List.takeWhile_append_dropWhile
    have hg : ∀ x ∈ g, key x = key a := by
      intro x hx
      have := List.mem_takeWhile_imp hx
      simpa using this
    have hrs : r.Pairwise (fun x y => key x ≤ key y) := by
      refine List.Pairwise.sublist ?_ hs.2
      exact List.dropWhile_sublist _
    have hr : ∀ x ∈ r, key a < key x := by
      cases hr' : r with
      | nil => simp
      | cons b r' =>
        have hb1 : ¬ key b = key a := by
          have := List.head_dropWhile_not (fun x => decide (key x = key a)) (l := l') (by
            rw [← hrdef, hr']; simp)
          simp only [← hrdef, hr', List.head_cons] at this
          simpa using this
        have hb2 : key a ≤ key b := hs.1 b (by rw [← hgr, hr']; simp)
        have hb : key a < key b := lt_of_le_of_ne hb2 (fun h => hb1 h.symm)
        intro x hx
        rcases List.mem_cons.mp hx with rfl | hx
        · exact hb
        · rw [hr'] at hrs
          exact lt_of_lt_of_le hb ((List.pairwise_cons.mp hrs).1 x hx)
    have hcons : a :: l' = a :: g ++ r := by rw [List.cons_append, hgr]
    rw [hcons, splitByKey_cons key a g r hg hr hrs]
    have hhom : ∀ x ∈ a :: g, ∀ y ∈ a :: g, key x = key y := by
      have h1 : ∀ x ∈ a :: g, key x = key a := by
        intro x hx
        rcases List.mem_cons.mp hx with rfl | hx
        · rfl
        · exact hg x hx
      intro x hx y hy
      rw [h1 x hx, h1 y hy]
    split
    next h =>
      exact ⟨by simp [h], by simp, by
        intro p hp; simp only [List.mem_singleton] at hp; subst hp; exact hhom, by simp⟩
    next h =>
      have hlen : r.length < n := by
        rw [← hn, hcons]; simp; omega
      have IH := ih r.length hlen r h hrs rfl
      refine ⟨?_, ?_, ?_, ?_⟩
      · rw [List.flatten_cons, IH.flatten]
      · intro p hp
        rcases List.mem_cons.mp hp with rfl | hp
        · simp
        · exact IH.nonempty p hp
      · intro p hp
        rcases List.mem_cons.mp hp with rfl | hp
        · exact hhom
        · exact IH.homogeneous p hp
      · rw [List.pairwise_cons]
        refine ⟨?_, IH.distinct⟩
        intro q hq x hx y hy
        have hyr : y ∈ r := by
          rw [← IH.flatten]; exact List.mem_flatten.mpr ⟨q, hq, hy⟩
        have : key x = key a := hhom x hx a (by simp)
        rw [this]
        exact hr y hyr

theorem isGrouping_eq_filter {α κ : Type} [LinearOrder κ] {key : α → κ} {l : List α}
    {pieces : List (List α)} (h : Verif.Spec.IsGrouping key l pieces) {p : List α} (hp : p ∈ pieces)
    {r : α} (hr : r ∈ p) : p = l.filter (fun s => key s = key r) := by
  obtain ⟨a, b, rfl⟩ := List.append_of_mem hp
  have hd := h.distinct
  rw [List.pairwise_append, List.pairwise_cons] at hd
  obtain ⟨-, ⟨hb, -⟩, ha⟩ := hd
  rw [← h.flatten, List.flatten_append, List.flatten_cons, List.filter_append,
    List.filter_append]
  have e1 : a.flatten.filter (fun s => decide (key s = key r)) = [] := by
    rw [List.filter_eq_nil_iff]
    intro s hs
    obtain ⟨q, hq, hs⟩ := List.mem_flatten.mp hs
    have := ha q hq p (by simp) s hs r hr
    simp [ne_of_lt this]
  have e2 : b.flatten.filter (fun s => decide (key s = key r)) = [] := by
    rw [List.filter_eq_nil_iff]
    intro s hs
    obtain ⟨q, hq, hs⟩ := List.mem_flatten.mp hs
    have := hb q hq r hr s hs
    simp [ne_of_gt this]
  have e3 : p.filter (fun s => decide (key s = key r)) = p := by
    rw [List.filter_eq_self]
    intro s hs
    simp [h.homogeneous p hp s hs r hr]
  rw [e1, e2, e3]; simp

/-- The stable argsort sorts. -/
theorem argsortStable_isArgsort (keys : List κ) : IsArgsort keys (argsortStable keys) := by
  have hr : Std.Total (fun a b : κ × Nat => a.1 ≤ b.1) := ⟨fun a b => le_total a.1 b.1⟩
  have ht : IsTrans (κ × Nat) (fun a b => a.1 ≤ b.1) := ⟨fun _ _ _ h1 h2 => le_trans h1 h2⟩
  have hp := List.perm_insertionSort (fun a b : κ × Nat => a.1 ≤ b.1) keys.zipIdx
  refine ⟨?_, ?_⟩
  · refine (hp.map Prod.snd).trans ?_
    rw [List.zipIdx_map_snd, List.range_eq_range']
  · unfold argsortStable
    rw [List.pairwise_map]
    have hs := List.pairwise_insertionSort (fun a b : κ × Nat => a.1 ≤ b.1) keys.zipIdx
    refine (List.Pairwise.and_mem.mp hs).imp ?_
    rintro ⟨a, i⟩ ⟨b, j⟩ ⟨ha, hb, hab⟩ x y hx hy
    have ha' := List.mem_zipIdx_iff_getElem?.mp (hp.mem_iff.mp ha)
    have hb' := List.mem_zipIdx_iff_getElem?.mp (hp.mem_iff.mp hb)
    simp only at ha' hb' hx hy hab
    rw [ha'] at hx; rw [hb'] at hy
    cases hx; cases hy
    exact hab

end Verif.Proofs
