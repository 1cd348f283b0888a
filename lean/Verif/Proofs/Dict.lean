import Verif.Np.Dict

/-! Lemmas about dictionaries. -/

namespace Verif.Proofs
open Verif.Np List

theorem lookup_dictSet {α β : Type} [DecidableEq α] (d : List (α × β)) (k : α) (v : β) (a : α) :
    (dictSet d k v).lookup a = if a = k then some v else d.lookup a := by
  unfold dictSet
  split
  next h =>
    induction d with
    | nil => simp at h
    | cons x d ih =>
      obtain ⟨x1, x2⟩ := x
      by_cases hk : x1 = k
      · subst hk
        by_cases ha : a = x1
        · subst ha; simp
        · simp only [List.map_cons, if_true, if_neg ha, List.lookup_cons]
          have hb : (a == x1) = false := by simp [ha]
          simp only [hb]
          by_cases hm : x1 ∈ d.map Prod.fst
          · rw [ih hm, if_neg ha]
          · have : d.map (fun x => if x.1 = x1 then (x1, v) else x) = d := by
              conv_rhs => rw [← List.map_id d]
              refine List.map_congr_left fun y hy => ?_
              rw [if_neg]; rfl
              intro e; exact hm (List.mem_map.mpr ⟨y, hy, e⟩)
            rw [this]
      · have hm : k ∈ d.map Prod.fst := by
          simp only [List.map_cons, List.mem_cons] at h
          rcases h with h | h
          · exact absurd h.symm hk
          · exact h
        simp only [List.map_cons, if_neg hk, List.lookup_cons]
        by_cases ha : a = x1
        · subst ha; simp [hk]
        · have hb : (a == x1) = false := by simp [ha]
          simp only [hb]
          exact ih hm
  next h =>
    rw [List.lookup_append]
    by_cases ha : a = k
    · subst ha
      have : d.lookup a = none := by
        rw [List.lookup_eq_none_iff]
        intro p hp
        simp only [bne_iff_ne, ne_eq, beq_eq_false_iff_ne, beq_iff_eq, Bool.not_eq_true]
        intro e; exact h (List.mem_map.mpr ⟨p, hp, e.symm⟩)
      simp [this]
    · have hb : (a == k) = false := by simp [ha]
      simp [ha, List.lookup_cons, hb]


variable {α β : Type}

@[simp] theorem keys_nil : Dict.keys ([] : Dict α) = [] := rfl

@[simp] theorem keys_cons (x : String × α) (d : Dict α) :
    Dict.keys (x :: d) = x.1 :: Dict.keys d := rfl

theorem lookup_set (d : Dict α) (k : String) (v : α) (a : String) :
    List.lookup a (d.set k v) = if a = k then some v else List.lookup a d := lookup_dictSet d k v a

theorem keys_set (d : Dict α) (k : String) (v : α) :
    (d.set k v).keys = if k ∈ d.keys then d.keys else d.keys ++ [k] := by
  unfold Dict.set dictSet Dict.keys
  split
  · rw [List.map_map]
    refine List.map_congr_left fun x _ => ?_
    simp only [Function.comp_apply]
    split <;> simp_all
  · simp

theorem mem_keys_set (d : Dict α) (k : String) (v : α) (a : String) :
    a ∈ (d.set k v).keys ↔ a = k ∨ a ∈ d.keys := by
  rw [keys_set]
  split
  · constructor
    · exact Or.inr
    · rintro (rfl | h) <;> assumption
  · simp [or_comm]

theorem nodup_keys_set {d : Dict α} (h : d.keys.Nodup) (k : String) (v : α) :
    (d.set k v).keys.Nodup := by
  rw [keys_set]
  split
  · exact h
  next hk =>
    rw [List.nodup_append]
    refine ⟨h, by simp, ?_⟩
    intro a ha b hb
    simp only [List.mem_singleton] at hb
    subst hb
    rintro rfl
    exact hk ha

theorem lookup_pop (d : Dict α) (k a : String) :
    List.lookup a (d.pop k) = if a = k then none else List.lookup a d := by
  unfold Dict.pop
  induction d with
  | nil => simp
  | cons x d ih =>
    obtain ⟨x1, x2⟩ := x
    rw [List.filter_cons]
    by_cases hk : x1 = k
    · subst hk
      simp only [ne_eq, not_true_eq_false, decide_false, Bool.false_eq_true, if_false]
      rw [ih]
      by_cases ha : a = x1
      · simp [ha]
      · have hb : (a == x1) = false := by simp [ha]
        simp [ha, List.lookup_cons, hb]
    · simp only [ne_eq, hk, not_false_eq_true, decide_true, if_true]
      rw [List.lookup_cons, List.lookup_cons, ih]
      by_cases ha : a = x1
      · subst ha; simp [hk]
      · have hb : (a == x1) = false := by simp [ha]
        simp [hb]

theorem keys_pop (d : Dict α) (k : String) :
    (d.pop k).keys = d.keys.filter (fun x => decide (x ≠ k)) := by
  unfold Dict.pop Dict.keys
  rw [List.filter_map]
  rfl

theorem keys_mapVals (f : String → α → β) (d : Dict α) : (d.mapVals f).keys = d.keys := by
  unfold Dict.mapVals Dict.keys
  rw [List.map_map]
  rfl

theorem lookup_mapVals (f : String → α → β) (d : Dict α) (a : String) :
    List.lookup a (d.mapVals f) = (List.lookup a d).map (f a) := by
  unfold Dict.mapVals
  induction d with
  | nil => rfl
  | cons x d ih =>
    obtain ⟨x1, x2⟩ := x
    rw [List.map_cons, List.lookup_cons, List.lookup_cons, ih]
    by_cases ha : a = x1
    · subst ha; simp
    · have hb : (a == x1) = false := by simp [ha]
      simp [hb]

theorem lookup_eq_none_iff {d : Dict α} {a : String} : List.lookup a d = none ↔ a ∉ d.keys := by
  induction d with
  | nil => simp
  | cons x d ih =>
    rw [List.lookup_cons, keys_cons, List.mem_cons, not_or]
    by_cases ha : a = x.1
    · simp [ha]
    · have hb : (a == x.1) = false := by simp [ha]
      simp [hb, ih, ha]

theorem lookup_isSome {d : Dict α} {a : String} (h : a ∈ d.keys) :
    ∃ v, List.lookup a d = some v := by
  cases hl : List.lookup a d with
  | none => exact absurd h (lookup_eq_none_iff.mp hl)
  | some v => exact ⟨v, rfl⟩

theorem mem_keys_of_lookup {d : Dict α} {a : String} {v : α} (h : List.lookup a d = some v) :
    a ∈ d.keys := by
  by_contra hh
  rw [lookup_eq_none_iff.mpr hh] at h
  simp at h

theorem mem_of_lookup {d : Dict α} {a : String} {v : α} (h : List.lookup a d = some v) :
    (a, v) ∈ d := by
  induction d with
  | nil => simp at h
  | cons x d ih =>
    rw [List.lookup_cons] at h
    by_cases ha : a = x.1
    · subst ha
      simp at h
      subst h
      simp
    · have hb : (a == x.1) = false := by simp [ha]
      simp only [hb] at h
      exact List.mem_cons_of_mem _ (ih h)

theorem lookup_of_mem {d : Dict α} (hn : d.keys.Nodup) {a : String} {v : α} (h : (a, v) ∈ d) :
    List.lookup a d = some v := by
  induction d with
  | nil => simp at h
  | cons x d ih =>
    rw [keys_cons, List.nodup_cons] at hn
    rw [List.lookup_cons]
    rcases List.mem_cons.mp h with h | h
    · subst h; simp
    · have : a ≠ x.1 := by
        rintro rfl
        exact hn.1 (List.mem_map.mpr ⟨_, h, rfl⟩)
      have hb : (a == x.1) = false := by simp [this]
      simp only [hb]
      exact ih hn.2 h

theorem arr_set (d : Dict (List α)) (k : String) (v : List α) (a : String) :
    (d.set k v).arr a = if a = k then v else d.arr a := by
  unfold Dict.arr
  rw [lookup_set]
  split <;> rfl

theorem arr_pop_of_ne (d : Dict (List α)) {k a : String} (h : a ≠ k) :
    (d.pop k).arr a = d.arr a := by
  unfold Dict.arr
  rw [lookup_pop, if_neg h]

theorem arr_mapVals {f : String → List α → List β} {d : Dict (List α)} {a : String}
    (h : a ∈ d.keys) : (d.mapVals f).arr a = f a (d.arr a) := by
  unfold Dict.arr
  obtain ⟨v, hv⟩ := lookup_isSome h
  rw [lookup_mapVals, hv]
  rfl

theorem arr_of_lookup {d : Dict (List α)} {a : String} {v : List α} (h : List.lookup a d = some v) :
    d.arr a = v := by
  unfold Dict.arr; rw [h]; rfl

theorem lookup_eq_arr {d : Dict (List α)} {a : String} (h : a ∈ d.keys) :
    List.lookup a d = some (d.arr a) := by
  obtain ⟨v, hv⟩ := lookup_isSome h
  rw [hv, arr_of_lookup hv]

theorem map_eq_arr {γ : Type} (f : List α → γ) {d : Dict (List α)} (hn : d.keys.Nodup) :
    d.map (fun x => f x.2) = d.keys.map (fun a => f (d.arr a)) := by
  unfold Dict.keys
  rw [List.map_map]
  refine List.map_congr_left fun x hx => ?_
  simp only [Function.comp_apply]
  rw [arr_of_lookup (lookup_of_mem hn (a := x.1) (v := x.2) hx)]

theorem eq_of_keys_of_lookup {d e : Dict α} (hn : d.keys.Nodup) (hk : d.keys = e.keys)
    (h : ∀ a ∈ d.keys, List.lookup a d = List.lookup a e) : d = e := by
  induction d generalizing e with
  | nil =>
    cases e with
    | nil => rfl
    | cons y e => simp at hk
  | cons x d ih =>
    cases e with
    | nil => simp at hk
    | cons y e =>
      rw [keys_cons, keys_cons, List.cons.injEq] at hk
      rw [keys_cons, List.nodup_cons] at hn
      have h1 := h x.1 (by simp)
      rw [List.lookup_cons, List.lookup_cons] at h1
      rw [← hk.1] at h1
      simp at h1
      have hxy : x = y := Prod.ext hk.1 h1
      subst hxy
      congr 1
      refine ih hn.2 hk.2 fun a ha => ?_
      have h2 := h a (List.mem_cons_of_mem _ ha)
      rw [List.lookup_cons, List.lookup_cons] at h2
      have : a ≠ x.1 := by rintro rfl; exact hn.1 ha
      have hb : (a == x.1) = false := by simp [this]
      simpa [hb] using h2

end Verif.Proofs
