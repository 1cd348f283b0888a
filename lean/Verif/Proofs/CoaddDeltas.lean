import Verif.Model.CoaddDeltas
import Verif.Spec.CoaddDeltas
import Verif.Proofs.ExceptList
import Verif.Proofs.Dict
import Mathlib.Data.List.Induction

/-!
# Lemmas on the coadd of delta files
-/

namespace Verif.Proofs
open Verif.Model Verif.Np Verif.Spec

/-! ### Dictionaries with any keys -/

section
variable {α β : Type} [DecidableEq α]

theorem dictSet_cons_ne {x : α × β} {d : List (α × β)} {k : α} {v : β} (h : x.1 ≠ k) :
    dictSet (x :: d) k v = x :: dictSet d k v := by
  unfold dictSet
  by_cases hk : k ∈ d.map Prod.fst
  · rw [if_pos (show k ∈ (x :: d).map Prod.fst from List.mem_cons_of_mem _ hk), if_pos hk, List.map_cons, if_neg h]
  · rw [if_neg, if_neg hk]
    · rfl
    · rw [List.map_cons, List.mem_cons]
      rintro (rfl | h')
      exacts [h rfl, hk h']

theorem dictSet_cons_eq {x : α × β} {d : List (α × β)} {k : α} {v : β} (h : x.1 = k) (hd : k ∉ d.map Prod.fst) :
    dictSet (x :: d) k v = (k, v) :: d := by
  unfold dictSet
  rw [if_pos (by rw [List.map_cons, h]; exact List.mem_cons_self ..), List.map_cons, if_pos h]
  congr 1
  have : ∀ y ∈ d, (if y.1 = k then (k, v) else y) = y := by
    intro y hy
    have hk : ¬ y.1 = k := fun he => hd (he ▸ List.mem_map.mpr ⟨y, hy, rfl⟩)
    rw [if_neg hk]
  rw [List.map_congr_left this, List.map_id']

theorem keys_dictSet (d : List (α × β)) (k : α) (v : β) :
    (dictSet d k v).map Prod.fst = if k ∈ d.map Prod.fst then d.map Prod.fst else d.map Prod.fst ++ [k] := by
  unfold dictSet
  split
  · rw [List.map_map]
    refine List.map_congr_left fun x _ => ?_
    dsimp only [Function.comp]
    split
    · next h => exact h.symm
    · rfl
  · rw [List.map_append]
    rfl

theorem nodup_dictSet {d : List (α × β)} (h : (d.map Prod.fst).Nodup) (k : α) (v : β) :
    ((dictSet d k v).map Prod.fst).Nodup := by
  rw [keys_dictSet]
  split
  · exact h
  · next hk => exact List.nodup_append.mpr ⟨h, List.nodup_singleton k, by
      intro a ha b hb
      rw [List.mem_singleton.mp hb]
      rintro rfl
      exact hk ha⟩

theorem lookup_none_iff {d : List (α × β)} {k : α} : d.lookup k = none ↔ k ∉ d.map Prod.fst := by
  induction d with
  | nil => simp
  | cons x d ih =>
    rw [List.lookup_cons]
    by_cases h : k = x.1
    · simp [h]
    · rw [show (k == x.1) = false by simpa using h, List.map_cons, List.mem_cons, not_or]
      simp only [ih]
      exact ⟨fun h' => ⟨h, h'⟩, fun h' => h'.2⟩

theorem mem_of_lookup_some {d : List (α × β)} {k : α} {v : β} (h : d.lookup k = some v) : (k, v) ∈ d := by
  obtain ⟨l₁, l₂, hl, -⟩ := List.lookup_eq_some_iff.mp h
  rw [hl]
  exact List.mem_append_right _ (.head _)

theorem lookup_of_mem' {d : List (α × β)} (hn : (d.map Prod.fst).Nodup) {k : α} {v : β} (h : (k, v) ∈ d) :
    d.lookup k = some v := by
  induction d with
  | nil => simp at h
  | cons x d ih =>
    rw [List.map_cons, List.nodup_cons] at hn
    rw [List.lookup_cons]
    rcases List.mem_cons.mp h with rfl | h
    · simp
    · have : k ≠ x.1 := fun e => hn.1 (e ▸ List.mem_map.mpr ⟨_, h, rfl⟩)
      rw [show (k == x.1) = false by simpa using this]
      exact ih hn.2 h

end

/-! ### The dictionary of forests -/

section
variable {K : Type} [Field K] [LinearOrder K] [FloorRing K]

theorem coaddAll_snoc {D : Type} (coadd : D → D → Except Err D) {l : List D} (hl : l ≠ []) (x : D) :
    coaddAll coadd (l ++ [x]) = (coaddAll coadd l).bind (fun y => coadd y x) := by
  cases l with
  | nil => exact absurd rfl hl
  | cons a l =>
    change (l ++ [x]).foldlM coadd a = (l.foldlM coadd a).bind _
    rw [List.foldlM_append]
    cases l.foldlM coadd a with
    | error e => rfl
    | ok y =>
      change ([x].foldlM coadd y) = coadd y x
      rw [List.foldlM_cons]
      cases coadd y x <;> rfl

omit [FloorRing K] [Field K] in
theorem ofTarget_snoc (t : HVal K) (l : List (Delta K)) (x : Delta K) :
    ofTarget t (l ++ [x]) = if x.targetid = t then ofTarget t l ++ [x] else ofTarget t l := by
  unfold ofTarget
  rw [List.filter_append, List.filter_cons, List.filter_nil]
  by_cases h : x.targetid = t <;> simp [h]

omit [FloorRing K] [Field K] in
theorem ofTarget_eq_nil {t : HVal K} {l : List (Delta K)} : ofTarget t l = [] ↔ t ∉ l.map Delta.targetid := by
  unfold ofTarget
  rw [List.filter_eq_nil_iff, List.mem_map]
  simp only [decide_eq_true_eq, not_exists, not_and]

/-- The dictionary after all deltas: every target once, with its deltas coadded in order. -/
theorem forests_ok (coadd : Delta K → Delta K → Except Err (Delta K)) (l : List (Delta K))
    (h : ∀ t ∈ l.map Delta.targetid, ∃ z, coaddAll coadd (ofTarget t l) = .ok z) :
    ∃ d, l.foldlM (addToForests coadd) [] = .ok d ∧ (d.map Prod.fst).Nodup ∧
      (∀ t, t ∈ d.map Prod.fst ↔ t ∈ l.map Delta.targetid) ∧
      ∀ t z, (t, z) ∈ d → coaddAll coadd (ofTarget t l) = .ok z := by
  induction l using List.reverseRecOn with
  | nil => exact ⟨[], rfl, List.nodup_nil, by simp, by simp⟩
  | append_singleton l x ih =>
    have hpre : ∀ t ∈ l.map Delta.targetid, ∃ z, coaddAll coadd (ofTarget t l) = .ok z := by
      intro t ht
      obtain ⟨z, hz⟩ := h t (by rw [List.map_append]; exact List.mem_append_left _ ht)
      rw [ofTarget_snoc] at hz
      split at hz
      · rw [coaddAll_snoc coadd (fun hn => ofTarget_eq_nil.mp hn ht)] at hz
        cases hc : coaddAll coadd (ofTarget t l) with
        | error e => rw [hc] at hz; cases hz
        | ok y => exact ⟨y, rfl⟩
      · exact ⟨z, hz⟩
    obtain ⟨d, d1, d2, d3, d4⟩ := ih hpre
    rw [List.foldlM_append, d1, except_bind_ok, List.foldlM_cons]
    obtain ⟨zx, hzx⟩ := h x.targetid (by simp)
    rw [ofTarget_snoc, if_pos rfl] at hzx
    have hfin : ∀ z, coaddAll coadd (ofTarget x.targetid l ++ [x]) = .ok z →
        addToForests coadd d x = .ok (dictSet d x.targetid z) →
        ∃ d', (addToForests coadd d x >>= fun s => List.foldlM (addToForests coadd) s []) = .ok d' ∧
          (d'.map Prod.fst).Nodup ∧ (∀ t, t ∈ d'.map Prod.fst ↔ t ∈ (l ++ [x]).map Delta.targetid) ∧
          ∀ t z, (t, z) ∈ d' → coaddAll coadd (ofTarget t (l ++ [x])) = .ok z := by
      intro z hz hadd
      refine ⟨dictSet d x.targetid z, by rw [hadd, except_bind_ok]; rfl, nodup_dictSet d2 _ _, fun t => ?_,
        fun t w hw => ?_⟩
      · rw [keys_dictSet, List.map_append, List.mem_append, ← d3 t, List.map_cons, List.map_nil, List.mem_singleton]
        split
        · next hk =>
          constructor
          · exact Or.inl
          · rintro (h | rfl)
            exacts [h, hk]
        · rw [List.mem_append, List.mem_singleton]
      · have hlk := lookup_of_mem' (nodup_dictSet d2 x.targetid z) hw
        rw [lookup_dictSet] at hlk
        rw [ofTarget_snoc]
        by_cases ht : t = x.targetid
        · rw [if_pos ht] at hlk
          rw [if_pos ht.symm, ht, hz]
          exact congrArg Except.ok (Option.some.inj hlk)
        · rw [if_neg ht] at hlk
          rw [if_neg (Ne.symm ht)]
          exact d4 t w (mem_of_lookup_some hlk)
    cases hlk : d.lookup x.targetid with
    | none =>
      have hnk : x.targetid ∉ l.map Delta.targetid := fun hm => lookup_none_iff.mp hlk ((d3 _).mpr hm)
      refine hfin x ?_ ?_
      · rw [ofTarget_eq_nil.mpr hnk]
        rfl
      · unfold addToForests
        rw [hlk]
    | some y =>
      have hy := d4 _ _ (mem_of_lookup_some hlk)
      have hkm : x.targetid ∈ l.map Delta.targetid :=
        (d3 _).mp (List.mem_map.mpr ⟨_, mem_of_lookup_some hlk, rfl⟩)
      rw [coaddAll_snoc coadd (fun hn => ofTarget_eq_nil.mp hn hkm), hy] at hzx
      refine hfin zx ?_ ?_
      · rw [coaddAll_snoc coadd (fun hn => ofTarget_eq_nil.mp hn hkm), hy]
        exact hzx
      · unfold addToForests
        rw [hlk]
        dsimp only
        rw [show coadd y x = .ok zx from hzx, except_bind_ok]

/-- If the dictionary can be made, the deltas of every target can be coadded. -/
theorem coaddAll_of_forests (coadd : Delta K → Delta K → Except Err (Delta K)) (l : List (Delta K))
    (d : List (HVal K × Delta K)) (h : l.foldlM (addToForests coadd) [] = .ok d) :
    ∀ t ∈ l.map Delta.targetid, ∃ z, coaddAll coadd (ofTarget t l) = .ok z := by
  induction l using List.reverseRecOn generalizing d with
  | nil => intro t ht; simp at ht
  | append_singleton l x ih =>
    rw [List.foldlM_append] at h
    cases hd : l.foldlM (addToForests coadd) [] with
    | error e => rw [hd] at h; cases h
    | ok d0 =>
      rw [hd, except_bind_ok, List.foldlM_cons] at h
      have hl := ih d0 hd
      obtain ⟨d1, e1, n1, k1, v1⟩ := forests_ok coadd l hl
      rw [hd] at e1
      obtain rfl := Except.ok.inj e1
      intro t ht
      rw [List.map_append, List.mem_append, List.map_cons, List.map_nil, List.mem_singleton] at ht
      rw [ofTarget_snoc]
      by_cases hx : x.targetid = t
      · rw [if_pos hx]
        cases hlk : d0.lookup x.targetid with
        | none =>
          have hnk : t ∉ l.map Delta.targetid := fun hm => lookup_none_iff.mp hlk ((k1 _).mpr (hx ▸ hm))
          rw [ofTarget_eq_nil.mpr hnk]
          exact ⟨x, rfl⟩
        | some y =>
          have hy := v1 _ _ (mem_of_lookup_some hlk)
          have hkm : t ∈ l.map Delta.targetid :=
            hx ▸ (k1 _).mp (List.mem_map.mpr ⟨_, mem_of_lookup_some hlk, rfl⟩)
          rw [coaddAll_snoc coadd (fun hn => ofTarget_eq_nil.mp hn hkm), ← hx, hy]
          unfold addToForests at h
          rw [hlk] at h
          dsimp only at h
          cases hc : coadd y x with
          | error e => rw [hc] at h; cases h
          | ok z => exact ⟨z, hc⟩
      · rw [if_neg hx]
        rcases ht with ht | ht
        · exact hl t ht
        · exact absurd ht.symm hx

end

/-! ### Grouping -/

section
variable {D : Type}

/-- Pairs of pixel and delta of the groups. -/
def flat (g : List (Nat × List D)) : List (Nat × D) := g.flatMap (fun f => f.2.map (fun h => (f.1, h)))

theorem flat_appendTo {g : List (Nat × List D)} (hn : (g.map Prod.fst).Nodup) (p : Nat) (z : D) :
    (flat (appendTo g p z)).Perm (flat g ++ [(p, z)]) := by
  induction g with
  | nil => exact List.Perm.refl _
  | cons x g ih =>
    rw [List.map_cons, List.nodup_cons] at hn
    by_cases hx : x.1 = p
    · subst hx
      have e : appendTo (x :: g) x.1 z = (x.1, x.2 ++ [z]) :: g := by
        unfold appendTo
        rw [dictSet_cons_eq rfl hn.1, List.lookup_cons]
        simp
      rw [e]
      unfold flat
      rw [List.flatMap_cons, List.flatMap_cons, List.map_append, List.append_assoc, List.append_assoc]
      exact List.Perm.append_left _ List.perm_append_comm
    · have e : appendTo (x :: g) p z = x :: appendTo g p z := by
        unfold appendTo
        rw [dictSet_cons_ne hx, List.lookup_cons, show (p == x.1) = false by simpa using Ne.symm hx]
      rw [e]
      unfold flat at ih ⊢
      rw [List.flatMap_cons, List.flatMap_cons, List.append_assoc]
      exact List.Perm.append_left _ (ih hn.2)

theorem nodup_appendTo {g : List (Nat × List D)} (hn : (g.map Prod.fst).Nodup) (p : Nat) (z : D) :
    ((appendTo g p z).map Prod.fst).Nodup := nodup_dictSet hn _ _

theorem foldl_appendTo (l : List (Nat × D)) (g : List (Nat × List D)) (hn : (g.map Prod.fst).Nodup) :
    (((l.foldl (fun g x => appendTo g x.1 x.2) g)).map Prod.fst).Nodup ∧
      (flat (l.foldl (fun g x => appendTo g x.1 x.2) g)).Perm (flat g ++ l) := by
  induction l generalizing g with
  | nil => exact ⟨hn, by simp⟩
  | cons x l ih =>
    obtain ⟨h1, h2⟩ := ih (appendTo g x.1 x.2) (nodup_appendTo hn _ _)
    refine ⟨h1, h2.trans ?_⟩
    have := (flat_appendTo hn x.1 x.2).append_right l
    rwa [List.append_assoc] at this

end

end Verif.Proofs
