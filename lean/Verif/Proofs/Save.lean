import Verif.Model.Save
import Verif.Proofs.Dict
import Verif.Proofs.Readers

/-! Lemmas about `save_deltas` and the resolution-only reader. -/

namespace Verif.Proofs
open Verif.Np Verif.Model Verif.Spec List

variable {α κ : Type} [LinearOrder κ]

theorem perm_of_map_some {a b : List α} (h : a.map some ~ b.map some) : a ~ b := by
  have := h.filterMap id
  simpa [List.filterMap_map] using this

/-- Indexing with an argsort sorts the list. -/
theorem fancy_argsort {key : α → κ} {l : List α} {idx : List Nat}
    (h : IsArgsort (l.map key) idx) :
    ∃ out, fancy l idx = .ok out ∧ out ~ l ∧ out.Pairwise (fun a b => key a ≤ key b) := by
  have hp := h.perm
  rw [List.length_map] at hp
  obtain ⟨out, ho⟩ := fancy_of_lt (l := l) (idx := idx) (by
    intro i hi
    simpa using hp.mem_iff.mp hi)
  have hm := fancy_ok_iff.mp ho
  refine ⟨out, ho, ?_, ?_⟩
  · refine perm_of_map_some ?_
    rw [← hm]
    refine (hp.map _).trans ?_
    have : (List.range l.length).map (fun i => l[i]?) = l.map some := by
      refine List.ext_getElem (by simp) ?_
      intro i h1 h2
      simp at h1
      simp [h1]
    rw [this]
  · have h2 : (out.map some).Pairwise (fun x y => ∀ a b, x = some a → y = some b → key a ≤ key b) := by
      rw [← hm, List.pairwise_map]
      refine h.sorted.imp ?_
      intro i j hij a b ha hb
      exact hij (key a) (key b) (by simp [ha]) (by simp [hb])
    rw [List.pairwise_map] at h2
    exact h2.imp fun h => h _ _ rfl rfl

/-- Zipping the keys with the groups of a sorted list. -/
theorem zip_groups {key : α → κ} {l : List α} (hs : l.Pairwise (fun a b => key a ≤ key b)) :
    ∃ pairs : List (κ × List α),
      (uniqueVals (l.map key)).zip (splitByKey key l) = pairs ∧
      (pairs.map Prod.snd).flatten = l ∧ (pairs.map Prod.fst).Pairwise (· < ·) ∧
      (∀ x ∈ l, ∃ p ∈ pairs, p.1 = key x) ∧
      ∀ p ∈ pairs, p.2 ≠ [] ∧ p.2 = l.filter (fun x => key x = p.1) := by
  refine ⟨_, rfl, ?_⟩
  by_cases hl : l = []
  · subst hl
    simp [uniqueVals]
  have hG := splitByKey_isGrouping key l hl hs
  obtain ⟨keys, hk, hkm, hF⟩ := isGrouping_keys hG
  have hu : uniqueVals (l.map key) = keys := by
    refine eq_uniqueVals hk (fun k => ?_)
    rw [hkm, List.mem_map]
  have hlen := hF.length_eq
  rw [hu]
  have h1 : (keys.zip (splitByKey key l)).map Prod.snd = splitByKey key l := by
    rw [List.map_snd_zip]; omega
  have h2 : (keys.zip (splitByKey key l)).map Prod.fst = keys := by
    rw [List.map_fst_zip]; omega
  refine ⟨by rw [h1, hG.flatten], by rw [h2]; exact hk, ?_, ?_⟩
  · intro x hx
    have : key x ∈ keys := (hkm _).mpr ⟨x, hx, rfl⟩
    rw [← h2] at this
    obtain ⟨p, hp, he⟩ := List.mem_map.mp this
    exact ⟨p, hp, he⟩
  · rintro ⟨k, g⟩ hp
    have hpair : ∀ {ks : List κ} {gs : List (List α)},
        List.Forall₂ (fun g k => g ∈ splitByKey key l ∧ ∀ r, r ∈ g ↔ r ∈ l ∧ key r = k) gs ks →
        (k, g) ∈ ks.zip gs → g ∈ splitByKey key l ∧ ∀ r, r ∈ g ↔ r ∈ l ∧ key r = k := by
      intro ks gs h
      induction h with
      | nil => simp
      | cons hr _ ih =>
        intro hm
        rw [List.zip_cons_cons, List.mem_cons] at hm
        rcases hm with hm | hm
        · cases hm; exact hr
        · exact ih hm
    obtain ⟨hg, hr⟩ := hpair hF hp
    obtain ⟨x, hx⟩ := List.exists_mem_of_ne_nil _ (hG.nonempty g hg)
    refine ⟨hG.nonempty g hg, ?_⟩
    rw [isGrouping_eq_filter hG hg hx, ((hr x).mp hx).2]

/-! ### Resolution only -/

/-- First occurrences of increasing keys in a sorted list increase. -/
theorem uniqueIdx_pairwise {keys : List κ} (hs : keys.Pairwise (· ≤ ·)) :
    (uniqueIdx keys).Pairwise (· < ·) := by
  unfold uniqueIdx
  rw [List.pairwise_map]
  refine (List.Pairwise.and_mem.mp (uniqueVals_pairwise keys)).imp ?_
  rintro a b ⟨ha, hb, hab⟩
  have ha' := List.idxOf_lt_length_of_mem (mem_uniqueVals.mp ha)
  have hb' := List.idxOf_lt_length_of_mem (mem_uniqueVals.mp hb)
  by_contra hc
  rcases Nat.lt_or_ge (keys.idxOf b) (keys.idxOf a) with h | h
  · have := List.pairwise_iff_getElem.mp hs _ _ hb' ha' h
    rw [List.getElem_idxOf, List.getElem_idxOf] at this
    exact absurd hab (not_lt.mpr this)
  · have he : keys.idxOf a = keys.idxOf b := by omega
    have h1 := List.getElem_idxOf ha'
    have h2 := List.getElem_idxOf hb'
    have : a = b := by rw [← h1, ← h2]; simp only [he]
    exact absurd this (ne_of_lt hab)

theorem uniqueIdx_lt {keys : List κ} : ∀ i ∈ uniqueIdx keys, i < keys.length := by
  intro i hi
  obtain ⟨k, hk, rfl⟩ := List.mem_map.mp hi
  exact List.idxOf_lt_length_of_mem (mem_uniqueVals.mp hk)

variable {Val Wv Im Re : Type} [LinearOrder Val]

/-- The effect on one spectrum of the arms done so far. -/
structure ResoSet (cut : Nat → Nat → Re → Re) (file : SpecFile Val Wv Im Re) (jj : Nat)
    (arms : List String) (s s' : ResoSpec Val Re) : Prop where
  targetid : s'.targetid = s.targetid
  waveArms : s'.waveArms = s.waveArms
  forest : s'.forest = s.forest
  done : ∀ arm ∈ arms, ∀ f1 f2, s.forest.lookup arm = some (f1, f2) → ∃ hdu m,
    resoHdu file arm = .ok hdu ∧ hdu[jj]? = some m ∧ s'.forestreso.lookup arm = some (cut f1 f2 m)
  rest : ∀ arm, (arm ∉ arms ∨ s.forest.lookup arm = none) →
    s'.forestreso.lookup arm = s.forestreso.lookup arm

theorem resoSet_trans {cut : Nat → Nat → Re → Re} {file : SpecFile Val Wv Im Re} {jj : Nat}
    {a b : List String} {s t u : ResoSpec Val Re} (h1 : ResoSet cut file jj a s t)
    (h2 : ResoSet cut file jj b t u) : ResoSet cut file jj (a ++ b) s u := by
  refine ⟨h2.1.trans h1.1, h2.2.trans h1.2, h2.3.trans h1.3, ?_, ?_⟩
  · intro arm harm f1 f2 hl
    by_cases hb : arm ∈ b
    · exact h2.done arm hb f1 f2 (by rw [h1.forest, hl])
    · have ha : arm ∈ a := by
        rcases List.mem_append.mp harm with h | h
        · exact h
        · exact absurd h hb
      obtain ⟨hdu, m, e1, e2, e3⟩ := h1.done arm ha f1 f2 hl
      exact ⟨hdu, m, e1, e2, by rw [h2.rest arm (Or.inl hb), e3]⟩
  · intro arm h
    rw [h2.rest arm, h1.rest arm]
    · rcases h with h | h
      · left; exact fun hh => h (List.mem_append_left _ hh)
      · right; exact h
    · rcases h with h | h
      · left; exact fun hh => h (List.mem_append_right _ hh)
      · right; rw [h1.forest, h]

theorem setReso_ok {cut : Nat → Nat → Re → Re} {file : SpecFile Val Wv Im Re} {arm : String}
    {hdu : List Re} (hh : resoHdu file arm = .ok hdu) {jj : Nat} (hj : jj < hdu.length)
    (s : ResoSpec Val Re) :
    ∃ s', setReso cut hdu arm jj s = .ok s' ∧ ResoSet cut file jj [arm] s s' := by
  unfold setReso
  cases hl : s.forest.lookup arm with
  | none =>
    refine ⟨s, rfl, rfl, rfl, rfl, ?_, fun _ _ => rfl⟩
    intro a ha f1 f2 h
    simp only [List.mem_singleton] at ha
    subst ha
    rw [hl] at h; simp at h
  | some x =>
    obtain ⟨f1, f2⟩ := x
    have hm : hdu[jj]? = some hdu[jj] := List.getElem?_eq_getElem hj
    simp only [hm]
    refine ⟨_, rfl, rfl, rfl, rfl, ?_, ?_⟩
    · intro a ha g1 g2 h
      simp only [List.mem_singleton] at ha
      subst ha
      rw [hl] at h
      cases h
      exact ⟨hdu, _, hh, hm, by rw [lookup_dictSet, if_pos rfl]⟩
    · intro a ha
      simp only
      rw [lookup_dictSet, if_neg]
      rintro rfl
      rcases ha with ha | ha
      · simp at ha
      · rw [hl] at ha; simp at ha

theorem setResoAll_ok {cut : Nat → Nat → Re → Re} {file : SpecFile Val Wv Im Re} {arm : String}
    {hdu : List Re} (hh : resoHdu file arm = .ok hdu) {idx : List Nat}
    (hj : ∀ j ∈ idx, j < hdu.length) {ss : List (ResoSpec Val Re)}
    (hlen : idx.length = ss.length) :
    ∃ ss', setResoAll cut hdu arm idx ss = .ok ss' ∧
      List.Forall₂ (fun (x : Nat × ResoSpec Val Re) s' => ResoSet cut file x.1 [arm] x.2 s')
        (idx.zip ss) ss' := by
  induction idx generalizing ss with
  | nil =>
    cases ss with
    | nil => exact ⟨[], rfl, .nil⟩
    | cons _ _ => simp at hlen
  | cons j js ih =>
    cases ss with
    | nil => simp at hlen
    | cons s ss =>
      obtain ⟨s', h1, h2⟩ := setReso_ok (cut := cut) hh (hj j (by simp)) s
      obtain ⟨ss', h3, h4⟩ := ih (fun j hj' => hj j (by simp [hj'])) (ss := ss) (by simpa using hlen)
      exact ⟨s' :: ss', by simp [setResoAll, h1, h3], .cons h2 h4⟩

theorem forall₂_zip_trans {α β : Type} {R S T : α → β → β → Prop}
    (hT : ∀ a x y z, R a x y → S a y z → T a x z) {as : List α} {l m n : List β}
    (h1 : List.Forall₂ (fun p y => R p.1 p.2 y) (as.zip l) m)
    (h2 : List.Forall₂ (fun p y => S p.1 p.2 y) (as.zip m) n) (hl : as.length = l.length) :
    List.Forall₂ (fun p y => T p.1 p.2 y) (as.zip l) n := by
  induction as generalizing l m n with
  | nil => simp at h1; subst h1; simpa using h2
  | cons a as ih =>
    cases l with
    | nil => simp at hl
    | cons x l =>
      rw [List.zip_cons_cons] at h1 ⊢
      cases h1 with
      | cons hr h1 =>
        rw [List.zip_cons_cons] at h2
        cases h2 with
        | cons hs h2 => exact .cons (hT _ _ _ _ hr hs) (ih h1 h2 (by simpa using hl))

theorem onlyResoArms_ok {cut : Nat → Nat → Re → Re} {file : SpecFile Val Wv Im Re}
    {arms : List String} {idx : List Nat}
    (hh : ∀ arm ∈ arms, ∃ hdu, resoHdu file arm = .ok hdu ∧ ∀ j ∈ idx, j < hdu.length)
    {ss : List (ResoSpec Val Re)} (hlen : idx.length = ss.length) :
    ∃ ss', onlyResoArms cut file idx arms ss = .ok ss' ∧
      List.Forall₂ (fun (x : Nat × ResoSpec Val Re) s' => ResoSet cut file x.1 arms x.2 s')
        (idx.zip ss) ss' := by
  induction arms generalizing ss with
  | nil =>
    refine ⟨ss, rfl, ?_⟩
    have : (idx.zip ss).map Prod.snd = ss := List.map_snd_zip (by omega)
    conv_rhs => rw [← this]
    rw [List.forall₂_map_right_iff, List.forall₂_same]
    intro x _
    exact ⟨rfl, rfl, rfl, by simp, fun _ _ => rfl⟩
  | cons arm arms ih =>
    obtain ⟨hdu, h1, h2⟩ := hh arm (by simp)
    obtain ⟨ss', h3, h4⟩ := setResoAll_ok (cut := cut) h1 h2 hlen
    have hl' : idx.length = ss'.length := by
      have := h4.length_eq
      rw [List.length_zip] at this
      omega
    obtain ⟨ss'', h5, h6⟩ := ih (fun a ha => hh a (by simp [ha])) hl'
    refine ⟨ss'', by simp [onlyResoArms, h1, h3, h5], ?_⟩
    exact forall₂_zip_trans (R := fun j s t => ResoSet cut file j [arm] s t)
      (S := fun j s t => ResoSet cut file j arms s t)
      (T := fun j s t => ResoSet cut file j (arm :: arms) s t)
      (fun _ _ _ _ h1 h2 => resoSet_trans h1 h2) h4 h6 hlen

/-- Group level: with all targets in the file, every spectrum gets the row of its own target. -/
theorem readOnlyReso_ok {cut : Nat → Nat → Re → Re} {file : SpecFile Val Wv Im Re}
    {arms : List String} {ids : List Val} (hs : ids.Pairwise (· < ·))
    (hall : ∀ x ∈ ids, x ∈ file.fibermap.map (· "TARGETID"))
    (hh : ∀ arm ∈ arms, ∃ hdu, resoHdu file arm = .ok hdu ∧ hdu.length = file.fibermap.length)
    {ss : List (ResoSpec Val Re)} (hids : ss.map (·.targetid) = ids) :
    ∃ ss', readOnlyReso cut ids (some file) arms ss = .ok ss' ∧
      List.Forall₂ (fun s s' => ∃ i, fileTarget file i = some s.targetid ∧
        ResoSet cut file i arms s s') ss ss' := by
  have hv : intersectVals (file.fibermap.map (· "TARGETID")) ids = ids := by
    rw [intersectVals_eq_filter _ hs, List.filter_eq_self]
    intro x hx; simpa using hall x hx
  have hidx : intersectIdx₁ (file.fibermap.map (· "TARGETID")) ids =
      ss.map (fun s => (file.fibermap.map (· "TARGETID")).idxOf s.targetid) := by
    unfold intersectIdx₁
    rw [hv, ← hids, List.map_map]; rfl
  have hmem : ∀ s ∈ ss, s.targetid ∈ file.fibermap.map (· "TARGETID") := by
    intro s hs'
    exact hall _ (hids ▸ List.mem_map_of_mem hs')
  unfold readOnlyReso
  simp only [hidx]
  obtain ⟨ss', h1, h2⟩ := onlyResoArms_ok (cut := cut) (file := file) (arms := arms)
    (idx := ss.map (fun s => (file.fibermap.map (· "TARGETID")).idxOf s.targetid)) (ss := ss) (by
      intro arm ha
      obtain ⟨hdu, e1, e2⟩ := hh arm ha
      refine ⟨hdu, e1, ?_⟩
      intro j hj
      obtain ⟨s, hs', rfl⟩ := List.mem_map.mp hj
      have := List.idxOf_lt_length_of_mem (hmem s hs')
      rw [List.length_map] at this
      omega) (by simp)
  refine ⟨ss', h1, ?_⟩
  have hzip : (ss.map (fun s => (file.fibermap.map (· "TARGETID")).idxOf s.targetid)).zip ss =
      ss.map (fun s => ((file.fibermap.map (· "TARGETID")).idxOf s.targetid, s)) := by
    clear h2 h1 hidx hids hmem
    induction ss with
    | nil => rfl
    | cons s ss ih => simp [ih]
  rw [hzip, List.forall₂_map_left_iff] at h2
  have h3 : List.Forall₂ (fun s s' => s ∈ ss ∧
      ResoSet cut file ((file.fibermap.map (· "TARGETID")).idxOf s.targetid) arms s s') ss ss' := by
    have : ∀ {l : List (ResoSpec Val Re)} {m}, (∀ x ∈ l, x ∈ ss) →
        List.Forall₂ (fun s s' =>
          ResoSet cut file ((file.fibermap.map (· "TARGETID")).idxOf s.targetid) arms s s') l m →
        List.Forall₂ (fun s s' => s ∈ ss ∧
          ResoSet cut file ((file.fibermap.map (· "TARGETID")).idxOf s.targetid) arms s s') l m := by
      intro l m hl h
      induction h with
      | nil => exact .nil
      | cons hr _ ih =>
        exact .cons ⟨hl _ (by simp), hr⟩ (ih (fun x hx => hl x (by simp [hx])))
    exact this (fun x hx => hx) h2
  refine h3.imp ?_
  rintro s s' ⟨hsm, h⟩
  refine ⟨_, ?_, h⟩
  have hlt := List.idxOf_lt_length_of_mem (hmem s hsm)
  have := List.getElem_idxOf hlt
  unfold fileTarget
  rw [← List.getElem?_map, List.getElem?_eq_getElem hlt, this]

theorem slice_length {α : Type} {l : List α} {i j : Nat} (hij : i ≤ j) (hj : j ≤ l.length) :
    (slice l i j).length = j - i := by
  simp [slice]; omega

theorem slice_getElem? {α : Type} {l : List α} {i j k : Nat} (hk : k < j - i) :
    (slice l i j)[k]? = l[i + k]? := by
  unfold slice
  rw [List.getElem?_drop, List.getElem?_take, if_pos (by omega)]

theorem setSlice_length {α : Type} {l new : List α} {i j : Nat} (hij : i ≤ j) (hj : j ≤ l.length)
    (hn : new.length = j - i) : (setSlice l i j new).length = l.length := by
  simp [setSlice]; omega

theorem setSlice_getElem? {α : Type} {l new : List α} {i j : Nat} (hij : i ≤ j) (hj : j ≤ l.length)
    (hn : new.length = j - i) (k : Nat) :
    (setSlice l i j new)[k]? = if k < i then l[k]? else if k < j then new[k - i]? else l[k]? := by
  unfold setSlice
  rw [Nat.max_eq_right hij]
  have h1 : (l.take i).length = i := by simp; omega
  by_cases hk : k < i
  · rw [if_pos hk, List.append_assoc, List.getElem?_append_left (by omega), List.getElem?_take,
      if_pos hk]
  · rw [if_neg hk]
    by_cases hk2 : k < j
    · rw [if_pos hk2, List.append_assoc, List.getElem?_append_right (by omega), h1,
        List.getElem?_append_left (by omega)]
    · rw [if_neg hk2, List.getElem?_append_right (by simp; omega), List.getElem?_drop]
      congr 1
      simp; omega

/-- The loop over groups: positions before `st` are kept, and each position from `st` on is treated
as its group says. -/
theorem resoGroups_ok {cut : Nat → Nat → Re → Re}
    {files : Val → Val → Option (SpecFile Val Wv Im Re)} {arms : List String}
    {cat : List (Row Val)} {Q : Row Val → ResoSpec Val Re → ResoSpec Val Re → Prop}
    {is : List Nat} {st : Nat} {ss : List (ResoSpec Val Re)}
    (hgrp : ∀ g ∈ splitFrom cat st is, ∀ sl : List (ResoSpec Val Re),
      sl.map (·.targetid) = g.map (fun r : Row Val => r "TARGETID") → ∃ new,
        (do let r ← firstRow g
            readOnlyReso cut (g.map (fun r : Row Val => r "TARGETID")) (files (r "SURVEY") (r "HPXPIXEL")) arms sl) =
          .ok new ∧ new.map (·.targetid) = sl.map (·.targetid) ∧
        ∀ (k : Nat) (r : Row Val) s, g[k]? = some r → sl[k]? = some s →
          ∃ s', new[k]? = some s' ∧ Q r s s')
    (hsort : (st :: is).Pairwise (· ≤ ·)) (hle : ∀ i ∈ st :: is, i ≤ cat.length)
    (hss : ss.map (·.targetid) = cat.map (· "TARGETID")) :
    ∃ out, resoGroups cut files arms (splitFrom cat st is) (st :: is ++ [ss.length]) ss = .ok out ∧
      out.length = ss.length ∧ (∀ k < st, out[k]? = ss[k]?) ∧
      ∀ (k : Nat) (r : Row Val) s, st ≤ k → cat[k]? = some r → ss[k]? = some s →
        ∃ s', out[k]? = some s' ∧ Q r s s' := by
  have hlen : ss.length = cat.length := by
    have := congrArg List.length hss
    simpa using this
  have step : ∀ (i2 : Nat), st ≤ i2 → i2 ≤ cat.length →
      (slice ss st i2).map (·.targetid) = (slice cat st i2).map (· "TARGETID") := by
    intro i2 _ _
    unfold slice
    rw [List.map_drop, List.map_take, List.map_drop, List.map_take, hss]
  induction is generalizing st ss with
  | nil =>
    have hst : st ≤ cat.length := hle st (by simp)
    have hd : slice cat st ss.length = cat.drop st := by
      unfold slice; rw [hlen, List.take_length]
    obtain ⟨new, h1, h2, h3⟩ := hgrp (cat.drop st) (by simp [splitFrom])
      (slice ss st ss.length) (by
        rw [step _ (by omega) (by omega), hd])
    have hnl : new.length = ss.length - st := by
      have := congrArg List.length h2
      rw [List.length_map, List.length_map] at this
      rw [this, slice_length (by omega) (by omega)]
    refine ⟨setSlice ss st ss.length new, ?_, ?_, ?_, ?_⟩
    · simp only [splitFrom, List.cons_append, List.nil_append, resoGroups]
      cases hf : firstRow (cat.drop st) with
      | error e => rw [hf] at h1; simp at h1
      | ok r =>
        rw [hf] at h1
        simp only [except_bind_ok] at h1 ⊢
        rw [h1]
        rfl
    · exact setSlice_length (by omega) (by omega) hnl
    · intro k hk
      rw [setSlice_getElem? (by omega) (by omega) hnl, if_pos hk]
    · intro k r s hk hr hs
      have hk2 : k < ss.length := (List.getElem?_eq_some_iff.mp hs).1
      obtain ⟨s', h4, h5⟩ := h3 (k - st) r s
        (by rw [List.getElem?_drop]; rw [show st + (k - st) = k by omega]; exact hr)
        (by rw [slice_getElem? (by omega), show st + (k - st) = k by omega]; exact hs)
      refine ⟨s', ?_, h5⟩
      rw [setSlice_getElem? (by omega) (by omega) hnl, if_neg (by omega), if_pos hk2, h4]
  | cons i is ih =>
    have hst : st ≤ i := (List.pairwise_cons.mp hsort).1 i (by simp)
    have hi : i ≤ cat.length := hle i (by simp)
    obtain ⟨new, h1, h2, h3⟩ := hgrp (slice cat st i) (by simp [splitFrom])
      (slice ss st i) (step i hst hi)
    have hnl : new.length = i - st := by
      have := congrArg List.length h2
      rw [List.length_map, List.length_map] at this
      rw [this, slice_length (by omega) (by omega)]
    have hss' : (setSlice ss st i new).map (·.targetid) = cat.map (· "TARGETID") := by
      rw [← hss]
      unfold setSlice
      rw [List.map_append, List.map_append, h2, ← List.map_append, ← List.map_append]
      congr 1
      unfold slice
      rw [Nat.max_eq_right hst]
      conv_rhs => rw [← List.take_append_drop i ss]
      congr 1
      conv_rhs => rw [← List.take_append_drop st (ss.take i)]
      rw [List.take_take, Nat.min_eq_left hst]
    have hl' : (setSlice ss st i new).length = ss.length :=
      setSlice_length hst (by omega) hnl
    obtain ⟨out, h4, h5, h6, h7⟩ := ih (st := i) (ss := setSlice ss st i new)
      (fun g hg => hgrp g (by simp [splitFrom, hg]))
      (List.pairwise_cons.mp hsort).2 (fun x hx => hle x (List.mem_cons_of_mem _ hx)) hss'
      (by omega) (by
        intro i2 _ _
        unfold slice
        rw [List.map_drop, List.map_take, List.map_drop, List.map_take, hss'])
    refine ⟨out, ?_, by omega, ?_, ?_⟩
    · simp only [splitFrom, List.cons_append, resoGroups]
      cases hf : firstRow (slice cat st i) with
      | error e => rw [hf] at h1; simp at h1
      | ok r =>
        rw [hf] at h1
        simp only [except_bind_ok] at h1 ⊢
        rw [h1]
        simp only [except_bind_ok]
        rw [hl'] at h4
        exact h4
    · intro k hk
      rw [h6 k (by omega), setSlice_getElem? hst (by omega) hnl, if_pos hk]
    · intro k r s hk hr hs
      by_cases hki : k < i
      · obtain ⟨s', h8, h9⟩ := h3 (k - st) r s
          (by rw [slice_getElem? (by omega), show st + (k - st) = k by omega]; exact hr)
          (by rw [slice_getElem? (by omega), show st + (k - st) = k by omega]; exact hs)
        refine ⟨s', ?_, h9⟩
        rw [h6 k hki, setSlice_getElem? hst (by omega) hnl, if_neg (by omega), if_pos hki, h8]
      · refine h7 k r s (by omega) hr ?_
        rw [setSlice_getElem? hst (by omega) hnl, if_neg (by omega), if_neg hki, hs]

end Verif.Proofs
