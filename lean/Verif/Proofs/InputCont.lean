import Verif.Model.InputCont
import Verif.Proofs.Split
import Verif.Proofs.Io

/-!
# Lemmas on the reading of input continua
-/

namespace Verif.Proofs
open Verif Verif.Np Verif.Model Verif.Spec

variable {Val K : Type} [LinearOrder Val] [Zero K] [DecidableEq K]

/-- What is found for a spectrum. -/
def found (files : Val → Option (ContFile Val K)) (s : ContSpec Val) : Option (K × K × List K) :=
  match files s.pix with
  | none => none
  | some f => if f.wave1 = 0 ∨ s.targetid ∉ f.ids then none
    else some (f.wave1, f.dwave, f.continua[f.ids.idxOf s.targetid]?.getD [])

/-- The state of a spectrum after its group was read. -/
def after (files : Val → Option (ContFile Val K)) (specs : List (ContSpec Val)) (i : Nat) (c : ContState K) :
    ContState K :=
  match (specs[i]?).bind (found files) with
  | none => c
  | some d => ⟨true, some d⟩

omit [Zero K] [DecidableEq K] in
theorem foldl_appendOne (specs : List (ContSpec Val)) (w1 dw : K) (common : List Val) (continua : List (List K))
    (A : Nat → Option (K × K × List K))
    (is : List Nat) (hA : ∀ i ∈ is, ∀ st : Nat → ContState K, appendOne specs w1 dw common continua st i =
      match A i with
      | none => st
      | some d => Function.update st i ⟨true, some d⟩)
    (st : Nat → ContState K) (k : Nat) :
    is.foldl (appendOne specs w1 dw common continua) st k =
      if k ∈ is then (match A k with | none => st k | some d => ⟨true, some d⟩) else st k := by
  induction is generalizing st with
  | nil => simp
  | cons i is ih =>
    rw [List.foldl_cons, ih (fun j hj => hA j (List.mem_cons_of_mem _ hj)), hA i List.mem_cons_self]
    by_cases hki : k = i
    · subst hki
      cases hAk : A k with
      | none => simp
      | some d => simp
    · cases hAi : A i with
      | none => simp [hki]
      | some d => simp [hki, Function.update_of_ne hki]

theorem findIdx?_eq {l : List Val} {x : Val} (h : x ∈ l) :
    l.findIdx? (fun t => decide (t = x)) = some (l.idxOf x) := by
  rw [List.findIdx?_eq_some_iff_getElem]
  have hlt := List.idxOf_lt_length_iff.mpr h
  refine ⟨hlt, by simp, fun j hj => ?_⟩
  have := List.not_of_lt_findIdx (xs := l) (p := fun t => t == x) (i := j) hj
  simpa using this

theorem group_ok {files : Val → Option (ContFile Val K)} {specs : List (ContSpec Val)}
    {g : List (Nat × ContSpec Val)} (hne : g ≠ []) (hpix : ∀ x ∈ g, ∀ y ∈ g, x.2.pix = y.2.pix)
    (hg : ∀ x ∈ g, specs[x.1]? = some x.2)
    (hshape : ∀ x ∈ g, ∀ f, files x.2.pix = some f → f.ids.length = f.continua.length) (st : Nat → ContState K) :
    ∃ st', readContinuaGroup files specs st g = .ok st' ∧
      ∀ k, st' k = if k ∈ g.map Prod.fst then after files specs k (st k) else st k := by
  obtain ⟨⟨i0, s0⟩, g', rfl⟩ := List.exists_cons_of_ne_nil hne
  set g := (i0, s0) :: g' with hgdef
  have hp0 : ∀ x ∈ g, x.2.pix = s0.pix := fun x hx => hpix x hx (i0, s0) List.mem_cons_self
  unfold readContinuaGroup
  rw [hgdef]
  dsimp only
  rw [← hgdef]
  cases hf : files s0.pix with
  | none =>
    refine ⟨st, by simp [readContinuaOneFile], fun k => ?_⟩
    split
    · rename_i hk
      obtain ⟨x, hx, rfl⟩ := List.mem_map.mp hk
      unfold after
      rw [hg x hx, Option.bind_some]
      unfold found
      rw [hp0 x hx, hf]
    · rfl
  | some f =>
    have hsh := hshape (i0, s0) List.mem_cons_self f hf
    obtain ⟨c, hc⟩ := fancy_of_lt (l := f.continua) (idx := intersectIdx₁ f.ids (g.map (fun x => x.2.targetid))) (by
      intro i hi
      unfold intersectIdx₁ at hi
      obtain ⟨t, ht, rfl⟩ := List.mem_map.mp hi
      unfold intersectVals at ht
      rw [← hsh]
      exact List.idxOf_lt_length_iff.mpr (mem_uniqueVals.mp (List.mem_filter.mp ht).1))
    have hr : readContinuaOneFile (some f) (g.map (fun x => x.2.targetid)) =
        .ok (f.wave1, f.dwave, intersectVals f.ids (g.map (fun x => x.2.targetid)), c) := by
      unfold readContinuaOneFile
      simp only [hsh, ne_eq, not_true_eq_false, if_false, hc]
    rw [hr]
    refine ⟨_, rfl, fun k => ?_⟩
    by_cases h0 : f.wave1 = 0
    · rw [if_pos h0]
      split
      · rename_i hk
        obtain ⟨x, hx, rfl⟩ := List.mem_map.mp hk
        unfold after
        rw [hg x hx, Option.bind_some]
        unfold found
        rw [hp0 x hx, hf]
        simp [h0]
      · rfl
    · rw [if_neg h0]
      rw [foldl_appendOne specs f.wave1 f.dwave _ c (fun i => (specs[i]?).bind (found files))]
      · rfl
      · intro i hi st
        obtain ⟨x, hx, rfl⟩ := List.mem_map.mp hi
        have htid : x.2.targetid ∈ g.map (fun x => x.2.targetid) := List.mem_map_of_mem hx
        unfold appendOne
        rw [hg x hx]
        dsimp only
        rw [Option.bind_some]
        unfold found
        rw [hp0 x hx, hf]
        dsimp only
        by_cases hm : x.2.targetid ∈ f.ids
        · have hm' : x.2.targetid ∈ intersectVals f.ids (g.map (fun x => x.2.targetid)) := by
            unfold intersectVals
            rw [List.mem_filter, mem_uniqueVals]
            exact ⟨hm, decide_eq_true htid⟩
          have hk : (intersectIdx₁ f.ids (g.map (fun x => x.2.targetid)))[
              (intersectVals f.ids (g.map (fun x => x.2.targetid))).idxOf x.2.targetid]? =
              some (f.ids.idxOf x.2.targetid) := by
            unfold intersectIdx₁
            rw [List.getElem?_map, List.getElem?_eq_getElem (List.idxOf_lt_length_iff.mpr hm')]
            simp
          rw [findIdx?_eq hm', if_neg (by simp [h0, hm])]
          dsimp only
          rw [fancy_getElem? hc hk]
        · rw [if_pos (Or.inr hm)]
          have : List.findIdx? (fun t => decide (t = x.2.targetid))
              (intersectVals f.ids (g.map (fun x => x.2.targetid))) = none := by
            rw [List.findIdx?_eq_none_iff]
            intro t ht
            unfold intersectVals at ht
            have := mem_uniqueVals.mp (List.mem_filter.mp ht).1
            simp only [decide_eq_false_iff_not]
            rintro rfl
            exact hm this
          rw [this]

theorem groups_ok {files : Val → Option (ContFile Val K)} {specs : List (ContSpec Val)}
    (gs : List (List (Nat × ContSpec Val))) (hne : ∀ g ∈ gs, g ≠ [])
    (hpix : ∀ g ∈ gs, ∀ x ∈ g, ∀ y ∈ g, x.2.pix = y.2.pix)
    (hg : ∀ g ∈ gs, ∀ x ∈ g, specs[x.1]? = some x.2)
    (hshape : ∀ g ∈ gs, ∀ x ∈ g, ∀ f, files x.2.pix = some f → f.ids.length = f.continua.length)
    (st : Nat → ContState K) :
    ∃ st', readContinuaGroups files specs st gs = .ok st' ∧
      ∀ k, st' k = if k ∈ gs.flatten.map Prod.fst then after files specs k (st k) else st k := by
  induction gs generalizing st with
  | nil => exact ⟨st, rfl, by simp⟩
  | cons g gs ih =>
    obtain ⟨s1, h1, h2⟩ := group_ok (hne g List.mem_cons_self) (hpix g List.mem_cons_self) (hg g List.mem_cons_self)
      (hshape g List.mem_cons_self) st
    obtain ⟨s2, h3, h4⟩ := ih (fun g h => hne g (List.mem_cons_of_mem _ h)) (fun g h => hpix g (List.mem_cons_of_mem _ h))
      (fun g h => hg g (List.mem_cons_of_mem _ h)) (fun g h => hshape g (List.mem_cons_of_mem _ h)) s1
    refine ⟨s2, ?_, fun k => ?_⟩
    · rw [readContinuaGroups, h1]; exact h3
    · rw [h4, h2, List.flatten_cons, List.map_append]
      have idem : ∀ c, after files specs k (after files specs k c) = after files specs k c := by
        intro c
        unfold after
        split <;> simp_all
      by_cases a : k ∈ g.map Prod.fst <;> by_cases b : k ∈ gs.flatten.map Prod.fst <;>
        simp only [a, b, idem, List.mem_append, if_true, if_false, or_true, true_or, or_self]

/-- The first pass with a file of wrong shape ends the loop. -/
theorem groups_error {files : Val → Option (ContFile Val K)} {specs : List (ContSpec Val)}
    (gs : List (List (Nat × ContSpec Val))) (hne : ∀ g ∈ gs, g ≠ [])
    (hpix : ∀ g ∈ gs, ∀ x ∈ g, ∀ y ∈ g, x.2.pix = y.2.pix)
    (hg : ∀ g ∈ gs, ∀ x ∈ g, specs[x.1]? = some x.2)
    (hbad : ∃ g ∈ gs, ∃ x ∈ g, ∃ f, files x.2.pix = some f ∧ f.ids.length ≠ f.continua.length)
    (st : Nat → ContState K) : readContinuaGroups files specs st gs = .error .exception := by
  induction gs generalizing st with
  | nil => obtain ⟨g, h, -⟩ := hbad; cases h
  | cons g gs ih =>
    by_cases hb : ∃ x ∈ g, ∃ f, files x.2.pix = some f ∧ f.ids.length ≠ f.continua.length
    · obtain ⟨x, hx, f, hf, hl⟩ := hb
      obtain ⟨⟨i0, s0⟩, g', rfl⟩ := List.exists_cons_of_ne_nil (hne g List.mem_cons_self)
      have : files s0.pix = some f := by
        rw [← hf, hpix _ List.mem_cons_self x hx (i0, s0) List.mem_cons_self]
      rw [readContinuaGroups]
      unfold readContinuaGroup
      simp only [this, readContinuaOneFile, ne_eq, hl, not_false_eq_true, if_true]
    · push Not at hb
      obtain ⟨s1, h1, -⟩ := group_ok (hne g List.mem_cons_self) (hpix g List.mem_cons_self) (hg g List.mem_cons_self)
        hb st
      rw [readContinuaGroups, h1]
      refine ih (fun g h => hne g (List.mem_cons_of_mem _ h)) (fun g h => hpix g (List.mem_cons_of_mem _ h))
        (fun g h => hg g (List.mem_cons_of_mem _ h)) ?_ s1
      obtain ⟨g2, h2, x, hx, f, hf, hl⟩ := hbad
      rcases List.mem_cons.mp h2 with rfl | h2
      · exact absurd (hb x hx f hf) hl
      · exact ⟨g2, h2, x, hx, f, hf, hl⟩

/-- The sorted list of the spectra and its groups. -/
theorem sorted_groups {argsort : List (Lex (Val × Val)) → List Nat} (hA : ∀ k, IsArgsort k (argsort k))
    {specs : List (ContSpec Val)} (hne : specs ≠ []) :
    let sorted := (argsort (specs.map (fun s => toLex (s.pix, s.targetid)))).filterMap
      (fun i => (specs[i]?).map (fun s => (i, s)))
    IsGrouping (fun x => x.2.pix) sorted (splitByKey (fun x => x.2.pix) sorted) ∧
    (∀ x ∈ sorted, specs[x.1]? = some x.2) ∧ (∀ i s, specs[i]? = some s → (i, s) ∈ sorted) := by
  intro sorted
  have ha := hA (specs.map (fun s => toLex (s.pix, s.targetid)))
  have m1 : ∀ x ∈ sorted, specs[x.1]? = some x.2 := by
    intro x hx
    obtain ⟨i, -, hi⟩ := List.mem_filterMap.mp hx
    obtain ⟨s, hs, rfl⟩ := Option.map_eq_some_iff.mp hi
    exact hs
  have m2 : ∀ i s, specs[i]? = some s → (i, s) ∈ sorted := by
    intro i s hs
    refine List.mem_filterMap.mpr ⟨i, ?_, by rw [hs]; rfl⟩
    rw [ha.perm.mem_iff, List.mem_range, List.length_map]
    exact (List.getElem?_eq_some_iff.mp hs).1
  refine ⟨?_, m1, m2⟩
  refine splitByKey_isGrouping _ _ ?_ ?_
  · obtain ⟨s, l, rfl⟩ := List.exists_cons_of_ne_nil hne
    exact List.ne_nil_of_mem (m2 0 s rfl)
  · refine List.Pairwise.filterMap _ ?_ ha.sorted
    intro i j hij x hx y hy
    obtain ⟨s, hs, rfl⟩ := Option.map_eq_some_iff.mp hx
    obtain ⟨t, ht, rfl⟩ := Option.map_eq_some_iff.mp hy
    have := hij (toLex (s.pix, s.targetid)) (toLex (t.pix, t.targetid)) (by simp [hs]) (by simp [ht])
    rw [Prod.Lex.toLex_le_toLex] at this
    rcases this with h | h
    · exact h.le
    · exact h.1.le

end Verif.Proofs
