import Verif.Spec.RowOrder
import Verif.Spec.Catalog
import Verif.Spec.Io
import Verif.Props.Catalog
import Verif.Proofs.Masks
import Mathlib.Data.Fintype.Card

/-!
# Lemmas on the order of rows in files
-/

namespace Verif.Proofs
open Verif.Model Verif.Np Verif.Spec List

/-! ### Tables -/

theorem _root_.Verif.Spec.Moved.length_eq {α : Type} {σ : Equiv.Perm Nat} {l l' : List α} (h : Moved σ l l') :
    l'.length = l.length := by
  have h1 : ∀ i, i < l'.length ↔ σ i < l.length := by
    intro i
    have := h i
    constructor
    · intro hi
      rw [List.getElem?_eq_getElem hi] at this
      exact (List.getElem?_eq_some_iff.mp this.symm).1
    · intro hi
      rw [List.getElem?_eq_getElem hi] at this
      exact (List.getElem?_eq_some_iff.mp this).1
  apply le_antisymm
  · have hc := Fintype.card_le_of_injective (fun i : Fin l'.length => (⟨σ i.1, (h1 i.1).mp i.2⟩ : Fin l.length))
      (fun a b hab => Fin.ext (σ.injective (Fin.ext_iff.mp hab)))
    simpa using hc
  · have hc := Fintype.card_le_of_injective
      (fun i : Fin l.length => (⟨σ.symm i.1, (h1 _).mpr (by rw [Equiv.apply_symm_apply]; exact i.2)⟩ : Fin l'.length))
      (fun a b hab => Fin.ext (σ.symm.injective (Fin.ext_iff.mp hab)))
    simpa using hc

theorem _root_.Verif.Spec.Moved.map {α β : Type} {σ : Equiv.Perm Nat} {l l' : List α} (h : Moved σ l l') (f : α → β) :
    Moved σ (l.map f) (l'.map f) := by
  intro i
  rw [List.getElem?_map, List.getElem?_map, h i]

theorem _root_.Verif.Spec.Moved.mem {α : Type} {σ : Equiv.Perm Nat} {l l' : List α} (h : Moved σ l l') (x : α) :
    x ∈ l' ↔ x ∈ l := by
  rw [List.mem_iff_getElem?, List.mem_iff_getElem?]
  constructor
  · rintro ⟨i, hi⟩
    exact ⟨σ i, by rw [← h i]; exact hi⟩
  · rintro ⟨i, hi⟩
    exact ⟨σ.symm i, by rw [h, Equiv.apply_symm_apply]; exact hi⟩

/-- Positions of an element in a list without duplicates and in the moved list. -/
theorem _root_.Verif.Spec.Moved.index {α : Type} {σ : Equiv.Perm Nat} {l l' : List α} (h : Moved σ l l') (hn : l.Nodup)
    {i j : Nat} {x : α} (hi : l[i]? = some x) (hj : l'[j]? = some x) : i = σ j := by
  have h2 := h j
  rw [hj] at h2
  obtain ⟨hi1, hi2⟩ := List.getElem?_eq_some_iff.mp hi
  obtain ⟨hj1, hj2⟩ := List.getElem?_eq_some_iff.mp h2.symm
  exact (List.Nodup.getElem_inj_iff hn).mp (hi2.trans hj2.symm)

theorem _root_.Verif.Spec.Moved.nodup {α : Type} {σ : Equiv.Perm Nat} {l l' : List α} (h : Moved σ l l') (hn : l.Nodup) :
    l'.Nodup := by
  refine List.nodup_iff_injective_get.mpr ?_
  intro a b hab
  have ha : l'[a.1]? = some (l'.get a) := by simp
  have hb : l'[b.1]? = some (l'.get a) := by rw [hab]; simp
  have h1 := h.index hn (i := σ a.1) (by rw [← h]; exact ha) hb
  exact Fin.ext (σ.injective h1)

/-- Lists with the same keys, and equal elements for equal keys, are equal. -/
theorem ext_of_map {α κ : Type} {f : α → κ} : ∀ {l l' : List α}, l.map f = l'.map f →
    (∀ x ∈ l, ∀ y ∈ l', f x = f y → x = y) → l = l'
  | [], [], _, _ => rfl
  | [], _ :: _, h, _ => by simp at h
  | _ :: _, [], h, _ => by simp at h
  | a :: l, b :: l', h, hp => by
    simp only [List.map_cons, List.cons.injEq] at h
    rw [hp a (by simp) b (by simp) h.1,
      ext_of_map h.2 (fun x hx y hy => hp x (by simp [hx]) y (by simp [hy]))]

/-! ### Spectra files -/

section Files
variable {Val Wv Im Re Co : Type} [LinearOrder Val]

omit [LinearOrder Val] in
theorem SameFile.ids {f g : SpecFile Val Wv Im Re} {σ : Equiv.Perm Nat} (h : Moved σ f.fibermap g.fibermap) :
    Moved σ (f.fibermap.map (fun r => r "TARGETID")) (g.fibermap.map (fun r => r "TARGETID")) := h.map _

omit [LinearOrder Val] in
theorem SameFile.fileOk {f g : SpecFile Val Wv Im Re} (h : SameFile f g) {arms : List String} (hf : FileOk f arms) :
    FileOk g arms := by
  obtain ⟨σ, hm, ha⟩ := h
  have key : ∀ arm h, f.arms arm = some h → ∃ k, g.arms arm = some k ∧ ArmMoved σ h k := by
    intro arm h hh
    have := ha arm
    rw [hh] at this
    cases hk : g.arms arm with
    | none => rw [hk] at this; cases this
    | some k => rw [hk] at this; cases this with | some r => exact ⟨k, rfl, r⟩
  have key' : ∀ arm k, g.arms arm = some k → ∃ h, f.arms arm = some h ∧ ArmMoved σ h k := by
    intro arm h hh
    have := ha arm
    rw [hh] at this
    cases hk : f.arms arm with
    | none => rw [hk] at this; cases this
    | some k => rw [hk] at this; cases this with | some r => exact ⟨k, rfl, r⟩
  refine ⟨fun arm harm => ?_, ?_⟩
  · obtain ⟨h, h1, h2, h3, h4, h5⟩ := hf.images arm harm
    obtain ⟨k, hk, hr⟩ := key arm h h1
    refine ⟨k, hk, by rw [hr.flux.length_eq, h2, hm.length_eq], by rw [hr.ivar.length_eq, h3, hm.length_eq],
      by rw [hr.mask.length_eq, h4, hm.length_eq], fun r hr' => ?_⟩
    have hrr := hr.reso
    rw [hr'] at hrr
    cases hh : h.reso with
    | none => rw [hh] at hrr; cases hrr
    | some r0 =>
      rw [hh] at hrr
      cases hrr with
      | some hm' => rw [hm'.length_eq, h5 r0 hh, hm.length_eq]
  · rcases hf.reso with h0 | h0
    · left
      intro arm harm k hk
      obtain ⟨h, hh, hr⟩ := key' arm k hk
      have h1 := h0 arm harm h hh
      have hrr := hr.reso
      rw [h1] at hrr
      cases hk2 : k.reso with
      | none => rfl
      | some x => rw [hk2] at hrr; cases hrr
    · right
      intro arm harm k hk
      obtain ⟨h, hh, hr⟩ := key' arm k hk
      obtain ⟨r, h1⟩ := h0 arm harm h hh
      have hrr := hr.reso
      rw [h1] at hrr
      cases hk2 : k.reso with
      | none => rw [hk2] at hrr; cases hrr
      | some x => exact ⟨x, rfl⟩

theorem SameFile.inFile {f g : SpecFile Val Wv Im Re} (h : SameFile f g) (t : Val) :
    inFile (some g) t = inFile (some f) t := by
  obtain ⟨σ, hm, -⟩ := h
  unfold Verif.Spec.inFile
  simp only [(SameFile.ids hm).mem]

omit [LinearOrder Val] in
theorem SameFile.nodup {f g : SpecFile Val Wv Im Re} (h : SameFile f g)
    (hn : (f.fibermap.map (fun r => r "TARGETID")).Nodup) : (g.fibermap.map (fun r => r "TARGETID")).Nodup := by
  obtain ⟨σ, hm, -⟩ := h
  exact (SameFile.ids hm).nodup hn

omit [LinearOrder Val] in
/-- The data of a target, apart from the resolution, are the same in both files. -/
theorem arms_unique {f g : SpecFile Val Wv Im Re} (h : SameFile f g)
    (hn : (f.fibermap.map (fun r => r "TARGETID")).Nodup) {arms : List String} {i j : Nat} {t : Val}
    {s s' : RawSpectrum Val Wv Im Re Co} (hi : fileTarget f i = some t) (hj : fileTarget g j = some t)
    (hs : HasFileRow f arms i s) (hs' : HasFileRow g arms j s')
    (hr : ∀ a ∈ s.arms, ∀ b ∈ s'.arms, a.arm = b.arm → a.reso = b.reso) : s.arms = s'.arms := by
  obtain ⟨σ, hm, ha⟩ := h
  have hij : i = σ j := (SameFile.ids hm).index hn (x := t) (by simpa [fileTarget] using hi) (by simpa [fileTarget] using hj)
  refine ext_of_map (f := (·.arm)) (hs.1.trans hs'.1.symm) ?_
  intro a haa b hb hab
  have hab : a.arm = b.arm := hab
  obtain ⟨h, h1, h2, h3, h4, h5⟩ := hs.2 a haa
  obtain ⟨k, k1, k2, k3, k4, k5⟩ := hs'.2 b hb
  have hrel := ha a.arm
  rw [h1, hab, k1] at hrel
  cases hrel with
  | some hrel =>
    have e1 : a.flux = b.flux := by
      rw [hrel.flux j, ← hij, h3] at k3; exact Option.some.inj k3
    have e2 : a.ivar = b.ivar := by
      rw [hrel.ivar j, ← hij, h4] at k4; exact Option.some.inj k4
    have e3 : a.mask = b.mask := by
      rw [hrel.mask j, ← hij, h5] at k5; exact Option.some.inj k5
    have e4 : a.wave = b.wave := by rw [h2, k2, hrel.wave]
    have e5 := hr a haa b hb hab
    cases a
    cases b
    simp only at hab e1 e2 e3 e4 e5
    subst hab e1 e2 e3 e4 e5
    rfl

omit [LinearOrder Val] in
/-- The resolution matrix of a target is the same in both files. -/
theorem reso_unique {f g : SpecFile Val Wv Im Re} (h : SameFile f g)
    (hn : (f.fibermap.map (fun r => r "TARGETID")).Nodup) {arms : List String} {i j : Nat} {t : Val} {skip : Bool}
    {s s' : RawSpectrum Val Wv Im Re Co} (hi : fileTarget f i = some t) (hj : fileTarget g j = some t)
    (hs : HasFileRow f arms i s) (hr : HasFileReso f skip i s) (hr' : HasFileReso g skip j s') :
    ∀ a ∈ s.arms, ∀ b ∈ s'.arms, a.arm = b.arm → a.reso = b.reso := by
  obtain ⟨σ, hm, ha⟩ := h
  have hij : i = σ j := (SameFile.ids hm).index hn (x := t) (by simpa [fileTarget] using hi) (by simpa [fileTarget] using hj)
  intro a haa b hb hab
  obtain ⟨h, h1, -⟩ := hs.2 a haa
  have hrel := ha a.arm
  rw [h1] at hrel
  cases hk : g.arms a.arm with
  | none => rw [hk] at hrel; cases hrel
  | some k =>
    rw [hk] at hrel
    cases hrel with
    | some hrel =>
      rw [hr a haa h h1, hr' b hb k (by rw [← hab]; exact hk)]
      cases skip with
      | true => rfl
      | false =>
        have hrr := hrel.reso
        cases e1 : h.reso with
        | none =>
          rw [e1] at hrr
          cases e2 : k.reso with
          | none => rfl
          | some x => rw [e2] at hrr; cases hrr
        | some x =>
          rw [e1] at hrr
          cases e2 : k.reso with
          | none => rw [e2] at hrr; cases hrr
          | some y =>
            rw [e2] at hrr
            cases hrr with
            | some hrr => simp [hij, hrr j]

end Files

/-! ### Catalog -/

section Cat
variable {Val : Type} [LinearOrder Val]

theorem rowLe_antisymm {fs : List String} {r s : Row Val} (h1 : rowLe fs r s) (h2 : rowLe fs s r) :
    ∀ c ∈ fs, r c = s c := by
  induction fs with
  | nil => simp
  | cons c cs ih =>
    rcases rowLe_head h1 with a | ⟨e, a⟩
    · rcases rowLe_head h2 with b | ⟨e', b⟩
      · exact absurd (lt_trans a b) (lt_irrefl _)
      · rw [e'] at a; exact absurd a (lt_irrefl _)
    · rcases rowLe_head h2 with b | ⟨e', b⟩
      · rw [e] at b; exact absurd b (lt_irrefl _)
      · intro x hx
        rcases List.mem_cons.mp hx with rfl | hx
        · exact e
        · exact ih a b x hx

/-- Sorting lists with the same rows gives the same list if the rows are told apart by the fields compared. -/
theorem sorted_unique {fs : List String} {a b : List (Row Val)} (ha : a.Pairwise (fun r s => rowLe fs r s))
    (hb : b.Pairwise (fun r s => rowLe fs r s)) (hp : a ~ b)
    (hk : ∀ r ∈ a, ∀ s ∈ a, (∀ c ∈ fs, r c = s c) → r = s) : a = b :=
  List.Perm.eq_of_pairwise (fun r s hr hs h1 h2 =>
    hk r hr s (hp.mem_iff.mpr hs) (rowLe_antisymm h1 h2)) ha hb hp

end Cat

/-! ### Masks -/

section Masks
variable {K : Type} [Field K] [LinearOrder K]

theorem markRanges_perm {n : Nat} {a b : List (Nat × Nat)} (h : a ~ b) : markRanges n a = markRanges n b := by
  apply List.ext_getElem?
  intro i
  by_cases hi : i < n
  · rw [getElem?_markRanges hi, getElem?_markRanges hi]
    simp only [h.mem_iff]
  · rw [List.getElem?_eq_none (by rw [length_markRanges]; omega), List.getElem?_eq_none (by rw [length_markRanges]; omega)]

theorem skyRanges_perm {a b : List (SkyLine K)} (h : a ~ b) (z : K) (wave : List K) :
    skyRanges a z wave ~ skyRanges b z wave :=
  ((h.filter _).map _).append ((h.filter _).map _)

theorem skyApply_perm {a b : List (SkyLine K)} (h : a ~ b) (s : Spectrum K) : skyApply a s = skyApply b s := by
  unfold skyApply
  simp only [markRanges_perm (skyRanges_perm h s.z _)]

theorem allDlas_perm (dlaFlux : K → K → K → K) (wave : List K) {a b : List (DlaRow K)} (h : a ~ b) :
    allDlas dlaFlux wave a = allDlas dlaFlux wave b := by
  rw [allDlas_eq, allDlas_eq]
  exact List.map_congr_left fun w _ => (h.map (fun r => dlaFlux w r.z r.nhi)).prod_eq

theorem dlaApply_perm (dlaFlux : K → K → K → K) {a b : List (DlaRow K)} (h : a ~ b) (ids : Option (List Int)) (limit : K)
    (row : MaskRow K) (s : Spectrum K) :
    dlaApply dlaFlux (dlaInit a ids limit) row s = dlaApply dlaFlux (dlaInit b ids limit) row s := by
  have hl : localRows a ids ~ localRows b ids := by
    unfold localRows
    cases ids with
    | none => exact h
    | some l => exact h.filter _
  have hf := hl.filter (fun r => decide (r.targetid = row.targetid))
  obtain ⟨a1, a2⟩ := dlaInit_lookup a ids limit row.targetid
  obtain ⟨b1, b2⟩ := dlaInit_lookup b ids limit row.targetid
  unfold dlaApply
  cases ha : List.lookup row.targetid (dlaInit a ids limit).groups with
  | none =>
    cases hb : List.lookup row.targetid (dlaInit b ids limit).groups with
    | none => rfl
    | some g =>
      exfalso
      have h1 := (b1 g hb)
      rw [a2 ha] at hf
      exact h1.2 (List.Perm.nil_eq (h1.1.trans hf.symm).symm).symm
  | some g =>
    cases hb : List.lookup row.targetid (dlaInit b ids limit).groups with
    | none =>
      exfalso
      have h1 := (a1 g ha)
      rw [b2 hb] at hf
      exact h1.2 (List.Perm.nil_eq (h1.1.trans hf).symm).symm
    | some g' =>
      have hp : g ~ g' := (a1 g ha).1.trans (hf.trans (b1 g' hb).1.symm)
      simp only [dlaTransmission, allDlas_perm dlaFlux _ hp]
      rfl

end Masks
end Verif.Proofs
