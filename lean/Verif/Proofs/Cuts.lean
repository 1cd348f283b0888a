import Verif.Proofs.SelectCoadd

/-! Lemmas for the cuts: redshift and pixel size of a spectrum never change; the cut on `rsnr` can be made later. -/

namespace Verif.Proofs
open Verif.Np Verif.Model Verif.Spec List Spectrum

variable {K : Type} [Field K] [LinearOrder K] [FloorRing K]

/-- Redshift and pixel size are the same. -/
def SameScale (s t : Spectrum K) : Prop := t.z = s.z ∧ t.dwave = s.dwave

omit [Field K] [LinearOrder K] [FloorRing K] in
theorem SameScale.trans {s t u : Spectrum K} (h : SameScale s t) (g : SameScale t u) : SameScale s u :=
  ⟨g.1.trans h.1, g.2.trans h.2⟩

omit [Field K] [LinearOrder K] [FloorRing K] in
theorem foldl_sameScale {α : Type} {f : Spectrum K → α → Spectrum K} (h : ∀ t x, SameScale t (f t x)) (l : List α)
    (s : Spectrum K) : SameScale s (l.foldl f s) := by
  induction l generalizing s with
  | nil => exact ⟨rfl, rfl⟩
  | cons x l ih => exact (h s x).trans (ih _)

theorem masks_sameScale (dlaFlux : K → K → K → K) (row : MaskRow K) (m : List (Masker K)) (s : Spectrum K) :
    SameScale s (applyMasks dlaFlux row m s) := by
  have hd : ∀ t : Spectrum K, SameScale t (t.dropShortArms 0 0 0) := by
    intro t
    unfold dropShortArms
    refine foldl_sameScale ?_ _ _
    exact fun t x => ⟨rfl, rfl⟩
  have hm : ∀ (t : Spectrum K) (m : Masker K), SameScale t (m.apply dlaFlux row t) := by
    intro t m
    cases m with
    | sky lines =>
      change SameScale t (skyApply lines t)
      unfold skyApply
      refine foldl_sameScale ?_ _ _
      exact fun t x => ⟨rfl, rfl⟩
    | bal =>
      change SameScale t (balApply row t)
      unfold balApply
      split
      · exact ⟨rfl, rfl⟩
      · refine foldl_sameScale ?_ _ _
        exact fun t x => ⟨rfl, rfl⟩
    | dla d =>
      change SameScale t (dlaApply dlaFlux d row t)
      unfold dlaApply
      split
      · exact ⟨rfl, rfl⟩
      · refine foldl_sameScale ?_ _ _
        exact fun t x => ⟨rfl, rfl⟩
  cases m with
  | nil => exact ⟨rfl, rfl⟩
  | cons m l =>
    exact (foldl_sameScale (f := fun t m => Masker.apply dlaFlux row t m) hm (m :: l) s).trans (hd _)

theorem treatOne_sameScale (C : SelectCfg K) (ids : List Int) (x : ReadSpec K) :
    SameScale x.spec (treatOne C ids x).spec := by
  have h1 : SameScale x.spec (etaOne C x.spec) := by
    unfold etaOne
    split
    · refine foldl_sameScale ?_ _ _
      exact fun t x => ⟨rfl, rfl⟩
    · exact ⟨rfl, rfl⟩
  have h2 : ∀ t : Spectrum K, SameScale t (fluxOne C t) := by
    intro t
    unfold fluxOne
    split
    · refine foldl_sameScale ?_ _ _
      exact fun t x => ⟨rfl, rfl⟩
    · exact ⟨rfl, rfl⟩
  exact (h1.trans (h2 _)).trans (masks_sameScale _ _ _ _)

theorem setForest_sameScale (C : SelectCfg K) (x : ReadSpec K) : SameScale x.spec (C.setForest x).spec := by
  have h := setForestRegion_sameData C.sqrt C.eps x.spec C.wave1 C.wave2 C.forestW1 C.forestW2
  exact ⟨h.z, h.dwave⟩

theorem coadd_sameScale {C : SelectCfg K} {x y : ReadSpec K} (h : C.coadd x = .ok y) :
    SameScale x.spec y.spec ∧ y.rsnr = x.rsnr := by
  unfold SelectCfg.coadd at h
  obtain ⟨s, hs, h⟩ := except_bind_eq_ok.mp h
  cases h
  refine ⟨?_, rfl⟩
  change SameScale x.spec s
  unfold coaddArmsForest at hs
  obtain ⟨g, -, hs⟩ := except_bind_eq_ok.mp hs
  obtain ⟨fi, -, hs⟩ := except_bind_eq_ok.mp hs
  obtain ⟨ct, -, hs⟩ := except_bind_eq_ok.mp hs
  obtain ⟨r, -, hs⟩ := except_bind_eq_ok.mp hs
  cases hs
  have h1 : ∀ (t : Spectrum K) v e, SameScale t (t.setForestWeight v e) := by
    intro t v e
    unfold setForestWeight
    split <;> exact ⟨rfl, rfl⟩
  have h2 : ∀ (t : Spectrum K) a, SameScale t (t.setSmoothForestivar C.smooth a) := by
    intro t a
    unfold setSmoothForestivar
    split <;> exact ⟨rfl, rfl⟩
  exact (SameScale.trans (t := x.spec.replaceForest (linspace g.1 g.2.1 g.2.2) fi.1 fi.2 ct r) ⟨rfl, rfl⟩
    (h2 _ _)).trans (h1 _ _ _)

theorem mem_of_mapM {α β E : Type} {f : α → Except E β} {l : List α} {m : List β} (h : l.mapM f = .ok m) {y : β}
    (hy : y ∈ m) : ∃ x ∈ l, f x = .ok y := by
  have h := mapM_ok_inv h
  obtain ⟨i, hi, rfl⟩ := List.mem_iff_getElem.mp hy
  have hl := h.length_eq
  exact ⟨l[i]'(by omega), List.getElem_mem _, h.get (by omega) hi⟩

/-- If a function keeps a condition, the elements can be selected before or after. -/
theorem mapM_filter {α β E : Type} {f : α → Except E β} {p : α → Bool} {q : β → Bool}
    (h : ∀ x y, f x = .ok y → q y = p x) {l : List α} {m : List β} (hm : l.mapM f = .ok m) :
    (l.filter p).mapM f = .ok (m.filter q) := by
  induction l generalizing m with
  | nil =>
    cases hm
    rfl
  | cons x l ih =>
    rw [List.mapM_cons] at hm
    obtain ⟨y, hy, hm⟩ := except_bind_eq_ok.mp hm
    obtain ⟨m', hm', hm⟩ := except_bind_eq_ok.mp hm
    cases hm
    have := ih hm'
    cases hp : p x with
    | true =>
      rw [List.filter_cons_of_pos hp, List.filter_cons_of_pos ((h x y hy).trans hp), List.mapM_cons, hy, this]
      rfl
    | false =>
      rw [List.filter_cons_of_neg (by simp [hp]), List.filter_cons_of_neg (by simp [h x y hy, hp]), this]

end Verif.Proofs
