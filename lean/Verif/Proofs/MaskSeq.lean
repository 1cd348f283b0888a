import Verif.Proofs.Masks
import Verif.Proofs.Spectrum
import Mathlib.Algebra.BigOperators.Group.List.Basic

/-! Sequences of masks. -/

namespace Verif.Proofs
open Verif.Np Verif.Model Verif.Spec List Spectrum

variable {K : Type} [Field K] [LinearOrder K]

/-- Values multiplied by a function of the wavelength. -/
def scaled (a : K → K) (wave y : List K) : List K := List.zipWith (fun w x => x * a w) wave y

theorem length_scaled (a : K → K) {wave y : List K} (h : y.length = wave.length) :
    (scaled a wave y).length = wave.length := by
  unfold scaled; simp [h]

theorem scaled_scaled (a b : K → K) (wave y : List K) :
    scaled b wave (scaled a wave y) = scaled (fun w => a w * b w) wave y := by
  unfold scaled
  induction wave generalizing y with
  | nil => simp
  | cons w ws ih =>
    cases y with
    | nil => simp
    | cons x y => simp only [List.zipWith_cons_cons, ih, mul_assoc]

theorem scaled_one (wave y : List K) (h : y.length = wave.length) :
    scaled (fun _ => 1) wave y = y := by
  unfold scaled
  induction wave generalizing y with
  | nil => simp at h; simp [h]
  | cons w ws ih =>
    cases y with
    | nil => simp at h
    | cons x y => rw [List.zipWith_cons_cons, ih _ (by simpa using h), mul_one]

theorem maskedAt_eq_scaled (p : K → Prop) [DecidablePred p] (wave y : List K) :
    maskedAt p wave y = scaled (fun w => if p w then 0 else 1) wave y := by
  unfold maskedAt scaled
  congr 1
  funext w x
  by_cases h : p w <;> simp [h]

/-- Changes of flux and ivar that keep the lengths keep the forest consistent. -/
theorem aligned_updAll {F G : List K → List K → List K} {s : Spectrum K} (hs : Aligned s)
    (hF : ∀ w y, y.length = w.length → (F w y).length = w.length)
    (hG : ∀ w y, y.length = w.length → (G w y).length = w.length) : Aligned (updAll F G s) := by
  have hik : (updAll F G s).fivar.keys = s.fwave.keys := by
    unfold updAll; simp only [keys_mapVals]; exact hs.ivarKeys
  have hiv : ∀ arm w, s.fwave.lookup arm = some w →
      ((updAll F G s).fivar.arr arm).length = w.length := by
    intro arm w hw
    have hm : arm ∈ s.fivar.keys := by rw [hs.ivarKeys]; exact mem_keys_of_lookup hw
    unfold updAll
    simp only
    rw [arr_mapVals hm, arr_of_lookup hw]
    exact hG w _ (hs.ivar arm w hw)
  have hfx : ∀ arm w, s.fwave.lookup arm = some w →
      ((updAll F G s).fflux.arr arm).length = w.length := by
    intro arm w hw
    have hm : arm ∈ s.fflux.keys := by rw [hs.fluxKeys]; exact mem_keys_of_lookup hw
    unfold updAll
    simp only
    rw [arr_mapVals hm, arr_of_lookup hw]
    exact hF w _ (hs.flux arm w hw)
  have hsm : (updAll F G s).fivarSm.keys = s.fwave.keys ∧ ∀ arm w, s.fwave.lookup arm = some w →
      ((updAll F G s).fivarSm.arr arm).length = w.length := by
    cases h : s.ivarSm with
    | none =>
      have : (updAll F G s).fivarSm = (updAll F G s).fivar := by
        unfold fivarSm updAll; simp only [h]; rfl
      rw [this]; exact ⟨hik, hiv⟩
    | some d =>
      have : (updAll F G s).fivarSm = s.fivarSm := by
        unfold fivarSm updAll; simp only [h]; rfl
      rw [this]; exact ⟨hs.smKeys, hs.sm⟩
  have hwt : (updAll F G s).fweight.keys = s.fwave.keys ∧ ∀ arm w, s.fwave.lookup arm = some w →
      ((updAll F G s).fweight.arr arm).length = w.length := by
    cases h : s.weight with
    | none =>
      have : (updAll F G s).fweight = (updAll F G s).fivarSm := by
        unfold fweight; simp only [updAll, h]; rfl
      rw [this]; exact hsm
    | some d =>
      have : (updAll F G s).fweight = s.fweight := by
        unfold fweight updAll; simp only [h]; rfl
      rw [this]; exact ⟨hs.weightKeys, hs.weight⟩
  exact ⟨hs.nodup, by unfold updAll; simp only [keys_mapVals]; exact hs.fluxKeys, hik, hsm.1, hwt.1,
    hs.resoKeys, hs.sorted, hfx, hiv, hsm.2, hwt.2, hs.reso⟩

theorem mapVals_mapVals {α β γ : Type} (f : String → α → β) (g : String → β → γ) (d : Dict α) :
    (d.mapVals f).mapVals g = d.mapVals (fun a v => g a (f a v)) := by
  unfold Dict.mapVals
  rw [List.map_map]
  rfl

theorem updAll_updAll (F G F' G' : List K → List K → List K) (s : Spectrum K) :
    updAll F' G' (updAll F G s) = updAll (fun w y => F' w (F w y)) (fun w y => G' w (G w y)) s := by
  unfold updAll
  simp only [mapVals_mapVals]

/-- Factors of a DLA mask with the DLAs found for the target, if any. -/
def dlaFactors (dlaFlux : K → K → K → K) (limit z : K) (dlas : Option (List (DlaRow K))) :
    (K → K) × (K → K) :=
  match dlas with
  | none => (fun _ => 1, fun _ => 1)
  | some dlas =>
    (fun w => (corrected limit (if w < (1 + z) * (121567 / 100) then
        (dlas.map (fun r => dlaFlux w r.z r.nhi)).prod else 1) 1 0).1,
      fun w => (corrected limit (if w < (1 + z) * (121567 / 100) then
        (dlas.map (fun r => dlaFlux w r.z r.nhi)).prod else 1) 0 1).2)

/-- Factors by which a mask multiplies flux and ivar. -/
def factors (dlaFlux : K → K → K → K) (row : MaskRow K) (z : K) (m : Masker K) : (K → K) × (K → K) :=
  match m with
  | .sky lines => (fun w => if SkyMasked lines z w then 0 else 1,
      fun w => if SkyMasked lines z w then 0 else 1)
  | .bal => (fun w => if BalMasked row z w then 0 else 1, fun w => if BalMasked row z w then 0 else 1)
  | .dla m => dlaFactors dlaFlux m.limit z (List.lookup row.targetid m.groups)

theorem corrected_fst (limit t f v : K) :
    (corrected limit t f v).1 = f * (corrected limit t 1 0).1 := by
  unfold corrected
  split <;> simp [div_eq_mul_inv]

theorem corrected_snd (limit t f v : K) :
    (corrected limit t f v).2 = v * (corrected limit t 0 1).2 := by
  unfold corrected
  split <;> simp

theorem masker_apply_eq [IsStrictOrderedRing K] {s : Spectrum K} (hs : Aligned s) (hz : 0 < 1 + s.z)
    (dlaFlux : K → K → K → K) (row : MaskRow K) (m : Masker K) :
    m.apply dlaFlux row s = updAll (scaled (factors dlaFlux row s.z m).1)
      (scaled (factors dlaFlux row s.z m).2) s := by
  cases m with
  | sky lines =>
    change skyApply lines s = updAll (scaled (fun w => if SkyMasked lines s.z w then 0 else 1))
      (scaled (fun w => if SkyMasked lines s.z w then 0 else 1)) s
    rw [skyApply_eq hs hz]
    refine updAll_congr hs ?_ ?_ <;> intro _ _ _ _ _ <;> exact maskedAt_eq_scaled _ _ _
  | bal =>
    change balApply row s = updAll (scaled (fun w => if BalMasked row s.z w then 0 else 1))
      (scaled (fun w => if BalMasked row s.z w then 0 else 1)) s
    rw [balApply_eq hs]
    refine updAll_congr hs ?_ ?_ <;> intro _ _ _ _ _ <;> exact maskedAt_eq_scaled _ _ _
  | dla m =>
    change dlaApply dlaFlux m row s = updAll
      (scaled (dlaFactors dlaFlux m.limit s.z (List.lookup row.targetid m.groups)).1)
      (scaled (dlaFactors dlaFlux m.limit s.z (List.lookup row.targetid m.groups)).2) s
    cases hl : List.lookup row.targetid m.groups with
    | none =>
      unfold dlaApply dlaFactors
      rw [hl]
      simp only
      conv_lhs => rw [← updAll_id (s := s)]
      refine updAll_congr hs ?_ ?_ <;> intro _ _ _ _ h <;> exact (scaled_one _ _ h).symm
    | some dlas =>
      rw [dlaApply_eq hs _ _ _ hl]
      unfold dlaFactors
      refine updAll_congr hs ?_ ?_ <;> intro _ _ _ _ h <;> unfold scaled <;> congr 1 <;> funext w x
      · rw [corrected_fst]
      · rw [corrected_snd]

theorem maskers_foldl_eq [IsStrictOrderedRing K] (dlaFlux : K → K → K → K) (row : MaskRow K)
    (l : List (Masker K)) {s : Spectrum K} (hs : Aligned s) (hz : 0 < 1 + s.z) :
    l.foldl (fun t m => m.apply dlaFlux row t) s =
      updAll (scaled (fun w => (l.map (fun m => (factors dlaFlux row s.z m).1 w)).prod))
        (scaled (fun w => (l.map (fun m => (factors dlaFlux row s.z m).2 w)).prod)) s := by
  induction l generalizing s with
  | nil =>
    simp only [List.foldl_nil, List.map_nil, List.prod_nil]
    conv_lhs => rw [← updAll_id (s := s)]
    refine updAll_congr hs ?_ ?_ <;> intro _ _ _ _ h <;> exact (scaled_one _ _ h).symm
  | cons m l ih =>
    rw [List.foldl_cons, masker_apply_eq hs hz]
    set t := updAll (scaled (factors dlaFlux row s.z m).1) (scaled (factors dlaFlux row s.z m).2) s
      with ht
    have hok : Aligned t := aligned_updAll hs (fun w y h => length_scaled _ h)
      (fun w y h => length_scaled _ h)
    have hz' : t.z = s.z := rfl
    rw [ih hok (by rw [hz']; exact hz), hz', ht, updAll_updAll]
    refine updAll_congr hs ?_ ?_ <;> intro _ _ _ _ _ <;>
      simp only [scaled_scaled, List.map_cons, List.prod_cons]

end Verif.Proofs
