import Verif.Proofs.Spectrum
import Verif.Model.Smooth
import Mathlib.Algebra.Order.Ring.Rat
import Mathlib.Algebra.Order.Field.Rat
import Mathlib.Data.Rat.Floor
import Mathlib.Algebra.Order.BigOperators.Group.List

/-!
# C22, C24, C25, C32 - C34: forest region, length cuts, weights, slices, smoothing, chi square
-/

namespace Verif.Props
open Verif.Np Verif.Model Verif.Proofs Verif.Spec List Spectrum

variable {K : Type} [Field K] [LinearOrder K] [FloorRing K]

/-! ### C22 -/

/-- **C22.** On a spectrum without forest, `set_forest_region` gives every arm of the grid that has a
good pixel in the region exactly the pixels of the region: wavelengths, flux, ivar and resolution rows
of the same pixels. -/
theorem C22_forest_region {s : Spectrum K} (hs : DataOk s) (sqrt : K → K) (eps : K)
    (w1 w2 lya1 lya2 : K) {arm : String} {wave : List K} (hw : s.wave.lookup arm = some wave)
    (hg : HasGood (pixelsWhere (InForest s.z w1 w2 lya1 lya2) wave (s.ivar.arr arm))) :
    let t := s.setForestRegion sqrt eps w1 w2 lya1 lya2
    t.fwave.lookup arm = some (wave.filter (fun w => decide (InForest s.z w1 w2 lya1 lya2 w))) ∧
    t.fflux.lookup arm =
      some (pixelsWhere (InForest s.z w1 w2 lya1 lya2) wave (s.flux.arr arm)) ∧
    t.fivar.lookup arm =
      some (pixelsWhere (InForest s.z w1 w2 lya1 lya2) wave (s.ivar.arr arm)) ∧
    t.fivarSm = t.fivar ∧ t.fweight = t.fivar ∧
    (s.reso ≠ [] → t.freso.lookup arm =
      some ((s.reso.arr arm).map (pixelsWhere (InForest s.z w1 w2 lya1 lya2) wave))) := by
  have h := setForestRegion_arm hs sqrt eps w1 w2 lya1 lya2 hw
  rw [if_pos hg] at h
  unfold armView at h
  simp only [Prod.mk.injEq] at h
  refine ⟨h.1, h.2.1, h.2.2.1, rfl, rfl, fun hr => ?_⟩
  rw [h.2.2.2, if_neg hr]

/-- **C22.** An arm without a good pixel in the region is not in the forest, nor is an arm that is not
in the grid. -/
theorem C22_no_empty_arm {s : Spectrum K} (hs : DataOk s) (hf : Fresh s) (sqrt : K → K) (eps : K)
    (w1 w2 lya1 lya2 : K) {arm : String}
    (hw : ∀ wave, s.wave.lookup arm = some wave →
      ¬ HasGood (pixelsWhere (InForest s.z w1 w2 lya1 lya2) wave (s.ivar.arr arm))) :
    let t := s.setForestRegion sqrt eps w1 w2 lya1 lya2
    arm ∉ t.fwave.keys ∧ arm ∉ t.fflux.keys ∧ arm ∉ t.fivar.keys ∧ arm ∉ t.freso.keys := by
  have h : armView (s.setForestRegion sqrt eps w1 w2 lya1 lya2) arm = armView s arm := by
    cases hl : s.wave.lookup arm with
    | none => exact setForestRegion_other sqrt eps w1 w2 lya1 lya2 (lookup_eq_none_iff.mp hl)
    | some wave =>
      rw [setForestRegion_arm hs sqrt eps w1 w2 lya1 lya2 hl, if_neg (hw wave hl)]
  unfold armView at h
  rw [hf.fwave, hf.fflux, hf.fivar, hf.freso] at h
  simp only [List.lookup_nil, Prod.mk.injEq] at h
  exact ⟨lookup_eq_none_iff.mp h.1, lookup_eq_none_iff.mp h.2.1, lookup_eq_none_iff.mp h.2.2.1,
    lookup_eq_none_iff.mp h.2.2.2⟩

/-- **C22.** Which pixels these are: those within all four limits, in their order, with the values
they had. -/
theorem C22_region_pixels {α : Type} (z w1 w2 lya1 lya2 : K) {wave : List K} {y : List α}
    (hy : y.length = wave.length) :
    (wave.filter (fun w => decide (InForest z w1 w2 lya1 lya2 w))).zip
      (pixelsWhere (InForest z w1 w2 lya1 lya2) wave y) =
    (wave.zip y).filter (fun p => decide (max w1 ((1 + z) * lya1) ≤ p.1 ∧
      p.1 < min w2 ((1 + z) * lya2))) := by
  simp only [inForest_iff]
  induction wave generalizing y with
  | nil => simp [pixelsWhere_nil]
  | cons w ws ih =>
    cases y with
    | nil => simp at hy
    | cons a y =>
      have := ih (y := y) (by simpa using hy)
      rw [pixelsWhere_cons, List.filter_cons, List.zip_cons_cons, List.filter_cons]
      by_cases h : InForest z w1 w2 lya1 lya2 w <;> simp [h, this]

/-- A quasar at z = 2 with three arms. -/
def c22Spec : Spectrum ℚ :=
  blank 2 1 [("b", [3100, 3101, 3102, 3103]), ("r", [3102, 3103, 3104]), ("z", [9000, 9001])]
    [("b", [1, 2, 3, 4]), ("r", [5, 6, 7]), ("z", [8, 9])]
    [("b", [1, 0, 3, 1]), ("r", [0, 1, 1]), ("z", [1, 1])]
    [("b", [[1, 2, 3, 4], [4, 3, 2, 1]]), ("r", [[1, 2, 3]]), ("z", [[1, 2]])]

theorem c22Spec_ok : DataOk c22Spec ∧ Fresh c22Spec := by
  refine ⟨⟨by decide, ?_, ?_, ?_, ?_⟩, ⟨rfl, rfl, rfl, rfl⟩⟩
  all_goals
    intro arm w hw
    have hm := mem_of_lookup hw
    simp only [c22Spec, blank, List.mem_cons, Prod.mk.injEq, List.not_mem_nil, or_false] at hm
    rcases hm with ⟨rfl, rfl⟩ | ⟨rfl, rfl⟩ | ⟨rfl, rfl⟩ <;> decide

/-- Region 3101 .. 3104 A: two arms, the third is not in it. -/
example : let t := c22Spec.setForestRegion id (1 / 1000000) 3101 3104 1000 1200
    t.fwave = [("b", [3101, 3102, 3103]), ("r", [3102, 3103])] ∧
    t.fflux = [("b", [2, 3, 4]), ("r", [5, 6])] ∧ t.fivar = [("b", [0, 3, 1]), ("r", [0, 1])] ∧
    t.freso = [("b", [[2, 3, 4], [3, 2, 1]]), ("r", [[1, 2]])] := by decide +kernel

/-! ### C24 -/

/-- **C24.** `drop_short_arms` removes exactly the arms whose number of good pixels does not exceed
`skip_ratio` times the nominal number of pixels; the entries of the others, in all dictionaries, stay
as they are. -/
theorem C24_drop_short_arms [IsStrictOrderedRing K] {s : Spectrum K} (hn : s.fivar.keys.Nodup)
    {lya1 lya2 skip : K}
    (hx : 0 ≤ skip * ((1 + s.z) * (lya2 - lya1) / s.dwave)) (arm : String)
    (ha : arm ∈ s.fivar.keys) :
    let t := s.dropShortArms lya1 lya2 skip
    let short := ((numGood (s.fivar.arr arm) : Nat) : K) ≤
      skip * ((1 + s.z) * (lya2 - lya1) / s.dwave)
    (short → arm ∉ t.fwave.keys ∧ arm ∉ t.fflux.keys ∧ arm ∉ t.fivar.keys ∧ arm ∉ t.freso.keys ∧
      arm ∉ t.fivarSm.keys ∧ arm ∉ t.fweight.keys ∧ arm ∉ t.cont.keys) ∧
    (¬ short → t.fwave.lookup arm = s.fwave.lookup arm ∧ t.fflux.lookup arm = s.fflux.lookup arm ∧
      t.fivar.lookup arm = s.fivar.lookup arm ∧ t.freso.lookup arm = s.freso.lookup arm ∧
      t.fivarSm.lookup arm = s.fivarSm.lookup arm ∧
      t.fweight.lookup arm = s.fweight.lookup arm ∧ t.cont.lookup arm = s.cont.lookup arm) := by
  have hd := foldl_dropArm (shortArms s lya1 lya2 skip) s
  have hm := mem_shortArms hn (lya1 := lya1) (lya2 := lya2) (skip := skip) (arm := arm)
  unfold minPixels at hm
  rw [truncInt_lt_iff hx] at hm
  obtain ⟨h1, h2, h3, h4, h5, h6, h7, -⟩ := hd
  have ht : s.dropShortArms lya1 lya2 skip = (shortArms s lya1 lya2 skip).foldl dropArm s := rfl
  dsimp only
  rw [ht, h1, h2, h3, h4, h5, h6, h7]
  simp only [lookup_foldl_pop, keys_foldl_pop, List.mem_filter, hm, ha, true_and]
  constructor
  · intro h
    simp [h]
  · intro h
    simp [h]

/-- **C24.** With no arguments, as after masking, exactly the arms without any good pixel go. -/
theorem C24_drop_empty_arms [IsStrictOrderedRing K] {s : Spectrum K} (hn : s.fivar.keys.Nodup)
    (arm : String) (ha : arm ∈ s.fivar.keys) :
    arm ∈ (s.dropShortArms 0 0 0).fivar.keys ↔ HasGood (s.fivar.arr arm) := by
  have h := C24_drop_short_arms hn (lya1 := 0) (lya2 := 0) (skip := 0) (by simp) arm ha
  dsimp only at h
  have e : ((numGood (s.fivar.arr arm) : Nat) : K) ≤ 0 * ((1 + s.z) * (0 - 0) / s.dwave) ↔
      ¬ HasGood (s.fivar.arr arm) := by
    rw [zero_mul, ← numGood_eq_zero]
    constructor
    · intro hh
      exact_mod_cast le_antisymm hh (Nat.cast_nonneg _)
    · intro hh
      rw [hh]; simp
  rw [e] at h
  constructor
  · intro hm
    by_contra hb
    exact (h.1 hb).2.2.1 hm
  · intro hg
    obtain ⟨v, hv⟩ := lookup_isSome ha
    have := (h.2 (not_not.mpr hg)).2.2.1
    rw [hv] at this
    exact mem_keys_of_lookup this

/-- **C24.** A spectrum is long exactly if its number of good pixels over all arms exceeds the
ratio times the nominal number. -/
theorem C24_is_long (s : Spectrum K) (dforest skip : K) :
    s.isLong dforest skip = true ↔
      skip * ((1 + s.z) * dforest / s.dwave) <
        (((s.fivar.map (fun x => (x.2.filter (fun v => decide (0 < v))).length)).sum : Nat) : K) := by
  unfold isLong realSize numGood
  simp only [List.countP_eq_length_filter, gt_iff_lt, decide_eq_true_eq]

/-- **C24.** Masking pixels (setting ivar such that no new pixel is good) never makes a short spectrum
long and never makes a dropped arm be kept. -/
theorem C24_masking_monotone [IsStrictOrderedRing K] {s t : Spectrum K} (hz : t.z = s.z)
    (hd : t.dwave = s.dwave)
    (hm : List.Forall₂ (fun x y => x.1 = y.1 ∧
      List.Forall₂ (fun v u : K => 0 < u → 0 < v) x.2 y.2) s.fivar t.fivar) (dforest skip : K)
    (h : t.isLong dforest skip = true) : s.isLong dforest skip = true := by
  have key : ∀ v u : List K, List.Forall₂ (fun v u : K => 0 < u → 0 < v) v u →
      numGood u ≤ numGood v := by
    intro v u h
    induction h with
    | nil => exact le_refl _
    | @cons a b l₁ l₂ hab _ ih =>
      unfold numGood at ih ⊢
      rw [List.countP_cons, List.countP_cons]
      by_cases hb : 0 < b
      · simp [hb, hab hb]; omega
      · by_cases ha : 0 < a <;> simp [hb, ha] <;> omega
  have hsize : t.realSize ≤ s.realSize := by
    unfold realSize
    generalize s.fivar = d at hm ⊢
    generalize t.fivar = e at hm ⊢
    induction hm with
    | nil => simp
    | @cons a b l₁ l₂ hab _ ih =>
      simp only [List.map_cons, List.sum_cons]
      have := key _ _ hab.2
      omega
  unfold isLong at h ⊢
  rw [decide_eq_true_eq] at h ⊢
  rw [hz, hd] at h
  have : (t.realSize : K) ≤ (s.realSize : K) := by exact_mod_cast hsize
  exact lt_of_lt_of_le h this

/-- Nominal 6 pixels, ratio 1/2: the arm with 3 good pixels is dropped, the one with 4 stays. -/
def c24Spec : Spectrum ℚ :=
  { c22Spec with
    fwave := [("b", [1, 2, 3, 4]), ("r", [5, 6, 7, 8])]
    fflux := [("b", [1, 1, 1, 1]), ("r", [1, 1, 1, 1])]
    fivar := [("b", [1, 0, 1, 1]), ("r", [1, 1, 1, 1])], ivarSm := none, weight := none }

example : (c24Spec.dropShortArms 1000 1002 (1 / 2)).fwave = [("r", [5, 6, 7, 8])] ∧
    c24Spec.isLong 4 (1 / 2) = true ∧ c24Spec.isLong 5 (1 / 2) = false ∧
    c24Spec.fivar.keys.Nodup := by decide +kernel

/-! ### C25 -/

section
variable [IsStrictOrderedRing K]

/-- **C25.** With a valid continuum, every pixel of the forest gets the weight
`1 / (eta / ivar + varlss * cont^2)` of its own wavelength, continuum and smoothed ivar; it is 0
exactly if the ivar is 0, never more than `ivar / eta`, and times `varlss * cont^2` never more
than 1. -/
theorem C25_weight {s : Spectrum K} (hval : s.valid = true) (hc : s.cont ≠ []) {varlss eta : K → K}
    {arm : String} {wave : List K} (hw : s.fwave.lookup arm = some wave)
    (hcl : (s.cont.arr arm).length = wave.length) (hvl : (s.fivarSm.arr arm).length = wave.length)
    (hv : ∀ v ∈ s.fivarSm.arr arm, 0 ≤ v) (he : ∀ w ∈ wave, 0 < eta w)
    (hl : ∀ w ∈ wave, 0 ≤ varlss w) :
    ∃ wt, (s.setForestWeight varlss eta).fweight.lookup arm = some wt ∧ wt.length = wave.length ∧
      ∀ (i : Nat) w c v, wave[i]? = some w → (s.cont.arr arm)[i]? = some c →
        (s.fivarSm.arr arm)[i]? = some v →
        ∃ x, wt[i]? = some x ∧ 0 ≤ x ∧ (x = 0 ↔ v = 0) ∧ x ≤ v / eta w ∧
          x * (varlss w * c ^ 2) ≤ 1 ∧ (0 < v → x = 1 / (eta w / v + varlss w * c ^ 2)) := by
  refine ⟨armWeight varlss eta wave (s.cont.arr arm) (s.fivarSm.arr arm), ?_, ?_, ?_⟩
  · rw [setForestWeight_lookup hval hc, hw]; rfl
  · unfold armWeight; simp [hcl, hvl]
  · intro i w c v h1 h2 h3
    refine ⟨_, armWeight_getElem? h1 h2 h3, ?_⟩
    exact pixelWeight_facts (hv v (List.mem_of_getElem? h3)) (he w (List.mem_of_getElem? h1))
      (hl w (List.mem_of_getElem? h1))

/-- **C25.** Weights grow with the ivar and fall with `varlss`: for two spectra with the same
wavelengths and continua, in every pixel. -/
theorem C25_monotone {s t : Spectrum K} (hs : s.valid = true) (ht : t.valid = true)
    (hcs : s.cont ≠ []) (hct : t.cont = s.cont) {varlss varlss' eta : K → K}
    {arm : String} {wave : List K} (hws : s.fwave.lookup arm = some wave)
    (hwt : t.fwave.lookup arm = some wave) {i : Nat} {w c v u : K} (hi : wave[i]? = some w)
    (hc : (s.cont.arr arm)[i]? = some c) (hv : (s.fivarSm.arr arm)[i]? = some v)
    (hu : (t.fivarSm.arr arm)[i]? = some u) (hv0 : 0 ≤ v) (hvu : v ≤ u)
    (he : 0 < eta w) (hl : 0 ≤ varlss w) (hll : varlss w ≤ varlss' w) :
    ∃ x y, ((s.setForestWeight varlss' eta).fweight.arr arm)[i]? = some x ∧
      ((t.setForestWeight varlss eta).fweight.arr arm)[i]? = some y ∧ x ≤ y := by
  have h1 := setForestWeight_lookup hs hcs varlss' eta arm
  have h2 := setForestWeight_lookup ht (by rw [hct]; exact hcs) varlss eta arm
  rw [hws] at h1
  rw [hwt] at h2
  rw [arr_of_lookup h1, arr_of_lookup h2, hct]
  refine ⟨_, _, armWeight_getElem? hi hc hv, armWeight_getElem? hi hc hu, ?_⟩
  exact (pixelWeight_anti hv0 he hl hll).trans (pixelWeight_mono hv0 hvu he hl)

omit [IsStrictOrderedRing K] in
/-- **C25.** Without a valid continuum the weights are the smoothed ivar. -/
theorem C25_no_continuum {s : Spectrum K} (h : s.valid = false ∨ s.cont = []) (varlss eta : K → K) :
    (s.setForestWeight varlss eta).fweight = s.fivarSm := by
  unfold setForestWeight
  rw [if_pos h]
  rfl

omit [IsStrictOrderedRing K] [FloorRing K] in
/-- **C25.** `set_smooth_forestivar` smooths the ivar of every arm with its size in pixels, and the
weights are the smoothed ivar until they are set again; a size that is not positive takes the smoothing
back. Flux and ivar stay as they are. -/
theorem C25_smooth (smooth : List K → K → List K) (s : Spectrum K) (size : K) (arm : String) :
    let t := s.setSmoothForestivar smooth size
    t.fweight.lookup arm = t.fivarSm.lookup arm ∧ t.fivar = s.fivar ∧ t.fflux = s.fflux ∧
    (0 < size → t.smoothing = size ∧ t.fivarSm.lookup arm =
      (s.fivar.lookup arm).map (fun v => smooth v (size / s.dwave))) ∧
    (size ≤ 0 → t.smoothing = 0 ∧ t.fivarSm.lookup arm = s.fivar.lookup arm) := by
  dsimp only
  unfold setSmoothForestivar
  split
  next h => exact ⟨rfl, rfl, rfl, fun h' => absurd h' (not_lt.mpr h), fun _ => ⟨rfl, rfl⟩⟩
  next h =>
    refine ⟨rfl, rfl, rfl, fun _ => ⟨rfl, ?_⟩, fun h' => absurd h' h⟩
    change List.lookup arm (s.fivar.mapVals (fun _ v => smooth v (size / s.dwave))) = _
    exact lookup_mapVals ..

end

example : let t := c24Spec.setSmoothForestivar (fun v x => v.map (· * x)) 3
    t.fweight = [("b", [3, 0, 3, 3]), ("r", [3, 3, 3, 3])] ∧ c24Spec.dwave = 1 ∧
    (t.setSmoothForestivar (fun v x => v.map (· * x)) (-1)).fweight = c24Spec.fivar := by decide +kernel

/-- A spectrum with a continuum. -/
def c25Spec : Spectrum ℚ :=
  { c24Spec with cont := [("b", [2, 2, 2, 2]), ("r", [1, 2, 1, 2])], valid := true }

example : (c25Spec.setForestWeight (fun _ => 1 / 4) (fun _ => 1)).fweight =
    [("b", [1 / 2, 0, 1 / 2, 1 / 2]), ("r", [4 / 5, 1 / 2, 4 / 5, 1 / 2])] := by decide +kernel

/-! ### C34 -/

section
variable [IsStrictOrderedRing K]

omit [FloorRing K] in
theorem dot_sq_nonneg {w x : List K} (hw : ∀ a ∈ w, 0 ≤ a) (hx : ∀ a ∈ x, 0 ≤ a) : 0 ≤ dot w x := by
  unfold dot
  refine List.sum_nonneg fun a ha => ?_
  obtain ⟨i, hi, rfl⟩ := List.getElem_of_mem ha
  rw [List.getElem_zipWith]
  exact mul_nonneg (hw _ (List.getElem_mem _)) (hx _ (List.getElem_mem _))

/-- **C34.** The chi square is -1 exactly if there is no valid continuum, else it is not negative. -/
theorem C34_sign {s : Spectrum K} (hw : ∀ arm, ∀ x ∈ s.fweight.arr arm, 0 ≤ x) :
    (s.calcContinuumChi2.chi2 = -1 ↔ s.valid = false ∨ s.cont = []) ∧
      (s.valid = true → s.cont ≠ [] → 0 ≤ s.calcContinuumChi2.chi2) := by
  have key : s.valid = true → s.cont ≠ [] → 0 ≤ s.calcContinuumChi2.chi2 := by
    intro h1 h2
    unfold calcContinuumChi2
    rw [if_neg (by simp [h1, h2])]
    refine List.sum_nonneg fun a ha => ?_
    obtain ⟨x, -, rfl⟩ := List.mem_map.mp ha
    refine dot_sq_nonneg (hw _) fun a ha => ?_
    obtain ⟨i, hi, rfl⟩ := List.getElem_of_mem ha
    rw [List.getElem_zipWith]
    exact sq_nonneg _
  refine ⟨⟨fun h => ?_, fun h => ?_⟩, key⟩
  · by_contra hh
    rw [not_or, Bool.not_eq_false] at hh
    have := key hh.1 hh.2
    rw [h] at this
    linarith
  · unfold calcContinuumChi2
    rw [if_pos h]

end

omit [FloorRing K] in
theorem armChi2_ignores {weight f f' cont : List K} (hl : f.length = f'.length)
    (h : ∀ (i : Nat) x, weight[i]? = some x → x ≠ 0 → f[i]? = f'[i]?) :
    armChi2 weight f cont = armChi2 weight f' cont := by
  unfold armChi2 dot
  congr 1
  apply List.ext_getElem?
  intro i
  simp only [List.getElem?_zipWith]
  cases hw : weight[i]? with
  | none => rfl
  | some x =>
    by_cases hx : x = 0
    · subst hx
      cases hf : f[i]? with
      | none =>
        have : f'[i]? = none := by rw [List.getElem?_eq_none_iff] at hf ⊢; omega
        rw [this]
      | some a =>
        have hi : i < f'.length := by
          have := (List.getElem?_eq_some_iff.mp hf).1
          omega
        rw [List.getElem?_eq_getElem hi]
        cases cont[i]? <;> simp
    · rw [h i x hw hx]

/-- **C34.** The flux of pixels without weight does not matter. -/
theorem C34_ignores_masked {s t : Spectrum K} (hv : t.valid = s.valid) (hc : t.cont = s.cont)
    (hw : t.fwave = s.fwave) (hwt : t.fweight = s.fweight)
    (hl : ∀ arm, (t.fflux.arr arm).length = (s.fflux.arr arm).length)
    (hf : ∀ arm (i : Nat) x, (s.fweight.arr arm)[i]? = some x → x ≠ 0 →
      (t.fflux.arr arm)[i]? = (s.fflux.arr arm)[i]?) :
    t.calcContinuumChi2.chi2 = s.calcContinuumChi2.chi2 := by
  unfold calcContinuumChi2
  rw [hv, hc]
  split
  · rfl
  · dsimp only
    rw [hw, hwt]
    congr 1
    refine List.map_congr_left fun x _ => ?_
    exact armChi2_ignores (hl _) (hf _)

example : c25Spec.calcContinuumChi2.chi2 = 5 ∧ c24Spec.calcContinuumChi2.chi2 = -1 ∧
    { c25Spec with fflux := [("b", [1, 77, 1, 1]), ("r", [1, 1, 1, 1])] }.calcContinuumChi2.chi2 = 5 := by
  decide +kernel

/-! ### C32 -/

omit [FloorRing K] in
theorem slice_length' (l : List K) (i j : Nat) : (slice l i j).length = min j l.length - i := by
  simp [slice]

/-- The cut for a spectrum with separate dictionaries. -/
theorem slice'_own {s : Spectrum K} {sm wt : Dict (List K)} (hsm : s.ivarSm = some sm)
    (hwt : s.weight = some wt) {arm : String} {i1 i2 : Nat}
    (hi : ¬ (i1 = 0 ∧ i2 = (s.fwave.arr arm).length)) :
    s.slice' arm i1 i2 = { s with
      fwave := sliceDict s.fwave arm i1 i2
      fflux := sliceDict s.fflux arm i1 i2
      fivar := sliceDict s.fivar arm i1 i2
      ivarSm := some (sliceDict sm arm i1 i2)
      weight := some (sliceDict wt arm i1 i2)
      freso := if arm ∈ s.freso.keys then
        s.freso.set arm ((s.freso.arr arm).map (fun r => slice r i1 i2)) else s.freso
      cont := if arm ∈ s.cont.keys then sliceDict s.cont arm i1 i2 else s.cont } := by
  cases s
  subst hsm hwt
  unfold slice'
  rw [if_neg hi]
  simp only [sliceWave, sliceFlux, sliceIvar, sliceSm, sliceWeight, sliceReso, sliceCont]
  rfl

/-- The cut for a spectrum with shared dictionaries. -/
theorem slice'_shared {s : Spectrum K} (hsm : s.ivarSm = none)
    (hwt : s.weight = none) {arm : String} {i1 i2 : Nat}
    (hi : ¬ (i1 = 0 ∧ i2 = (s.fwave.arr arm).length)) :
    (s.slice' arm i1 i2).fwave = sliceDict s.fwave arm i1 i2 ∧
    (s.slice' arm i1 i2).fivar =
      sliceDict (sliceDict (sliceDict s.fivar arm i1 i2) arm i1 i2) arm i1 i2 := by
  cases s
  subst hsm hwt
  unfold slice'
  rw [if_neg hi]
  simp only [sliceWave, sliceFlux, sliceIvar, sliceSm, sliceWeight, sliceReso, sliceCont, and_self]

/-- **C32, partial.** If the smoothed ivar and the weights are dictionaries of their own, `slice` cuts
wave, flux, ivar, smoothed ivar, weight, resolution and continuum of the arm all to the pixels
`i1 ≤ i < i2`, and other arms stay as they are.

Missing: without smoothing the three ivar dictionaries are one object, see
`C32_shared_storage_cut_repeatedly`. -/
theorem C32_slice_partial {s : Spectrum K} {sm wt : Dict (List K)} (hsm : s.ivarSm = some sm)
    (hwt : s.weight = some wt) {arm : String} (h1 : arm ∈ s.fwave.keys) (h2 : arm ∈ s.fflux.keys)
    (h3 : arm ∈ s.fivar.keys) (h4 : arm ∈ sm.keys) (h5 : arm ∈ wt.keys) (i1 i2 : Nat)
    (hl : ∀ d ∈ [s.fwave, s.fflux, s.fivar, sm, wt], (d.arr arm).length = (s.fwave.arr arm).length)
    (hlc : arm ∈ s.cont.keys → (s.cont.arr arm).length = (s.fwave.arr arm).length)
    (hlr : ∀ r ∈ s.freso.arr arm, r.length = (s.fwave.arr arm).length) :
    let t := s.slice' arm i1 i2
    (t.fwave.lookup arm = some (slice (s.fwave.arr arm) i1 i2) ∧
      t.fflux.lookup arm = some (slice (s.fflux.arr arm) i1 i2) ∧
      t.fivar.lookup arm = some (slice (s.fivar.arr arm) i1 i2) ∧
      t.fivarSm.lookup arm = some (slice (s.fivarSm.arr arm) i1 i2) ∧
      t.fweight.lookup arm = some (slice (s.fweight.arr arm) i1 i2) ∧
      t.freso.lookup arm = (s.freso.lookup arm).map (fun m => m.map (fun r => slice r i1 i2)) ∧
      t.cont.lookup arm = (s.cont.lookup arm).map (fun l => slice l i1 i2)) ∧
    ∀ a, a ≠ arm → t.fwave.lookup a = s.fwave.lookup a ∧ t.fflux.lookup a = s.fflux.lookup a ∧
      t.fivar.lookup a = s.fivar.lookup a ∧ t.fivarSm.lookup a = s.fivarSm.lookup a ∧
      t.fweight.lookup a = s.fweight.lookup a ∧ t.freso.lookup a = s.freso.lookup a ∧
      t.cont.lookup a = s.cont.lookup a := by
  have e4 : s.fivarSm = sm := by unfold fivarSm; rw [hsm]; rfl
  have e5 : s.fweight = wt := by unfold fweight; rw [hwt]; rfl
  dsimp only
  rw [e4, e5]
  by_cases hi : i1 = 0 ∧ i2 = (s.fwave.arr arm).length
  · have e : s.slice' arm i1 i2 = s := by unfold slice'; rw [if_pos hi]
    rw [e]
    refine ⟨?_, fun a _ => ⟨rfl, rfl, rfl, by rw [e4], by rw [e5], rfl, rfl⟩⟩
    have hid : ∀ l : List K, l.length = (s.fwave.arr arm).length → slice l i1 i2 = l := by
      intro l hl
      rw [hi.1, hi.2]
      exact slice_of_length_le l (by omega)
    rw [hid _ rfl, hid _ (hl _ (by simp)), hid _ (hl _ (by simp)), hid _ (hl _ (by simp)),
      hid _ (hl _ (by simp)), e4, e5]
    refine ⟨lookup_eq_arr h1, lookup_eq_arr h2, lookup_eq_arr h3, lookup_eq_arr h4,
      lookup_eq_arr h5, ?_, ?_⟩
    · cases hr : s.freso.lookup arm with
      | none => rfl
      | some m =>
        rw [arr_of_lookup hr] at hlr
        simp only [Option.map_some, Option.some_inj]
        conv_lhs => rw [← List.map_id m]
        exact List.map_congr_left fun r hr => by rw [hid _ (hlr r hr)]; rfl
    · cases hr : s.cont.lookup arm with
      | none => rfl
      | some m =>
        have := hlc (mem_keys_of_lookup hr)
        rw [arr_of_lookup hr] at this
        rw [Option.map_some, hid _ this]
  · have e := slice'_own hsm hwt hi
    rw [e]
    have hd : ∀ (d : Dict (List K)), arm ∈ d.keys →
        (sliceDict d arm i1 i2).lookup arm = some (slice (d.arr arm) i1 i2) := fun d _ => by
      unfold sliceDict; rw [lookup_set, if_pos rfl]
    have ho : ∀ (d : Dict (List K)) a, a ≠ arm →
        (sliceDict d arm i1 i2).lookup a = d.lookup a := fun d a ha => by
      unfold sliceDict; rw [lookup_set, if_neg ha]
    refine ⟨⟨hd _ h1, hd _ h2, hd _ h3, hd _ h4, hd _ h5, ?_, ?_⟩, fun a ha => ⟨ho _ _ ha, ho _ _ ha,
      ho _ _ ha, ?_, ?_, ?_, ?_⟩⟩
    · dsimp only
      split
      next hr => rw [lookup_set, if_pos rfl, lookup_eq_arr hr]; rfl
      next hr => rw [lookup_eq_none_iff.mpr hr]; rfl
    · dsimp only
      split
      next hr => rw [hd _ hr, lookup_eq_arr hr]; rfl
      next hr => rw [lookup_eq_none_iff.mpr hr]; rfl
    · exact ho _ _ ha
    · exact ho _ _ ha
    · dsimp only
      split
      · rw [lookup_set, if_neg ha]
      · rfl
    · dsimp only
      split
      · exact ho _ _ ha
      · rfl

/-- **C32 does not hold** for spectra without smoothing and weights of their own: for every cut from
the left the ivar becomes shorter than the wavelengths (or stays empty). -/
theorem C32_shared_storage_cut_repeatedly {s : Spectrum K} (hsm : s.ivarSm = none)
    (hwt : s.weight = none) {arm : String} {i1 i2 : Nat} (h0 : 0 < i1) (h12 : i1 < i2)
    (hi : i2 ≤ (s.fwave.arr arm).length) (hl : (s.fivar.arr arm).length = (s.fwave.arr arm).length) :
    let t := s.slice' arm i1 i2
    (t.fwave.arr arm).length = i2 - i1 ∧ (t.fivar.arr arm).length = i2 - 3 * i1 := by
  obtain ⟨e1, e2⟩ := slice'_shared hsm hwt (arm := arm) (i1 := i1) (i2 := i2) (by omega)
  dsimp only
  rw [e1, e2]
  unfold sliceDict
  simp only [arr_set, if_true, slice_length']
  omega

/-- A cut at the right end only is harmless in both cases. -/
example : (c24Spec.slice' "r" 0 2).fivar.arr "r" = [1, 1] ∧
    (c24Spec.slice' "r" 0 2).fwave.arr "r" = [5, 6] ∧
    (c24Spec.slice' "r" 1 4).fwave.arr "r" = [6, 7, 8] ∧
    (c24Spec.slice' "r" 1 4).fivar.arr "r" = [1] := by decide +kernel

/-- With smoothing and weights of their own the arrays stay together. -/
example :
    let s := (c25Spec.setSmoothForestivar (fun v _ => v) 16).setForestWeight (fun _ => 1) (fun _ => 1)
    ((s.slice' "r" 1 4).fivar.arr "r").length = 3 ∧ ((s.slice' "r" 1 4).fweight.arr "r").length = 3 ∧
    ((s.slice' "r" 1 4).cont.arr "r").length = 3 ∧ s.ivarSm.isSome ∧ s.weight.isSome := by
  decide +kernel

/-! ### C33 -/

omit [FloorRing K] in
/-- **C33.** The smoothed ivar has the length of the ivar. It is 0 where the ivar is not positive.
Where the ivar is positive it is either the ivar itself (pixels of high noise are put back) or
`1 / e^2` with the smoothed error `e` of that pixel, hence positive unless that is 0. Median and
smoother are arbitrary, the smoother keeps the length. -/
theorem C33_smooth_ivar [IsStrictOrderedRing K] {sqrt : K → K} {median : List K → K}
    {smooth : List K → K → List K} {madScale sigmaPix esigma : K} {ivar : List K}
    (hs : ∀ l, (smooth l sigmaPix).length = l.length)
    (hsqrt : ∀ v, 0 < v → sqrt v ^ 2 = v) :
    let out := getSmoothIvar sqrt median smooth madScale ivar sigmaPix esigma
    out.length = ivar.length ∧
    ∃ clipped, clipped.length = ivar.length ∧
      ∀ (i : Nat) v, ivar[i]? = some v →
        (v ≤ 0 → out[i]? = some 0) ∧
        (0 < v → out[i]? = some v ∨ ∃ e, (smooth clipped sigmaPix)[i]? = some e ∧
          out[i]? = some (1 / e ^ 2) ∧ (e ≠ 0 → 0 < 1 / e ^ 2)) := by
  dsimp only
  unfold getSmoothIvar
  dsimp only
  set goodErr := (ivar.filter (fun v => decide (0 < v))).map (fun v => 1 / sqrt v) with hgood
  set med := median goodErr with hmed
  set mad := median (goodErr.map (fun e => |e - med|)) * madScale with hmad
  set error := errorOf sqrt med ivar with herr
  set w2 := error.map (fun e => decide (e - med > esigma * mad)) with hw2
  set clipped := replaceWhere w2 error (error.map (fun _ => med)) with hcl
  have hle : error.length = ivar.length := by rw [herr]; unfold errorOf; simp
  have hlw : w2.length = ivar.length := by rw [hw2]; simp [hle]
  have hlc : clipped.length = ivar.length := by
    rw [hcl]; unfold replaceWhere; simp [hlw, hle]
  have hls : (smooth clipped sigmaPix).length = ivar.length := by rw [hs, hlc]
  have hlr : (replaceWhere w2 (smooth clipped sigmaPix) error).length = ivar.length := by
    unfold replaceWhere; simp [hlw, hle, hls]
  refine ⟨by simp [hlr], clipped, hlc, ?_⟩
  intro i v hv
  have hi : i < ivar.length := (List.getElem?_eq_some_iff.mp hv).1
  have hei : error[i]? = some (if 0 < v then 1 / sqrt v else med) := by
    rw [herr]; unfold errorOf; rw [List.getElem?_map, hv]; rfl
  obtain ⟨b, hb⟩ : ∃ b, w2[i]? = some b := ⟨_, List.getElem?_eq_getElem (by omega)⟩
  obtain ⟨e, he⟩ : ∃ e, (smooth clipped sigmaPix)[i]? = some e :=
    ⟨_, List.getElem?_eq_getElem (by omega)⟩
  have hr : (replaceWhere w2 (smooth clipped sigmaPix) error)[i]? =
      some (if b then (if 0 < v then 1 / sqrt v else med) else e) := by
    unfold replaceWhere
    rw [List.getElem?_zipWith, hb]
    simp [List.zip, List.getElem?_zipWith, he, hei]
  constructor
  · intro hv0
    rw [List.getElem?_zipWith, hv, hr]
    simp [not_lt.mpr hv0]
  · intro hv0
    have hsv : sqrt v ≠ 0 := by
      intro h
      have := hsqrt v hv0
      rw [h] at this
      simp at this
      exact hv0.ne this
    cases b with
    | true =>
      left
      rw [List.getElem?_zipWith, hv, hr]
      simp only [hv0, if_true]
      congr 1
      rw [div_pow, one_pow, one_div_one_div, hsqrt v hv0]
    | false =>
      right
      refine ⟨e, he, ?_, fun hne => by positivity⟩
      rw [List.getElem?_zipWith, hv, hr]
      simp [hv0]

omit [FloorRing K] in
/-- **C33.** If the smoother gives no pixel the error 0, the smoothed ivar is positive exactly where
the ivar is positive. -/
theorem C33_positive_iff [IsStrictOrderedRing K] {sqrt : K → K} {median : List K → K}
    {smooth : List K → K → List K} {madScale sigmaPix esigma : K} {ivar : List K}
    (hs : ∀ l, (smooth l sigmaPix).length = l.length)
    (hn : ∀ l, l.length = ivar.length → ∀ e ∈ smooth l sigmaPix, e ≠ 0)
    (hsqrt : ∀ v, 0 < v → sqrt v ^ 2 = v) {i : Nat} {v u : K} (hv : ivar[i]? = some v)
    (hu : (getSmoothIvar sqrt median smooth madScale ivar sigmaPix esigma)[i]? = some u) :
    0 < u ↔ 0 < v := by
  obtain ⟨-, clipped, hc, h⟩ := C33_smooth_ivar (median := median) (madScale := madScale)
    (esigma := esigma) (ivar := ivar) hs hsqrt
  obtain ⟨h1, h2⟩ := h i v hv
  constructor
  · intro hu0
    by_contra hv0
    rw [h1 (not_lt.mp hv0), Option.some_inj] at hu
    rw [hu] at hu0
    exact lt_irrefl _ hu0
  · intro hv0
    rcases h2 hv0 with h2 | ⟨e, h3, h4, h5⟩
    · rw [h2, Option.some_inj] at hu
      rw [← hu]; exact hv0
    · rw [h4, Option.some_inj] at hu
      rw [← hu]
      exact h5 (hn clipped hc e (List.mem_of_getElem? h3))

/-- Square roots of squares, a median and a smoother for the example. -/
example : getSmoothIvar (fun v : ℚ => if v = 1 then 1 else if v = 4 then 2 else 1 / 10)
    (fun l => l.headD 0) (fun l _ => l.map (fun _ => 1 / 2)) (14826 / 10000)
    [4, 0, 1 / 100, 4, -1] 8 (7 / 2) = [4, 0, 1 / 100, 4, 0] := by decide +kernel

end Verif.Props
