import Verif.Proofs.Slice
import Verif.Proofs.Dict
import Mathlib.Tactic.Linarith
import Mathlib.Tactic.FieldSimp

/-! Lemmas about `Spectrum` operations. -/

namespace Verif.Proofs
open Verif.Np Verif.Model Verif.Spec List

variable {K : Type} [Field K] [LinearOrder K] [FloorRing K]

/-- Fields which the loop in `set_forest_region` does not change. -/
structure SameData (s t : Spectrum K) : Prop where
  z : t.z = s.z
  dwave : t.dwave = s.dwave
  wave : t.wave = s.wave
  flux : t.flux = s.flux
  ivar : t.ivar = s.ivar
  reso : t.reso = s.reso

theorem SameData.refl (s : Spectrum K) : SameData s s := ⟨rfl, rfl, rfl, rfl, rfl, rfl⟩

theorem SameData.trans {s t u : Spectrum K} (h : SameData s t) (g : SameData t u) : SameData s u :=
  ⟨g.z.trans h.z, g.dwave.trans h.dwave, g.wave.trans h.wave, g.flux.trans h.flux,
    g.ivar.trans h.ivar, g.reso.trans h.reso⟩

open Spectrum

theorem regionArm_sameData (l1 l2 : K) (s : Spectrum K) (arm : String) (w : List K) :
    SameData s (regionArm l1 l2 s arm w) := by
  unfold regionArm
  dsimp only
  split <;> exact ⟨rfl, rfl, rfl, rfl, rfl, rfl⟩

theorem region_foldl_sameData (l1 l2 : K) (l : List (String × List K)) (s : Spectrum K) :
    SameData s (l.foldl (fun s x => regionArm l1 l2 s x.1 x.2) s) := by
  induction l generalizing s with
  | nil => exact .refl s
  | cons x l ih => exact (regionArm_sameData l1 l2 s x.1 x.2).trans (ih _)

/-- The forest entries of one arm. -/
def armView (s : Spectrum K) (a : String) :
    Option (List K) × Option (List K) × Option (List K) × Option (List (List K)) :=
  (s.fwave.lookup a, s.fflux.lookup a, s.fivar.lookup a, s.freso.lookup a)

theorem regionArm_armView_ne (l1 l2 : K) (s : Spectrum K) {arm a : String} (w : List K)
    (h : a ≠ arm) : armView (regionArm l1 l2 s arm w) a = armView s a := by
  unfold regionArm armView
  dsimp only
  split
  · rfl
  · by_cases hr : s.reso = [] <;> simp [lookup_set, h, hr]

theorem regionArm_armView_self (l1 l2 : K) (s : Spectrum K) (arm : String) (w : List K) :
    armView (regionArm l1 l2 s arm w) arm =
      if HasGood (slice (s.ivar.arr arm) (searchsorted w l1) (searchsorted w l2)) then
        (some (slice w (searchsorted w l1) (searchsorted w l2)),
         some (slice (s.flux.arr arm) (searchsorted w l1) (searchsorted w l2)),
         some (slice (s.ivar.arr arm) (searchsorted w l1) (searchsorted w l2)),
         if s.reso = [] then s.freso.lookup arm else
          some ((s.reso.arr arm).map
            (fun r => slice r (searchsorted w l1) (searchsorted w l2))))
      else armView s arm := by
  unfold regionArm
  dsimp only
  simp only [numGood_eq_zero]
  by_cases h : HasGood (slice (s.ivar.arr arm) (searchsorted w l1) (searchsorted w l2))
  · simp only [h, not_true_eq_false, if_false, if_true]
    unfold armView
    by_cases hr : s.reso = [] <;> simp [lookup_set, hr]
  · simp only [h, not_false_eq_true, if_true, if_false]

theorem region_foldl_ne (l1 l2 : K) (l : List (String × List K)) (s : Spectrum K) {a : String}
    (h : a ∉ Dict.keys l) :
    armView (l.foldl (fun s x => regionArm l1 l2 s x.1 x.2) s) a = armView s a := by
  induction l generalizing s with
  | nil => rfl
  | cons x l ih =>
    rw [keys_cons, List.mem_cons, not_or] at h
    rw [List.foldl_cons, ih _ h.2, regionArm_armView_ne _ _ _ _ h.1]

theorem region_foldl_self (l1 l2 : K) {l : List (String × List K)} (hn : (Dict.keys l).Nodup)
    (s : Spectrum K) {arm : String} {w : List K} (h : (arm, w) ∈ l) :
    armView (l.foldl (fun s x => regionArm l1 l2 s x.1 x.2) s) arm =
      if HasGood (slice (s.ivar.arr arm) (searchsorted w l1) (searchsorted w l2)) then
        (some (slice w (searchsorted w l1) (searchsorted w l2)),
         some (slice (s.flux.arr arm) (searchsorted w l1) (searchsorted w l2)),
         some (slice (s.ivar.arr arm) (searchsorted w l1) (searchsorted w l2)),
         if s.reso = [] then s.freso.lookup arm else
          some ((s.reso.arr arm).map
            (fun r => slice r (searchsorted w l1) (searchsorted w l2))))
      else armView s arm := by
  induction l generalizing s with
  | nil => simp at h
  | cons x l ih =>
    rw [keys_cons, List.nodup_cons] at hn
    rw [List.foldl_cons]
    rcases List.mem_cons.mp h with h | h
    · subst h
      rw [region_foldl_ne _ _ _ _ hn.1, regionArm_armView_self]
    · have hne : arm ≠ x.1 := by
        rintro rfl
        exact hn.1 (List.mem_map.mpr ⟨_, h, rfl⟩)
      rw [ih hn.2 _ h, regionArm_armView_ne _ _ _ _ hne]
      have hd := regionArm_sameData l1 l2 s x.1 x.2
      have hf : (regionArm l1 l2 s x.1 x.2).freso.lookup arm = s.freso.lookup arm := by
        have := regionArm_armView_ne l1 l2 s (arm := x.1) (a := arm) x.2 hne
        exact congrArg (fun t => t.2.2.2) this
      rw [hd.ivar, hd.flux, hd.reso, hf]

theorem setForestRegion_armView (sqrt : K → K) (eps : K) (s : Spectrum K) (w1 w2 lya1 lya2 : K)
    (a : String) :
    armView (setForestRegion sqrt eps s w1 w2 lya1 lya2) a =
      armView (s.wave.foldl (fun t x => regionArm (max w1 ((1 + s.z) * lya1))
        (min w2 ((1 + s.z) * lya2)) t x.1 x.2) s) a := rfl

theorem setForestRegion_sameData (sqrt : K → K) (eps : K) (s : Spectrum K) (w1 w2 lya1 lya2 : K) :
    SameData s (setForestRegion sqrt eps s w1 w2 lya1 lya2) := by
  have h := region_foldl_sameData (max w1 ((1 + s.z) * lya1)) (min w2 ((1 + s.z) * lya2)) s.wave s
  exact ⟨h.z, h.dwave, h.wave, h.flux, h.ivar, h.reso⟩

/-- Pixels in the forest by the limits of `set_forest_region`. -/
theorem inForest_iff (z w1 w2 lya1 lya2 w : K) :
    (max w1 ((1 + z) * lya1) ≤ w ∧ w < min w2 ((1 + z) * lya2)) ↔
      InForest z w1 w2 lya1 lya2 w := by
  unfold InForest
  rw [max_le_iff, lt_min_iff, and_assoc]

theorem slice_inForest {s : Spectrum K} {wave : List K} (h : wave.Pairwise (· < ·))
    (w1 w2 lya1 lya2 : K) {α : Type} {y : List α} (hy : y.length = wave.length) :
    slice y (searchsorted wave (max w1 ((1 + s.z) * lya1)))
      (searchsorted wave (min w2 ((1 + s.z) * lya2))) =
      pixelsWhere (InForest s.z w1 w2 lya1 lya2) wave y := by
  rw [slice_searchsorted h _ _ hy]
  exact pixelsWhere_congr (fun w _ => inForest_iff _ _ _ _ _ _) y

/-- The forest entries of an arm of the grid. -/
theorem setForestRegion_arm {s : Spectrum K} (hs : DataOk s) (sqrt : K → K) (eps : K)
    (w1 w2 lya1 lya2 : K) {arm : String} {wave : List K} (hw : s.wave.lookup arm = some wave) :
    armView (setForestRegion sqrt eps s w1 w2 lya1 lya2) arm =
      if HasGood (pixelsWhere (InForest s.z w1 w2 lya1 lya2) wave (s.ivar.arr arm)) then
        (some (wave.filter (fun w => decide (InForest s.z w1 w2 lya1 lya2 w))),
         some (pixelsWhere (InForest s.z w1 w2 lya1 lya2) wave (s.flux.arr arm)),
         some (pixelsWhere (InForest s.z w1 w2 lya1 lya2) wave (s.ivar.arr arm)),
         if s.reso = [] then s.freso.lookup arm else
          some ((s.reso.arr arm).map (pixelsWhere (InForest s.z w1 w2 lya1 lya2) wave)))
      else armView s arm := by
  have hp := hs.sorted _ _ hw
  rw [setForestRegion_armView, region_foldl_self _ _ hs.nodup _ (mem_of_lookup hw),
    slice_inForest hp _ _ _ _ rfl, slice_inForest hp _ _ _ _ (hs.flux _ _ hw),
    slice_inForest hp _ _ _ _ (hs.ivar _ _ hw), pixelsWhere_self]
  have : (s.reso.arr arm).map (fun r => slice r (searchsorted wave (max w1 ((1 + s.z) * lya1)))
      (searchsorted wave (min w2 ((1 + s.z) * lya2)))) =
      (s.reso.arr arm).map (pixelsWhere (InForest s.z w1 w2 lya1 lya2) wave) :=
    List.map_congr_left fun r hr => slice_inForest hp _ _ _ _ (hs.reso _ _ hw r hr)
  rw [this]

theorem setForestRegion_other {s : Spectrum K} (sqrt : K → K) (eps : K)
    (w1 w2 lya1 lya2 : K) {arm : String} (hw : arm ∉ s.wave.keys) :
    armView (setForestRegion sqrt eps s w1 w2 lya1 lya2) arm = armView s arm := by
  rw [setForestRegion_armView, region_foldl_ne _ _ _ _ hw]

/-! ### Dropping arms -/

theorem lookup_foldl_pop {α : Type} (l : List String) (d : Dict α) (a : String) :
    List.lookup a (l.foldl (fun d k => Dict.pop d k) d) =
      if a ∈ l then none else List.lookup a d := by
  induction l generalizing d with
  | nil => simp
  | cons k l ih =>
    rw [List.foldl_cons, ih, lookup_pop]
    by_cases h1 : a ∈ l <;> by_cases h2 : a = k <;> simp [h1, h2]

theorem keys_foldl_pop {α : Type} (l : List String) (d : Dict α) :
    (l.foldl (fun d k => Dict.pop d k) d).keys = d.keys.filter (fun x => decide (x ∉ l)) := by
  induction l generalizing d with
  | nil => simp
  | cons k l ih =>
    rw [List.foldl_cons, ih, keys_pop, List.filter_filter]
    refine List.filter_congr fun x _ => ?_
    simp only [List.mem_cons, not_or]
    by_cases h1 : x ∈ l <;> by_cases h2 : x = k <;> simp [h1, h2]

theorem dropArm_fivarSm (s : Spectrum K) (arm : String) :
    (s.dropArm arm).fivarSm = s.fivarSm.pop arm := by
  unfold dropArm fivarSm
  cases s.ivarSm <;> rfl

theorem dropArm_fweight (s : Spectrum K) (arm : String) :
    (s.dropArm arm).fweight = s.fweight.pop arm := by
  unfold fweight
  rw [dropArm_fivarSm]
  unfold dropArm
  cases s.weight <;> rfl

/-- The dictionaries after some arms have been dropped. -/
theorem foldl_dropArm (l : List String) (s : Spectrum K) :
    let t := l.foldl dropArm s
    t.fwave = l.foldl (fun d k => Dict.pop d k) s.fwave ∧
    t.fflux = l.foldl (fun d k => Dict.pop d k) s.fflux ∧
    t.fivar = l.foldl (fun d k => Dict.pop d k) s.fivar ∧
    t.freso = l.foldl (fun d k => Dict.pop d k) s.freso ∧
    t.fivarSm = l.foldl (fun d k => Dict.pop d k) s.fivarSm ∧
    t.fweight = l.foldl (fun d k => Dict.pop d k) s.fweight ∧
    t.cont = l.foldl (fun d k => Dict.pop d k) s.cont ∧
    SameData s t ∧ t.smoothing = s.smoothing ∧ t.meanSnr = s.meanSnr ∧ t.valid = s.valid := by
  induction l generalizing s with
  | nil => exact ⟨rfl, rfl, rfl, rfl, rfl, rfl, rfl, .refl s, rfl, rfl, rfl⟩
  | cons k l ih =>
    obtain ⟨h1, h2, h3, h4, h5, h6, h7, h8, h9, h10, h11⟩ := ih (s.dropArm k)
    rw [dropArm_fivarSm] at h5
    rw [dropArm_fweight] at h6
    exact ⟨h1, h2, h3, h4, h5, h6, h7, ⟨h8.z, h8.dwave, h8.wave, h8.flux, h8.ivar, h8.reso⟩, h9,
      h10, h11⟩

/-- The arms that `drop_short_arms` drops. -/
def shortArms (s : Spectrum K) (lya1 lya2 skip : K) : List String :=
  (s.fivar.filter (fun x => decide ((numGood x.2 : Int) < s.minPixels lya1 lya2 skip))).map Prod.fst

theorem mem_shortArms {s : Spectrum K} (hn : s.fivar.keys.Nodup) {lya1 lya2 skip : K}
    {arm : String} :
    arm ∈ shortArms s lya1 lya2 skip ↔
      arm ∈ s.fivar.keys ∧ (numGood (s.fivar.arr arm) : Int) < s.minPixels lya1 lya2 skip := by
  unfold shortArms
  rw [List.mem_map]
  constructor
  · rintro ⟨x, hx, rfl⟩
    rw [List.mem_filter] at hx
    refine ⟨List.mem_map.mpr ⟨x, hx.1, rfl⟩, ?_⟩
    rw [arr_of_lookup (lookup_of_mem hn (a := x.1) (v := x.2) hx.1)]
    simpa using hx.2
  · rintro ⟨h1, h2⟩
    refine ⟨(arm, s.fivar.arr arm), ?_, rfl⟩
    rw [List.mem_filter]
    exact ⟨mem_of_lookup (lookup_eq_arr h1), by simpa using h2⟩

theorem truncInt_lt_iff [IsStrictOrderedRing K] {x : K} (hx : 0 ≤ x) (n : Nat) :
    (n : Int) < truncInt x + 1 ↔ (n : K) ≤ x := by
  unfold truncInt
  rw [if_pos hx, Int.lt_add_one_iff, Int.le_floor]
  simp

/-! ### Pixel weights -/

section
variable [IsStrictOrderedRing K]

theorem pixelWeight_facts {varlss eta cont v : K} (hv : 0 ≤ v) (he : 0 < eta) (hl : 0 ≤ varlss) :
    0 ≤ pixelWeight varlss eta cont v ∧ (pixelWeight varlss eta cont v = 0 ↔ v = 0) ∧
      pixelWeight varlss eta cont v ≤ v / eta ∧
      pixelWeight varlss eta cont v * (varlss * cont ^ 2) ≤ 1 ∧
      (0 < v → pixelWeight varlss eta cont v = 1 / (eta / v + varlss * cont ^ 2)) := by
  unfold pixelWeight
  have hq : 0 ≤ varlss * cont ^ 2 := mul_nonneg hl (sq_nonneg _)
  have hd : 0 < eta + v * (varlss * cont ^ 2) := by
    have := mul_nonneg hv hq
    linarith
  refine ⟨div_nonneg hv hd.le, ?_, ?_, ?_, ?_⟩
  · rw [div_eq_zero_iff]
    constructor
    · rintro (h | h)
      · exact h
      · exact absurd h hd.ne'
    · exact Or.inl
  · refine div_le_div_of_nonneg_left hv he ?_
    have := mul_nonneg hv hq
    linarith
  · rw [div_mul_eq_mul_div, div_le_one hd]
    linarith
  · intro hv'
    rw [div_eq_div_iff hd.ne']
    · field_simp
    · have : 0 < eta / v := div_pos he hv'
      linarith

theorem pixelWeight_mono {varlss eta cont v v' : K} (hv : 0 ≤ v) (hvv : v ≤ v') (he : 0 < eta)
    (hl : 0 ≤ varlss) : pixelWeight varlss eta cont v ≤ pixelWeight varlss eta cont v' := by
  unfold pixelWeight
  have hq : 0 ≤ varlss * cont ^ 2 := mul_nonneg hl (sq_nonneg _)
  have h1 := mul_nonneg hv hq
  have h2 := mul_nonneg (hv.trans hvv) hq
  rw [div_le_div_iff₀ (by linarith) (by linarith)]
  nlinarith

theorem pixelWeight_anti {varlss varlss' eta cont v : K} (hv : 0 ≤ v) (he : 0 < eta)
    (hl : 0 ≤ varlss) (hll : varlss ≤ varlss') :
    pixelWeight varlss' eta cont v ≤ pixelWeight varlss eta cont v := by
  unfold pixelWeight
  have hq : 0 ≤ varlss * cont ^ 2 := mul_nonneg hl (sq_nonneg _)
  have hq' : varlss * cont ^ 2 ≤ varlss' * cont ^ 2 := mul_le_mul_of_nonneg_right hll (sq_nonneg _)
  have h1 := mul_nonneg hv hq
  have h2 := mul_le_mul_of_nonneg_left hq' hv
  exact div_le_div_of_nonneg_left hv (by linarith) (by linarith)

end

theorem setForestWeight_lookup {s : Spectrum K} (hv : s.valid = true) (hc : s.cont ≠ [])
    (varlss eta : K → K) (arm : String) :
    (s.setForestWeight varlss eta).fweight.lookup arm =
      (s.fwave.lookup arm).map (fun wave =>
        armWeight varlss eta wave (s.cont.arr arm) (s.fivarSm.arr arm)) := by
  unfold setForestWeight
  rw [if_neg (by simp [hv, hc])]
  unfold fweight
  rw [Option.getD_some, lookup_mapVals]

theorem armWeight_getElem? {varlss eta : K → K} {wave cont ivar : List K} {i : Nat} {w c v : K}
    (hw : wave[i]? = some w) (hc : cont[i]? = some c) (hv : ivar[i]? = some v) :
    (armWeight varlss eta wave cont ivar)[i]? = some (pixelWeight (varlss w) (eta w) c v) := by
  unfold armWeight
  rw [List.getElem?_zipWith, hw]
  simp [List.zip, List.getElem?_zipWith, hc, hv]

end Verif.Proofs
