import Verif.Spec.Select
import Verif.Proofs.Aligned
import Verif.Proofs.Snr
import Verif.Proofs.Calibration
import Verif.Proofs.ExceptList

/-! Lemmas about the selection of spectra. -/

namespace Verif.Proofs
open Verif.Np Verif.Model Verif.Spec List Spectrum

section Lists

variable {α β : Type}

theorem flatMap_filter_of_nil {p : α → Bool} {g : α → List β} {l : List α}
    (h : ∀ x ∈ l, p x = false → g x = []) : (l.filter p).flatMap g = l.flatMap g := by
  induction l with
  | nil => rfl
  | cons x l ih =>
    rw [List.filter_cons, List.flatMap_cons, ← ih (fun y hy => h y (by simp [hy]))]
    by_cases hx : p x = true
    · rw [if_pos hx, List.flatMap_cons]
    · rw [if_neg hx, h x (by simp) (by simpa using hx), List.nil_append]

end Lists

variable {K : Type} [Field K] [LinearOrder K]

/-! ### Pixels -/

omit [Field K] [LinearOrder K] in
theorem zip3_map (F G : K → K → K) (w f v : List K) :
    w.zip ((List.zipWith F w f).zip (List.zipWith G w v)) =
      (w.zip (f.zip v)).map (fun p => (p.1, F p.1 p.2.1, G p.1 p.2.2)) := by
  induction w generalizing f v with
  | nil => rfl
  | cons a w ih =>
    cases f with
    | nil => simp
    | cons b f =>
      cases v with
      | nil => simp
      | cons c v => simp [ih]

omit [Field K] in
/-- Pixels after an operation on every pixel. -/
theorem allPixels_updAll {F G : K → K → K} {s : Spectrum K} (hs : Aligned s) :
    allPixels s.fwave (updAll (fun w y => List.zipWith F w y) (fun w y => List.zipWith G w y) s).fflux
      (updAll (fun w y => List.zipWith F w y) (fun w y => List.zipWith G w y) s).fivar =
    (allPixels s.fwave s.fflux s.fivar).map (fun p => (p.1, F p.1 p.2.1, G p.1 p.2.2)) := by
  unfold allPixels
  rw [List.map_flatMap]
  refine List.flatMap_congr fun a ha => ?_
  have hk : a.1 ∈ s.fwave.keys := List.mem_map.mpr ⟨a, ha, rfl⟩
  have hl : s.fwave.arr a.1 = a.2 := arr_of_lookup (lookup_of_mem hs.nodup ha)
  unfold updAll
  simp only
  rw [arr_mapVals (by rw [hs.fluxKeys]; exact hk), arr_mapVals (by rw [hs.ivarKeys]; exact hk), hl, zip3_map]

theorem etaApply_eq (eta : K → K) {s : Spectrum K} (hs : Aligned s) :
    s.fwave.foldl (etaArm eta) s = updAll (fun w y => List.zipWith (fun _ f => f) w y)
      (fun w y => List.zipWith (fun w v => v / eta w) w y) s := by
  have e : s.fwave.foldl (etaArm eta) s = _ :=
    foldl_setIvar (fun _ w y => List.zipWith (fun w v => v / eta w) w y) s.fwave s
  rw [e]
  have h := foldl_update_mapVals (F := fun w y => List.zipWith (fun w v => v / eta w) w y) hs.nodup hs.ivarKeys
  rw [h]
  have h2 : s.fflux = s.fflux.mapVals (fun a y => List.zipWith (fun _ f => f) (s.fwave.arr a) y) := by
    refine (mapVals_id fun a v hv => ?_).symm
    have hk : a ∈ s.fwave.keys := by
      rw [← hs.fluxKeys]; exact List.mem_map.mpr ⟨_, hv, rfl⟩
    have hl := lookup_eq_arr hk
    have h3 := lookup_of_mem (by rw [hs.fluxKeys]; exact hs.nodup) hv
    have hlen : v.length = (s.fwave.arr a).length := by rw [← arr_of_lookup h3]; exact hs.flux a _ hl
    generalize s.fwave.arr a = w at hlen
    induction w generalizing v with
    | nil => simp at hlen; simp [hlen]
    | cons b w ih =>
      cases v with
      | nil => simp at hlen
      | cons c v => 
        rw [List.zipWith_cons_cons]
        congr 1
        have : ∀ (w v : List K), v.length = w.length → List.zipWith (fun _ f => f) w v = v := by
          intro w
          induction w with
          | nil => intro v hv; simp at hv; simp [hv]
          | cons b w ih =>
            intro v hv
            cases v with
            | nil => simp at hv
            | cons c v => simpa using ih v (by simpa using hv)
        exact this w v (by simpa using hlen)
  unfold updAll
  rw [← h2]

/-! ### The region -/

variable [FloorRing K]


omit [FloorRing K] in
/-- An arm has a good forest pixel. -/
def armGood (z w1 w2 lya1 lya2 : K) (ivar : Dict (List K)) (a : String × List K) : Bool :=
  decide (HasGood (pixelsWhere (InForest z w1 w2 lya1 lya2) a.2 (ivar.arr a.1)))

theorem region_foldl_keys (l1 l2 : K) (l : Dict (List K)) (s : Spectrum K) (hn : l.keys.Nodup)
    (hd : ∀ a ∈ l.keys, a ∉ s.fwave.keys) :
    (l.foldl (fun s x => regionArm l1 l2 s x.1 x.2) s).fwave.keys = s.fwave.keys ++
      (l.filter (fun a => decide (HasGood (slice (s.ivar.arr a.1) (searchsorted a.2 l1) (searchsorted a.2 l2))))).map
        Prod.fst := by
  induction l generalizing s with
  | nil => simp
  | cons x l ih =>
    rw [keys_cons, List.nodup_cons] at hn
    have hx := hd x.1 (by rw [keys_cons]; simp)
    have hdata := regionArm_sameData l1 l2 s x.1 x.2
    have hk : (regionArm l1 l2 s x.1 x.2).fwave.keys = s.fwave.keys ++
        (if HasGood (slice (s.ivar.arr x.1) (searchsorted x.2 l1) (searchsorted x.2 l2)) then [x.1] else []) := by
      unfold regionArm
      simp only [numGood_eq_zero]
      by_cases h : HasGood (slice (s.ivar.arr x.1) (searchsorted x.2 l1) (searchsorted x.2 l2))
      · simp only [h, not_true_eq_false, if_false, if_true]
        rw [keys_set, if_neg hx]
      · simp only [h, not_false_eq_true, if_true, if_false, List.append_nil]
    rw [List.foldl_cons, ih _ hn.2, hk, hdata.ivar, List.filter_cons]
    · by_cases h : HasGood (slice (s.ivar.arr x.1) (searchsorted x.2 l1) (searchsorted x.2 l2)) <;> simp [h]
    · intro a ha
      rw [hk]
      have h1 := hd a (by rw [keys_cons]; simp [ha])
      have h2 : a ≠ x.1 := by rintro rfl; exact hn.1 ha
      split <;> simp [h1, h2]

/-- The forest of a new spectrum. -/
theorem region_blank {s : Spectrum K} (hs : DataOk s) (hf : Fresh s) (sqrt : K → K) (eps w1 w2 lya1 lya2 : K) :
    let t := s.setForestRegion sqrt eps w1 w2 lya1 lya2
    let arms := s.wave.filter (armGood s.z w1 w2 lya1 lya2 s.ivar)
    let F := InForest s.z w1 w2 lya1 lya2
    t.fwave.keys = arms.map Prod.fst ∧
    t.fwave = arms.map (fun a => (a.1, pixelsWhere F a.2 a.2)) ∧
    ∀ a ∈ arms, t.fwave.arr a.1 = pixelsWhere F a.2 a.2 ∧ t.fflux.arr a.1 = pixelsWhere F a.2 (s.flux.arr a.1) ∧
      t.fivar.arr a.1 = pixelsWhere F a.2 (s.ivar.arr a.1) := by
  intro t arms F
  have hk : t.fwave.keys = arms.map Prod.fst := by
    have h := region_foldl_keys (max w1 ((1 + s.z) * lya1)) (min w2 ((1 + s.z) * lya2)) s.wave s hs.nodup
      (fun a _ => by rw [hf.fwave]; simp)
    rw [hf.fwave] at h
    refine h.trans ?_
    rw [keys_nil, List.nil_append]
    congr 1
    refine List.filter_congr fun a ha => ?_
    have hl := lookup_of_mem hs.nodup ha
    have e := slice_inForest (s := s) (hs.sorted a.1 a.2 hl) w1 w2 lya1 lya2 (hs.ivar a.1 a.2 hl)
    simp only [armGood, e]
  have hv : ∀ a ∈ arms, List.lookup a.1 t.fwave = some (pixelsWhere F a.2 a.2) ∧
      t.fflux.arr a.1 = pixelsWhere F a.2 (s.flux.arr a.1) ∧
      t.fivar.arr a.1 = pixelsWhere F a.2 (s.ivar.arr a.1) := by
    intro a ha
    obtain ⟨h1, h2⟩ := List.mem_filter.mp ha
    have hl := lookup_of_mem hs.nodup h1
    have h := setForestRegion_arm hs sqrt eps w1 w2 lya1 lya2 hl
    rw [if_pos (by simpa [armGood] using h2)] at h
    unfold armView at h
    simp only [Prod.mk.injEq] at h
    rw [pixelsWhere_self]
    exact ⟨h.1, arr_of_lookup h.2.1, arr_of_lookup h.2.2.1⟩
  have hnd : (arms.map Prod.fst).Nodup := hs.nodup.sublist (List.filter_sublist.map _)
  refine ⟨hk, ?_, fun a ha => ⟨arr_of_lookup (hv a ha).1, (hv a ha).2⟩⟩
  refine eq_of_keys_of_lookup (by rw [hk]; exact hnd) ?_ ?_
  · rw [hk]; unfold Dict.keys; rw [List.map_map]; rfl
  · intro a ha
    rw [hk] at ha
    obtain ⟨x, hx, rfl⟩ := List.mem_map.mp ha
    rw [(hv x hx).1]
    refine (lookup_of_mem ?_ ?_).symm
    · unfold Dict.keys; rw [List.map_map]; exact hnd
    · exact List.mem_map.mpr ⟨x, hx, rfl⟩

omit [FloorRing K] in
theorem zip3_pixelsWhere {p : K → Prop} [DecidablePred p] {w f v : List K} (hf : f.length = w.length)
    (hv : v.length = w.length) :
    (pixelsWhere p w w).zip ((pixelsWhere p w f).zip (pixelsWhere p w v)) =
      (w.zip (f.zip v)).filter (fun x => decide (p x.1)) := by
  induction w generalizing f v with
  | nil => rfl
  | cons a w ih =>
    cases f with
    | nil => simp at hf
    | cons b f =>
      cases v with
      | nil => simp at hv
      | cons c v =>
        have := ih (f := f) (v := v) (by simpa using hf) (by simpa using hv)
        rw [pixelsWhere_cons, pixelsWhere_cons, pixelsWhere_cons]
        by_cases h : p a <;> simp [h, this]

/-- The good pixels of the forest of a new spectrum. -/
theorem forestGood_region {s : Spectrum K} (hs : DataOk s) (hf : Fresh s) (sqrt : K → K) (eps w1 w2 lya1 lya2 : K) :
    forestGood (s.setForestRegion sqrt eps w1 w2 lya1 lya2) =
      (allPixels s.wave s.flux s.ivar).filter (fun p => decide (0 < p.2.2 ∧ InForest s.z w1 w2 lya1 lya2 p.1)) := by
  obtain ⟨-, h1, h2⟩ := region_blank hs hf sqrt eps w1 w2 lya1 lya2
  unfold forestGood
  set t := s.setForestRegion sqrt eps w1 w2 lya1 lya2
  unfold allPixels
  rw [List.filter_flatMap, List.filter_flatMap, h1, List.flatMap_map]
  rw [← flatMap_filter_of_nil (p := armGood s.z w1 w2 lya1 lya2 s.ivar)
    (g := fun a => ((a.2.zip ((s.flux.arr a.1).zip (s.ivar.arr a.1))).filter
      (fun p => decide (0 < p.2.2 ∧ InForest s.z w1 w2 lya1 lya2 p.1))))]
  · refine List.flatMap_congr fun a ha => ?_
    have hl := lookup_of_mem hs.nodup (List.mem_filter.mp ha).1
    obtain ⟨-, e2, e3⟩ := h2 a ha
    simp only
    rw [e2, e3, zip3_pixelsWhere (hs.flux _ _ hl) (hs.ivar _ _ hl), List.filter_filter]
    refine List.filter_congr fun p _ => ?_
    simp
  · intro a ha hg
    have hl := lookup_of_mem hs.nodup ha
    rw [List.filter_eq_nil_iff]
    intro p hp hh
    rw [decide_eq_true_eq] at hh
    have hno : ¬ HasGood (pixelsWhere (InForest s.z w1 w2 lya1 lya2) a.2 (s.ivar.arr a.1)) := by
      simpa [armGood] using hg
    have hz : p ∈ (a.2.zip ((s.flux.arr a.1).zip (s.ivar.arr a.1))).filter
        (fun x => decide (InForest s.z w1 w2 lya1 lya2 x.1)) := List.mem_filter.mpr ⟨hp, by simpa using hh.2⟩
    rw [← zip3_pixelsWhere (hs.flux _ _ hl) (hs.ivar _ _ hl)] at hz
    exact hno ⟨p.2.2, (List.of_mem_zip (List.of_mem_zip (a := p.1) (b := p.2) hz).2).2, hh.1⟩

/-! ### Masks -/

omit [FloorRing K] in
theorem foldl_pop_eq {α : Type} (l : List String) (d : Dict α) :
    l.foldl (fun d k => Dict.pop d k) d = d.filter (fun x => decide (x.1 ∉ l)) := by
  induction l generalizing d with
  | nil => simp
  | cons k l ih =>
    rw [List.foldl_cons, ih]
    unfold Dict.pop
    rw [List.filter_filter]
    refine List.filter_congr fun x _ => ?_
    by_cases h : x.1 = k <;> simp [h]

theorem forestGood_dropEmpty [IsStrictOrderedRing K] {s : Spectrum K} (hs : Aligned s) :
    forestGood (s.dropShortArms 0 0 0) = forestGood s := by
  have ht : s.dropShortArms 0 0 0 = (shortArms s 0 0 0).foldl dropArm s := rfl
  obtain ⟨h1, h2, h3, -⟩ := foldl_dropArm (shortArms s 0 0 0) s
  have hn : s.fivar.keys.Nodup := by rw [hs.ivarKeys]; exact hs.nodup
  unfold forestGood allPixels
  rw [List.filter_flatMap, List.filter_flatMap, ht, h1, h2, h3, foldl_pop_eq _ s.fwave]
  rw [← flatMap_filter_of_nil (l := s.fwave) (p := fun x => decide (x.1 ∉ shortArms s 0 0 0))]
  · refine List.flatMap_congr fun a ha => ?_
    have hna : a.1 ∉ shortArms s 0 0 0 := by simpa using (List.mem_filter.mp ha).2
    have e : ∀ d : Dict (List K), (List.foldl (fun d k => Dict.pop d k) d (shortArms s 0 0 0)).arr a.1 = d.arr a.1 := by
      intro d
      unfold Dict.arr
      rw [lookup_foldl_pop, if_neg hna]
    rw [e, e]
  · intro a ha hg
    have hk : a.1 ∈ s.fwave.keys := List.mem_map.mpr ⟨a, ha, rfl⟩
    have hsa : a.1 ∈ shortArms s 0 0 0 := by simpa using hg
    rw [mem_shortArms hn] at hsa
    have h0 := hsa.2
    unfold minPixels at h0
    rw [truncInt_lt_iff (by simp)] at h0
    have h0' : numGood (s.fivar.arr a.1) = 0 := by
      have : ((numGood (s.fivar.arr a.1) : Nat) : K) ≤ 0 := by simpa using h0
      exact_mod_cast le_antisymm this (Nat.cast_nonneg _)
    rw [numGood_eq_zero] at h0'
    rw [List.filter_eq_nil_iff]
    intro p hp hh
    rw [decide_eq_true_eq] at hh
    exact h0' ⟨p.2.2, (List.of_mem_zip (List.of_mem_zip (a := p.1) (b := p.2) hp).2).2, hh⟩

omit [FloorRing K] in
theorem dlaFactor_eq [IsStrictOrderedRing K] (dlaFlux : K → K → K → K) (cat : List (DlaRow K)) (ids : List Int)
    (id : Int) (hid : id ∈ ids) (z w : K) :
    let T := transmission dlaFlux cat id z w
    let f := dlaFactors dlaFlux (dlaInit cat (some ids) (8 / 10)).limit z
      (List.lookup id (dlaInit cat (some ids) (8 / 10)).groups)
    f.1 w = (if T < 8 / 10 then 0 else T⁻¹) ∧ f.2 w = (if T < 8 / 10 then 0 else T ^ 2) := by
  obtain ⟨h1, h2⟩ := dlaInit_lookup cat (some ids) (8 / 10 : K) id
  have hloc : (localRows cat (some ids)).filter (fun r => decide (r.targetid = id)) =
      cat.filter (fun r => decide (r.targetid = id)) := by
    unfold localRows
    simp only
    rw [List.filter_filter]
    refine List.filter_congr fun r _ => ?_
    by_cases hr : r.targetid = id
    · simp [hr, hid]
    · simp [hr]
  rw [hloc] at h1 h2
  intro T f
  cases hg : List.lookup id (dlaInit cat (some ids) (8 / 10 : K)).groups with
  | none =>
    have hT : T = 1 := by
      change transmission dlaFlux cat id z w = 1
      unfold transmission
      rw [h2 hg]
      simp
    have hlt : ¬ T < 8 / 10 := by rw [hT]; norm_num
    have hf : f = (fun _ => 1, fun _ => 1) := by
      change dlaFactors _ _ _ (List.lookup id _) = _
      rw [hg]
      rfl
    rw [hf, if_neg hlt, if_neg hlt, hT]
    simp
  | some g =>
    have hT : T = if w < (1 + z) * (121567 / 100) then (g.map (fun r => dlaFlux w r.z r.nhi)).prod else 1 := by
      change transmission dlaFlux cat id z w = _
      unfold transmission
      rw [((h1 g hg).1.map (fun r => dlaFlux w r.z r.nhi)).prod_eq]
    have hf : f = dlaFactors dlaFlux (8 / 10) z (some g) := by
      change dlaFactors _ _ _ (List.lookup id _) = _
      rw [hg]
      rfl
    rw [hf]
    unfold dlaFactors corrected
    simp only
    rw [← hT]
    by_cases h : T < 8 / 10 <;> simp [h]

omit [FloorRing K] in
theorem maskFactors [IsStrictOrderedRing K] (C : SelectCfg K) (x : ReadSpec K) {ids : List Int}
    (hid : x.row.targetid ∈ ids) (w : K) :
    ((C.maskers ids).map (fun m => (factors C.dlaFlux x.row x.spec.z m).1 w)).prod =
      (if IsMasked C x w then 0 else (dlaAt C x w)⁻¹) ∧
    ((C.maskers ids).map (fun m => (factors C.dlaFlux x.row x.spec.z m).2 w)).prod =
      (if IsMasked C x w then 0 else dlaAt C x w ^ 2) := by
  have e1 : ∀ g : Masker K → K, (((C.sky.map Masker.sky).toList).map g).prod =
      match C.sky with
      | some l => g (.sky l)
      | none => 1 := by
    intro g
    cases C.sky <;> simp
  have e2 : ∀ g : Masker K → K, ((if C.bal then [Masker.bal] else []).map g).prod = if C.bal then g .bal else 1 := by
    intro g
    cases C.bal <;> simp
  have e3 : ∀ g : Masker K → K, (((C.dla.map (fun cat => Masker.dla (dlaInit cat (some ids) (8 / 10)))).toList).map g).prod =
      match C.dla with
      | some cat => g (.dla (dlaInit cat (some ids) (8 / 10)))
      | none => 1 := by
    intro g
    cases C.dla <;> simp
  have A : ∀ g : Masker K → K, ((C.maskers ids).map g).prod = _ := fun g => by
    unfold SelectCfg.maskers
    rw [List.map_append, List.map_append, List.prod_append, List.prod_append, e1, e2, e3]
  rw [A, A]
  have hs : ∀ g : Masker K → K, (∀ l, g (.sky l) = if SkyMasked l x.spec.z w then 0 else 1) →
      (match C.sky with
      | some l => g (.sky l)
      | none => 1) = if inSky C x.spec.z w then 0 else 1 := by
    intro g hg
    by_cases h : inSky C x.spec.z w
    · rw [if_pos h]
      unfold inSky at h
      cases hk : C.sky with
      | none => rw [hk] at h; simp [SkyMasked] at h
      | some l => rw [hk] at h; exact (hg l).trans (if_pos h)
    · rw [if_neg h]
      unfold inSky at h
      cases hk : C.sky with
      | none => rfl
      | some l => rw [hk] at h; exact (hg l).trans (if_neg h)
  have hb1 : (if C.bal then (factors C.dlaFlux x.row x.spec.z .bal).1 w else 1) =
      if C.bal = true ∧ BalMasked x.row x.spec.z w then 0 else 1 := by
    unfold factors
    cases C.bal <;> simp
  have hb2 : (if C.bal then (factors C.dlaFlux x.row x.spec.z .bal).2 w else 1) =
      if C.bal = true ∧ BalMasked x.row x.spec.z w then 0 else 1 := by
    unfold factors
    cases C.bal <;> simp
  have hd : (match C.dla with
      | some cat => (factors C.dlaFlux x.row x.spec.z (.dla (dlaInit cat (some ids) (8 / 10)))).1 w
      | none => 1) = (if dlaAt C x w < 8 / 10 then 0 else (dlaAt C x w)⁻¹) ∧
      (match C.dla with
      | some cat => (factors C.dlaFlux x.row x.spec.z (.dla (dlaInit cat (some ids) (8 / 10)))).2 w
      | none => 1) = (if dlaAt C x w < 8 / 10 then 0 else dlaAt C x w ^ 2) := by
    unfold dlaAt
    cases C.dla with
    | none =>
      have : ¬ (1 : K) < 8 / 10 := by norm_num
      simp [this]
    | some cat => exact dlaFactor_eq C.dlaFlux cat ids x.row.targetid hid x.spec.z w
  rw [hs (fun m => (factors C.dlaFlux x.row x.spec.z m).1 w) (fun _ => rfl),
    hs (fun m => (factors C.dlaFlux x.row x.spec.z m).2 w) (fun _ => rfl), hb1, hb2, hd.1, hd.2]
  unfold IsMasked
  by_cases h1 : inSky C x.spec.z w <;> by_cases h2 : C.bal = true ∧ BalMasked x.row x.spec.z w <;>
    by_cases h3 : dlaAt C x w < 8 / 10 <;> simp [h1, h2, h3]

/-- The good pixels of the forest after masking. -/
theorem forestGood_masks [IsStrictOrderedRing K] (C : SelectCfg K) (x : ReadSpec K) {ids : List Int}
    (hid : x.row.targetid ∈ ids) {s : Spectrum K} (hs : Aligned s) (hz : 0 < 1 + s.z) (hsz : s.z = x.spec.z) :
    forestGood (applyMasks C.dlaFlux x.row (C.maskers ids) s) =
      ((forestGood s).filter (fun p => decide (¬ IsMasked C x p.1))).map
        (fun p => (p.1, p.2.1 / dlaAt C x p.1, p.2.2 * dlaAt C x p.1 ^ 2)) := by
  have hF := fun w => (maskFactors C x hid w).1
  have hG := fun w => (maskFactors C x hid w).2
  have hpos : ∀ w, ¬ IsMasked C x w → 0 < dlaAt C x w := by
    intro w h
    unfold IsMasked at h
    push Not at h
    have := h.2.2
    have h8 : (0 : K) < 8 / 10 := by norm_num
    linarith
  have main : ∀ t : Spectrum K, t = updAll
      (fun w y => List.zipWith (fun w f => f * (if IsMasked C x w then 0 else (dlaAt C x w)⁻¹)) w y)
      (fun w y => List.zipWith (fun w v => v * (if IsMasked C x w then 0 else dlaAt C x w ^ 2)) w y) s →
      forestGood t = ((forestGood s).filter (fun p => decide (¬ IsMasked C x p.1))).map
        (fun p => (p.1, p.2.1 / dlaAt C x p.1, p.2.2 * dlaAt C x p.1 ^ 2)) := by
    intro t ht
    have hw : t.fwave = s.fwave := by rw [ht]; rfl
    unfold forestGood
    rw [hw, ht, allPixels_updAll hs, List.filter_map, List.filter_filter]
    have e : (allPixels s.fwave s.fflux s.fivar).filter ((fun p => decide (0 < p.2.2)) ∘
        (fun p : K × K × K => (p.1, p.2.1 * (if IsMasked C x p.1 then 0 else (dlaAt C x p.1)⁻¹),
          p.2.2 * (if IsMasked C x p.1 then 0 else dlaAt C x p.1 ^ 2)))) =
        (allPixels s.fwave s.fflux s.fivar).filter (fun p => decide (¬ IsMasked C x p.1) && decide (0 < p.2.2)) := by
      refine List.filter_congr fun p _ => ?_
      simp only [Function.comp]
      by_cases h : IsMasked C x p.1
      · simp [h]
      · simp only [h, if_false, not_false_eq_true, decide_true, Bool.true_and, decide_eq_decide]
        have := hpos p.1 h
        have h2 : 0 < dlaAt C x p.1 ^ 2 := by positivity
        rw [mul_comm]
        exact mul_pos_iff_of_pos_left h2
    rw [e]
    refine List.map_congr_left fun p hp => ?_
    have hm : ¬ IsMasked C x p.1 := by
      have := (List.mem_filter.mp hp).2
      simp only [Bool.and_eq_true, decide_eq_true_eq] at this
      exact this.1
    simp only [hm, if_false, div_eq_mul_inv]
  cases hm : C.maskers ids with
  | nil =>
    rw [hm] at hF hG
    simp only [List.map_nil, List.prod_nil] at hF hG
    change forestGood s = _
    refine main s ?_
    have h := maskers_foldl_eq C.dlaFlux x.row [] hs hz
    simp only [List.map_nil, List.prod_nil] at h
    simp only [← hF, ← hG]
    exact h
  | cons m l =>
    have h : applyMasks C.dlaFlux x.row (m :: l) s =
      ((m :: l).foldl (fun t m => m.apply C.dlaFlux x.row t) s).dropShortArms 0 0 0 := rfl
    rw [h, maskers_foldl_eq _ _ _ hs hz, ← hm, hsz]
    simp only [hF, hG]
    rw [forestGood_dropEmpty]
    · exact main _ rfl
    · exact aligned_updAll hs (fun _ _ h => length_scaled _ h) (fun _ _ h => length_scaled _ h)

/-- Masks leave `mean_snr`, redshift and pixel width. -/
theorem masks_same [IsStrictOrderedRing K] (dlaFlux : K → K → K → K) (row : MaskRow K) (m : List (Masker K))
    {s : Spectrum K} (hs : Aligned s) (hz : 0 < 1 + s.z) :
    (applyMasks dlaFlux row m s).meanSnr = s.meanSnr ∧ (applyMasks dlaFlux row m s).z = s.z ∧
    (applyMasks dlaFlux row m s).dwave = s.dwave := by
  cases m with
  | nil => exact ⟨rfl, rfl, rfl⟩
  | cons m l =>
    have h : applyMasks dlaFlux row (m :: l) s =
      ((m :: l).foldl (fun t m => m.apply dlaFlux row t) s).dropShortArms 0 0 0 := rfl
    rw [h, maskers_foldl_eq _ _ _ hs hz]
    set t := updAll (scaled fun w => ((m :: l).map fun m => (factors dlaFlux row s.z m).1 w).prod)
      (scaled fun w => ((m :: l).map fun m => (factors dlaFlux row s.z m).2 w).prod) s with ht
    have ht' : t.dropShortArms 0 0 0 = (shortArms t 0 0 0).foldl dropArm t := rfl
    obtain ⟨-, -, -, -, -, -, -, h8, -, h10, -⟩ := foldl_dropArm (shortArms t 0 0 0) t
    rw [ht', h10]
    exact ⟨rfl, h8.z, h8.dwave⟩

theorem masks_aligned [IsStrictOrderedRing K] (dlaFlux : K → K → K → K) (row : MaskRow K) (m : List (Masker K))
    {s : Spectrum K} (hs : Aligned s) (hz : 0 < 1 + s.z) : Aligned (applyMasks dlaFlux row m s) := by
  cases m with
  | nil => exact hs
  | cons m l =>
    have h : applyMasks dlaFlux row (m :: l) s =
      ((m :: l).foldl (fun t m => m.apply dlaFlux row t) s).dropShortArms 0 0 0 := rfl
    rw [h, maskers_foldl_eq _ _ _ hs hz]
    exact dropArms_aligned _ (aligned_updAll hs (fun _ _ h => length_scaled _ h) (fun _ _ h => length_scaled _ h))

omit [Field K] [LinearOrder K] [FloorRing K] in
theorem dict_eq_map {α : Type} {d : Dict (List α)} (hn : d.keys.Nodup) :
    d = d.keys.map (fun k => (k, d.arr k)) := by
  unfold Dict.keys
  rw [List.map_map]
  conv_lhs => rw [← List.map_id d]
  refine List.map_congr_left fun x hx => ?_
  have := arr_of_lookup (lookup_of_mem hn hx)
  simp only [id, Function.comp, this]

omit [FloorRing K] in
theorem length_good_zip {w f v : List K} (hf : f.length = w.length) (hv : v.length = w.length) :
    ((w.zip (f.zip v)).filter (fun p => decide (0 < p.2.2))).length = numGood v := by
  unfold numGood
  induction w generalizing f v with
  | nil => simp at hv; simp [hv]
  | cons a w ih =>
    cases f with
    | nil => simp at hf
    | cons b f =>
      cases v with
      | nil => simp at hv
      | cons c v =>
        have := ih (f := f) (v := v) (by simpa using hf) (by simpa using hv)
        rw [List.zip_cons_cons, List.zip_cons_cons, List.filter_cons, List.countP_cons]
        by_cases h : 0 < c <;> simp [h, this]

omit [FloorRing K] in
theorem realSize_eq {s : Spectrum K} (hs : Aligned s) : s.realSize = (forestGood s).length := by
  unfold realSize forestGood allPixels
  have hn : s.fivar.keys.Nodup := by rw [hs.ivarKeys]; exact hs.nodup
  rw [List.filter_flatMap, List.length_flatMap]
  conv_lhs => rw [dict_eq_map hn]
  rw [List.map_map, hs.ivarKeys]
  unfold Dict.keys
  rw [List.map_map]
  congr 1
  refine List.map_congr_left fun a ha => ?_
  have hl := lookup_of_mem hs.nodup ha
  exact (length_good_zip (hs.flux _ _ hl) (hs.ivar _ _ hl)).symm

/-- The signal-to-noise of the arms of a new forest. -/
theorem region_meanSnr {s : Spectrum K} (hs : DataOk s) (hf : Fresh s) (C : SelectCfg K)
    (hA : Aligned (s.setForestRegion C.sqrt C.eps C.wave1 C.wave2 C.forestW1 C.forestW2))
    (h0 : ∀ v, v ≤ 0 → C.sqrt v = 0) :
    (s.setForestRegion C.sqrt C.eps C.wave1 C.wave2 C.forestW1 C.forestW2).meanSnr.map Prod.snd = armSnrs C s := by
  obtain ⟨h1, -, h2⟩ := region_blank hs hf C.sqrt C.eps C.wave1 C.wave2 C.forestW1 C.forestW2
  have hu : ∃ u, s.setForestRegion C.sqrt C.eps C.wave1 C.wave2 C.forestW1 C.forestW2 =
    setForestRelatedParameters C.sqrt C.eps u := ⟨_, rfl⟩
  obtain ⟨u, hu⟩ := hu
  generalize s.setForestRegion C.sqrt C.eps C.wave1 C.wave2 C.forestW1 C.forestW2 = t at hA h1 h2 hu ⊢
  have hn : t.fivar.keys.Nodup := by rw [hA.ivarKeys]; exact hA.nodup
  have hm : t.meanSnr = t.fivar.mapVals (fun arm v => snrOf C.sqrt (t.fflux.arr arm) v) := by
    subst hu
    exact (related_eq C.sqrt C.eps u hn).2
  rw [hm, dict_eq_map hn]
  unfold Dict.mapVals armSnrs
  rw [List.map_map, List.map_map, hA.ivarKeys, h1, List.map_map]
  refine List.map_congr_left fun a ha => ?_
  obtain ⟨-, e2, e3⟩ := h2 a ha
  simp only [Function.comp]
  rw [e2, e3, snrOf_eq _ h0]

/-! ### One spectrum -/

/-- Noise calibration of one spectrum. -/
def etaOne (C : SelectCfg K) (s : Spectrum K) : Spectrum K :=
  match C.eta with
  | some eta => s.fwave.foldl (etaArm eta) s
  | none => s

/-- Flux calibration of one spectrum. -/
def fluxOne (C : SelectCfg K) (s : Spectrum K) : Spectrum K :=
  match C.stack with
  | some st => s.fwave.foldl (fluxArm st) s
  | none => s

omit [Field K] [LinearOrder K] [FloorRing K] in
theorem setSpecs_map (l : List (ReadSpec K)) (g : Spectrum K → Spectrum K) :
    SelectCfg.setSpecs l ((l.map (·.spec)).map g) = l.map (fun x => { x with spec := g x.spec }) := by
  unfold SelectCfg.setSpecs
  induction l with
  | nil => rfl
  | cons x l ih => rw [List.map_cons, List.map_cons, List.zipWith_cons_cons, ih, List.map_cons]

omit [FloorRing K] in
theorem noise_eq (C : SelectCfg K) (l : List (ReadSpec K)) :
    C.noise l = .ok (l.map (fun x => { x with spec := etaOne C x.spec })) := by
  unfold SelectCfg.noise etaOne
  cases C.eta with
  | none => simp [pure, Except.pure]
  | some eta =>
    have h : NoiseCal.apply ⟨eta, none⟩ (l.map (·.spec)) =
      .ok ((l.map (·.spec)).map (fun s => s.fwave.foldl (etaArm eta) s)) := rfl
    simp only [h]
    change Except.ok _ = _
    rw [setSpecs_map]

omit [LinearOrder K] [FloorRing K] in
theorem flux_eq (C : SelectCfg K) (l : List (ReadSpec K)) :
    C.flux l = l.map (fun x => { x with spec := fluxOne C x.spec }) := by
  unfold SelectCfg.flux fluxOne
  cases C.stack with
  | none => simp
  | some st => exact setSpecs_map l _

/-- Calibrations and masks for one spectrum. -/
def treatOne (C : SelectCfg K) (ids : List Int) (x : ReadSpec K) : ReadSpec K :=
  { x with spec := applyMasks C.dlaFlux x.row (C.maskers ids) (fluxOne C (etaOne C x.spec)) }

/-- The cuts after the masks. -/
def keepTreated (C : SelectCfg K) (x : ReadSpec K) : Bool :=
  decide (C.skip = 0 ∨ x.spec.isLong (C.forestW2 - C.forestW1) C.skip = true) &&
    decide (C.minSnr ≤ x.spec.effectiveMeansnr C.eps8)

theorem select_eq {Cat : Type} (C : SelectCfg K) (reader : Cat → Except Err (List (ReadSpec K))) (ids : List Int)
    (queue : List Cat) :
    C.select reader ids queue = (C.readLocal reader queue).bind
      (fun l => .ok ((l.map (treatOne C ids)).filter (keepTreated C))) := by
  unfold SelectCfg.select
  cases h : C.readLocal reader queue with
  | error e => rfl
  | ok l =>
    simp only [noise_eq]
    change Except.ok _ = Except.ok _
    congr 1
    rw [flux_eq]
    unfold SelectCfg.mask SelectCfg.removeShort
    rw [List.map_map, List.map_map]
    change List.filter _ (if C.skip = 0 then l.map (treatOne C ids) else List.filter _ (l.map (treatOne C ids))) = _
    unfold keepTreated
    by_cases hs : C.skip = 0
    · rw [if_pos hs]
      refine List.filter_congr fun x _ => ?_
      simp [hs]
    · rw [if_neg hs, List.filter_filter]
      refine List.filter_congr fun x _ => ?_
      simp [hs, Bool.and_comm]

omit [Field K] [LinearOrder K] [FloorRing K] in
theorem length_zipWith_of (f : K → K → K) : ∀ w y : List K, y.length = w.length →
    (List.zipWith f w y).length = w.length := by
  intro w y h
  rw [List.length_zipWith, h, min_self]

omit [FloorRing K] in
theorem etaOne_same [IsStrictOrderedRing K] (C : SelectCfg K) (heta : ∀ eta, C.eta = some eta → ∀ w, 0 < eta w)
    {s : Spectrum K} (hs : Aligned s) :
    Aligned (etaOne C s) ∧ (etaOne C s).z = s.z ∧ (etaOne C s).dwave = s.dwave ∧ (etaOne C s).meanSnr = s.meanSnr ∧
    (etaOne C s).fwave = s.fwave ∧
    forestGood (etaOne C s) = (forestGood s).map (fun p => (p.1, p.2.1, p.2.2 / (C.eta.getD (fun _ => 1)) p.1)) := by
  cases he : C.eta with
  | none =>
    have h : etaOne C s = s := by unfold etaOne; rw [he]
    rw [h]
    exact ⟨hs, rfl, rfl, rfl, rfl, by simp⟩
  | some eta =>
    have h : etaOne C s = s.fwave.foldl (etaArm eta) s := by unfold etaOne; rw [he]
    rw [h, etaApply_eq eta hs]
    refine ⟨aligned_updAll hs (length_zipWith_of _) (length_zipWith_of _), rfl, rfl, rfl, rfl, ?_⟩
    have hp := heta eta he
    unfold forestGood
    change List.filter _ (allPixels s.fwave _ _) = _
    rw [allPixels_updAll hs, List.filter_map]
    congr 1
    refine List.filter_congr fun p _ => ?_
    simp only [Function.comp, decide_eq_decide]
    exact div_pos_iff_of_pos_right (hp p.1)

omit [FloorRing K] in
theorem fluxOne_same [IsStrictOrderedRing K] (C : SelectCfg K) (hst : ∀ st, C.stack = some st → ∀ w, st w ≠ 0)
    {s : Spectrum K} (hs : Aligned s) :
    Aligned (fluxOne C s) ∧ (fluxOne C s).z = s.z ∧ (fluxOne C s).dwave = s.dwave ∧ (fluxOne C s).meanSnr = s.meanSnr ∧
    (fluxOne C s).fwave = s.fwave ∧
    forestGood (fluxOne C s) = (forestGood s).map (fun p => (p.1, p.2.1 / (C.stack.getD (fun _ => 1)) p.1,
      p.2.2 * (C.stack.getD (fun _ => 1)) p.1 ^ 2)) := by
  cases he : C.stack with
  | none =>
    have h : fluxOne C s = s := by unfold fluxOne; rw [he]
    rw [h]
    exact ⟨hs, rfl, rfl, rfl, rfl, by simp⟩
  | some st =>
    have h : fluxOne C s = s.fwave.foldl (fluxArm st) s := by unfold fluxOne; rw [he]
    have h2 : s.fwave.foldl (fluxArm st) s = _ := foldl_updArm_eq
      (fun w y => List.zipWith (fun w f => f / st w) w y) (fun w y => List.zipWith (fun w v => v * st w ^ 2) w y) hs
    rw [h, h2]
    refine ⟨aligned_updAll hs (length_zipWith_of _) (length_zipWith_of _), rfl, rfl, rfl, rfl, ?_⟩
    have hp := hst st he
    unfold forestGood
    change List.filter _ (allPixels s.fwave _ _) = _
    rw [allPixels_updAll hs, List.filter_map]
    congr 1
    refine List.filter_congr fun p _ => ?_
    simp only [Function.comp, decide_eq_decide]
    have := hp p.1
    exact mul_pos_iff_of_pos_right (by positivity)

theorem region_fresh {s : Spectrum K} (hs : DataOk s) (hf : Fresh s) (sqrt : K → K) (eps w1 w2 lya1 lya2 : K) :
    Core (s.setForestRegion sqrt eps w1 w2 lya1 lya2) ∧ Aligned (s.setForestRegion sqrt eps w1 w2 lya1 lya2) := by
  have h0 : Core s := by
    refine ⟨?_, ?_, ?_, ?_, ?_, ?_, ?_, ?_, ?_⟩ <;> simp [hf.fwave, hf.fflux, hf.fivar, hf.freso, Dict.keys]
  have hfold := region_foldl_core (max w1 ((1 + s.z) * lya1)) (min w2 ((1 + s.z) * lya2)) s.wave
    h0 (Or.inr hf.freso) (fun x hx => by
      have hl := lookup_of_mem hs.nodup (a := x.1) (v := x.2) hx
      exact ⟨hs.sorted _ _ hl, hs.flux _ _ hl, hs.ivar _ _ hl, hs.reso _ _ hl⟩)
  have hc : Core (s.setForestRegion sqrt eps w1 w2 lya1 lya2) := by
    obtain ⟨h1, h2, h3, h4, h5, h6, h7, h8, h9⟩ := hfold.1
    exact ⟨h1, h2, h3, h4, h5, h6, h7, h8, h9⟩
  exact ⟨hc, hc.aligned rfl rfl⟩

omit [FloorRing K] in
theorem fwave_nil_iff {s : Spectrum K} (hs : Aligned s) (hg : ∀ arm ∈ s.fivar.keys, HasGood (s.fivar.arr arm)) :
    s.fwave = [] ↔ forestGood s = [] := by
  constructor
  · intro h
    unfold forestGood allPixels
    rw [h]
    rfl
  · intro h
    have h1 := realSize_eq hs
    rw [h] at h1
    cases hw : s.fwave with
    | nil => rfl
    | cons a l =>
      exfalso
      have hk : a.1 ∈ s.fivar.keys := by rw [hs.ivarKeys, hw]; simp
      have hg1 := hg a.1 hk
      obtain ⟨x, hx, hxa⟩ := List.mem_map.mp hk
      have hl := arr_of_lookup (lookup_of_mem (by rw [hs.ivarKeys]; exact hs.nodup) hx)
      rw [← hxa, hl] at hg1
      have h2 : numGood x.2 ≤ s.realSize := by
        unfold realSize
        exact List.single_le_sum (fun _ _ => Nat.zero_le _) _ (List.mem_map.mpr ⟨x, hx, rfl⟩)
      rw [h1] at h2
      have h3 : numGood x.2 = 0 := by simpa using h2
      exact numGood_eq_zero.mp h3 hg1

/-- Conditions on a spectrum that was read. -/
structure ReadOk (x : ReadSpec K) : Prop where
  data : DataOk x.spec
  fresh : Fresh x.spec
  zpos : 0 < 1 + x.spec.z

theorem setForest_same (C : SelectCfg K) {x : ReadSpec K} (hx : ReadOk x) (h0 : ∀ v, v ≤ 0 → C.sqrt v = 0) :
    let t := (C.setForest x).spec
    Aligned t ∧ t.z = x.spec.z ∧ t.dwave = x.spec.dwave ∧ t.meanSnr.map Prod.snd = armSnrs C x.spec ∧
    forestGood t = readGood C x.spec ∧ (t.fwave ≠ [] ↔ readGood C x.spec ≠ []) := by
  have hd := setForestRegion_sameData C.sqrt C.eps x.spec C.wave1 C.wave2 C.forestW1 C.forestW2
  obtain ⟨hc, hA⟩ := region_fresh hx.data hx.fresh C.sqrt C.eps C.wave1 C.wave2 C.forestW1 C.forestW2
  have hm := region_meanSnr hx.data hx.fresh C hA h0
  have hg := forestGood_region hx.data hx.fresh C.sqrt C.eps C.wave1 C.wave2 C.forestW1 C.forestW2
  have hn := fwave_nil_iff hA hc.good
  intro t
  have ht : t = (x.spec.setForestRegion C.sqrt C.eps C.wave1 C.wave2 C.forestW1 C.forestW2).removeNonforestPixels := rfl
  rw [ht]
  generalize x.spec.setForestRegion C.sqrt C.eps C.wave1 C.wave2 C.forestW1 C.forestW2 = u at hd hc hA hm hg hn ⊢
  refine ⟨⟨hA.nodup, hA.fluxKeys, hA.ivarKeys, hA.smKeys, hA.weightKeys, hA.resoKeys, hA.sorted, hA.flux, hA.ivar,
      hA.sm, hA.weight, hA.reso⟩, hd.z, hd.dwave, hm, hg, ?_⟩
  rw [hg] at hn
  exact not_congr hn

theorem mapM_append_ok {α β : Type} {f : α → Except Err β} {l m : List α} {out : List β} :
    (l ++ m).mapM f = .ok out ↔ ∃ a b, l.mapM f = .ok a ∧ m.mapM f = .ok b ∧ out = a ++ b := by
  rw [List.mapM_append]
  cases l.mapM f with
  | error e => simp
  | ok a =>
    cases m.mapM f with
    | error e => simp
    | ok b => simp [eq_comm]

theorem readLocal_append {Cat : Type} (C : SelectCfg K) (reader : Cat → Except Err (List (ReadSpec K)))
    (q q' : List Cat) (out : List (ReadSpec K)) :
    C.readLocal reader (q ++ q') = .ok out ↔
      ∃ a b, C.readLocal reader q = .ok a ∧ C.readLocal reader q' = .ok b ∧ out = a ++ b := by
  have hd : ∀ l, C.readLocal reader l = (l.mapM reader).bind (fun r => (fun l =>
      if C.coaddBefore then l.mapM C.coadd else .ok l)
        (r.flatMap (fun specs => (specs.map C.setForest).filter C.keepRead))) := fun _ => rfl
  rw [hd, hd, hd, List.mapM_append]
  cases q.mapM reader with
  | error e => simp [Except.bind]
  | ok a =>
    cases q'.mapM reader with
    | error e => simp [Except.bind]
    | ok b =>
      simp only [except_bind_ok, except_pure, Except.bind, List.flatMap_append]
      by_cases hc : C.coaddBefore = true
      · simp only [hc, if_true]
        exact mapM_append_ok
      · simp [hc, eq_comm]

theorem maskFactors_ids [IsStrictOrderedRing K] (C : SelectCfg K) (ids ids' : List Int) {row : MaskRow K}
    (hid : row.targetid ∈ ids) (hid' : row.targetid ∈ ids') {s : Spectrum K} (hs : Aligned s) (hz : 0 < 1 + s.z) :
    applyMasks C.dlaFlux row (C.maskers ids) s = applyMasks C.dlaFlux row (C.maskers ids') s := by
  have h1 := fun w => maskFactors C ⟨row, 0, s⟩ hid w
  have h2 := fun w => maskFactors C ⟨row, 0, s⟩ hid' w
  have e1 := maskers_foldl_eq C.dlaFlux row (C.maskers ids) hs hz
  have e2 := maskers_foldl_eq C.dlaFlux row (C.maskers ids') hs hz
  simp only [(h1 _).1, (h1 _).2] at e1
  simp only [(h2 _).1, (h2 _).2] at e2
  have hl : (C.maskers ids).length = (C.maskers ids').length := by
    unfold SelectCfg.maskers
    cases C.dla <;> simp
  rw [← e1] at e2
  unfold applyMasks
  revert hl e2
  cases C.maskers ids with
  | nil =>
    cases C.maskers ids' with
    | nil => intros; rfl
    | cons m l => simp
  | cons m l =>
    cases C.maskers ids' with
    | nil => simp
    | cons m' l' =>
      intro e2 _
      change dropShortArms _ 0 0 0 = dropShortArms _ 0 0 0
      rw [e2]

end Verif.Proofs
