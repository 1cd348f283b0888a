import Verif.Proofs.MaskSeq

/-! The forest arrays stay aligned. -/

namespace Verif.Proofs
open Verif.Np Verif.Model Verif.Spec List Spectrum

section
variable {α β : Type}

theorem length_slice_eq {a : List α} {b : List β} (h : a.length = b.length) (i j : Nat) :
    (slice a i j).length = (slice b i j).length := by
  unfold slice; simp [h]

theorem pairwise_slice {r : α → α → Prop} {l : List α} (h : l.Pairwise r) (i j : Nat) :
    (slice l i j).Pairwise r := by
  unfold slice
  exact ((h.sublist (List.take_sublist _ _)).sublist (List.drop_sublist _ _))

theorem keys_set_congr {d : Dict α} {e : Dict β} (h : d.keys = e.keys) (k : String) (v : α) (w : β) :
    (d.set k v).keys = (e.set k w).keys := by
  rw [keys_set, keys_set, h]

end

variable {K : Type} [Field K] [LinearOrder K] [FloorRing K]

/-- The part of `Aligned` without smoothed ivar and weights, with a good pixel in every arm. -/
structure Core (s : Spectrum K) : Prop where
  nodup : s.fwave.keys.Nodup
  fluxKeys : s.fflux.keys = s.fwave.keys
  ivarKeys : s.fivar.keys = s.fwave.keys
  resoKeys : ∀ arm ∈ s.freso.keys, arm ∈ s.fwave.keys
  sorted : ∀ arm w, s.fwave.lookup arm = some w → w.Pairwise (· < ·)
  flux : ∀ arm w, s.fwave.lookup arm = some w → (s.fflux.arr arm).length = w.length
  ivar : ∀ arm w, s.fwave.lookup arm = some w → (s.fivar.arr arm).length = w.length
  reso : ∀ arm w, s.fwave.lookup arm = some w → ∀ r ∈ s.freso.arr arm, r.length = w.length
  good : ∀ arm ∈ s.fivar.keys, HasGood (s.fivar.arr arm)

/-- There is no resolution of a region while the spectrum has none. -/
def ResoSame (s : Spectrum K) : Prop := s.wave = [] ∨ s.reso ≠ [] ∨ s.freso = []

theorem regionArm_core (l1 l2 : K) {s : Spectrum K} (hs : Core s) (arm : String) {w : List K}
    (hr : s.reso ≠ [] ∨ s.freso = [])
    (hw : w.Pairwise (· < ·)) (hf : (s.flux.arr arm).length = w.length)
    (hi : (s.ivar.arr arm).length = w.length)
    (hre : ∀ r ∈ s.reso.arr arm, r.length = w.length) :
    Core (regionArm l1 l2 s arm w) := by
  unfold regionArm
  dsimp only
  split
  · exact hs
  next hg =>
    generalize searchsorted w l1 = i at hg ⊢
    generalize searchsorted w l2 = j at hg ⊢
    have hg' : HasGood (slice (s.ivar.arr arm) i j) := by
      by_contra hh; exact hg (numGood_eq_zero.mpr hh)
    refine ⟨?_, ?_, ?_, ?_, ?_, ?_, ?_, ?_, ?_⟩
    · exact nodup_keys_set hs.nodup _ _
    · exact keys_set_congr hs.fluxKeys _ _ _
    · exact keys_set_congr hs.ivarKeys _ _ _
    · intro a ha
      simp only at ha ⊢
      rw [mem_keys_set]
      split at ha
      · exact Or.inr (hs.resoKeys a ha)
      · rw [mem_keys_set] at ha
        exact ha.imp id (hs.resoKeys a)
    · intro a v hv
      simp only [lookup_set] at hv
      split at hv
      · cases hv; exact pairwise_slice hw _ _
      · exact hs.sorted a v hv
    · intro a v hv
      simp only [lookup_set] at hv
      simp only [arr_set]
      split at hv
      next ha => rw [if_pos ha]; cases hv; exact length_slice_eq hf _ _
      next ha => rw [if_neg ha]; exact hs.flux a v hv
    · intro a v hv
      simp only [lookup_set] at hv
      simp only [arr_set]
      split at hv
      next ha => rw [if_pos ha]; cases hv; exact length_slice_eq hi _ _
      next ha => rw [if_neg ha]; exact hs.ivar a v hv
    · intro a v hv r hrr
      simp only [lookup_set] at hv
      simp only at hrr
      split at hv
      next ha =>
        cases hv
        split at hrr
        next h0 =>
          have : s.freso = [] := hr.resolve_left (fun h => h h0)
          rw [this] at hrr
          simp [Dict.arr] at hrr
        next h0 =>
          rw [arr_set, if_pos ha] at hrr
          obtain ⟨x, hx, rfl⟩ := List.mem_map.mp hrr
          exact length_slice_eq (hre x hx) _ _
      next ha =>
        split at hrr
        · exact hs.reso a v hv r hrr
        · rw [arr_set, if_neg ha] at hrr
          exact hs.reso a v hv r hrr
    · intro a ha
      simp only at ha ⊢
      rw [mem_keys_set] at ha
      rw [arr_set]
      split
      · exact hg'
      next h => exact hs.good a (ha.resolve_left h)

theorem regionArm_freso (l1 l2 : K) {s : Spectrum K} (arm : String) (w : List K)
    (hr : s.reso ≠ [] ∨ s.freso = []) :
    (regionArm l1 l2 s arm w).reso ≠ [] ∨ (regionArm l1 l2 s arm w).freso = [] := by
  have hd := regionArm_sameData l1 l2 s arm w
  by_cases h0 : s.reso = []
  · right
    have hf := hr.resolve_left (fun h => h h0)
    unfold regionArm
    dsimp only
    split
    · exact hf
    · simp only [h0, if_true]; exact hf
  · left; rw [hd.reso]; exact h0

theorem region_foldl_core (l1 l2 : K) (l : List (String × List K)) {s : Spectrum K} (hs : Core s)
    (hr : s.reso ≠ [] ∨ s.freso = [])
    (h : ∀ x ∈ l, x.2.Pairwise (· < ·) ∧ (s.flux.arr x.1).length = x.2.length ∧
      (s.ivar.arr x.1).length = x.2.length ∧ ∀ r ∈ s.reso.arr x.1, r.length = x.2.length) :
    Core (l.foldl (fun s x => regionArm l1 l2 s x.1 x.2) s) ∧
    ((l.foldl (fun s x => regionArm l1 l2 s x.1 x.2) s).reso ≠ [] ∨
      (l.foldl (fun s x => regionArm l1 l2 s x.1 x.2) s).freso = []) := by
  induction l generalizing s with
  | nil => exact ⟨hs, hr⟩
  | cons x l ih =>
    rw [List.foldl_cons]
    obtain ⟨h1, h2, h3, h4⟩ := h x (by simp)
    have hd := regionArm_sameData l1 l2 s x.1 x.2
    refine ih (regionArm_core l1 l2 hs x.1 hr h1 h2 h3 h4) (regionArm_freso l1 l2 x.1 x.2 hr) ?_
    intro y hy
    rw [hd.flux, hd.ivar, hd.reso]
    exact h y (List.mem_cons_of_mem _ hy)

/-- The invariant. -/
structure Inv (s : Spectrum K) : Prop where
  data : DataOk s
  aligned : Aligned s
  good : ∀ arm ∈ s.fivar.keys, HasGood (s.fivar.arr arm)
  reso : ResoSame s
  zpos : 0 < 1 + s.z

theorem Inv.core {s : Spectrum K} (h : Inv s) : Core s :=
  ⟨h.aligned.nodup, h.aligned.fluxKeys, h.aligned.ivarKeys, h.aligned.resoKeys, h.aligned.sorted,
    h.aligned.flux, h.aligned.ivar, h.aligned.reso, h.good⟩

theorem Core.aligned {s : Spectrum K} (h : Core s) (h1 : s.ivarSm = none) (h2 : s.weight = none) :
    Aligned s := by
  have e1 : s.fivarSm = s.fivar := by unfold fivarSm; rw [h1]; rfl
  have e2 : s.fweight = s.fivar := by unfold fweight; rw [h2, e1]; rfl
  exact ⟨h.nodup, h.fluxKeys, h.ivarKeys, by rw [e1]; exact h.ivarKeys, by rw [e2]; exact h.ivarKeys,
    h.resoKeys, h.sorted, h.flux, h.ivar, by rw [e1]; exact h.ivar, by rw [e2]; exact h.ivar, h.reso⟩

theorem dataOk_congr {s t : Spectrum K} (h : SameData s t) (hs : DataOk s) : DataOk t := by
  refine ⟨by rw [h.wave]; exact hs.nodup, ?_, ?_, ?_, ?_⟩
  · rw [h.wave]; exact hs.sorted
  · rw [h.wave, h.flux]; exact hs.flux
  · rw [h.wave, h.ivar]; exact hs.ivar
  · rw [h.wave, h.reso]; exact hs.reso

theorem region_inv (sqrt : K → K) (eps w1 w2 lya1 lya2 : K) {s : Spectrum K} (hs : Inv s) :
    Inv (s.setForestRegion sqrt eps w1 w2 lya1 lya2) := by
  have hd := setForestRegion_sameData sqrt eps s w1 w2 lya1 lya2
  have hfold : Core (s.wave.foldl (fun t x => regionArm (max w1 ((1 + s.z) * lya1))
        (min w2 ((1 + s.z) * lya2)) t x.1 x.2) s) ∧
      (s.wave = [] ∨ (s.wave.foldl (fun t x => regionArm (max w1 ((1 + s.z) * lya1))
        (min w2 ((1 + s.z) * lya2)) t x.1 x.2) s).reso ≠ [] ∨
      (s.wave.foldl (fun t x => regionArm (max w1 ((1 + s.z) * lya1))
        (min w2 ((1 + s.z) * lya2)) t x.1 x.2) s).freso = []) := by
    rcases hs.reso with h0 | hr
    · rw [h0]; exact ⟨hs.core, Or.inl rfl⟩
    · have := region_foldl_core (max w1 ((1 + s.z) * lya1)) (min w2 ((1 + s.z) * lya2)) s.wave
        hs.core hr (fun x hx => by
          have hl := lookup_of_mem hs.data.nodup (a := x.1) (v := x.2) hx
          exact ⟨hs.data.sorted _ _ hl, hs.data.flux _ _ hl, hs.data.ivar _ _ hl,
            hs.data.reso _ _ hl⟩)
      exact ⟨this.1, Or.inr this.2⟩
  have hc : Core (s.setForestRegion sqrt eps w1 w2 lya1 lya2) := by
    obtain ⟨h1, h2, h3, h4, h5, h6, h7, h8, h9⟩ := hfold.1
    exact ⟨h1, h2, h3, h4, h5, h6, h7, h8, h9⟩
  refine ⟨dataOk_congr hd hs.data, hc.aligned rfl rfl, hc.good, ?_, by rw [hd.z]; exact hs.zpos⟩
  rcases hfold.2 with h | h
  · exact Or.inl (by rw [hd.wave]; exact h)
  · exact Or.inr h

theorem dropArms_aligned (l : List String) {s : Spectrum K} (A : Aligned s) :
    Aligned (l.foldl dropArm s) := by
  obtain ⟨h1, h2, h3, h4, h5, h6, -, h8, -⟩ := foldl_dropArm l s
  have hlk : ∀ {α : Type} {d : Dict (List α)} {a : String}, a ∉ l →
      (l.foldl (fun d k => Dict.pop d k) d).arr a = d.arr a := by
    intro α d a ha
    unfold Dict.arr
    rw [lookup_foldl_pop, if_neg ha]
  have hmem : ∀ {a : String} {w : List K},
      (l.foldl (fun d k => Dict.pop d k) s.fwave).lookup a = some w →
      a ∉ l ∧ s.fwave.lookup a = some w := by
    intro a w h
    rw [lookup_foldl_pop] at h
    split at h
    · simp at h
    next ha => exact ⟨ha, h⟩
  refine ⟨?_, ?_, ?_, ?_, ?_, ?_, ?_, ?_, ?_, ?_, ?_, ?_⟩
  · rw [h1, keys_foldl_pop]; exact A.nodup.filter _
  · rw [h1, h2, keys_foldl_pop, keys_foldl_pop, A.fluxKeys]
  · rw [h1, h3, keys_foldl_pop, keys_foldl_pop, A.ivarKeys]
  · rw [h1, h5, keys_foldl_pop, keys_foldl_pop, A.smKeys]
  · rw [h1, h6, keys_foldl_pop, keys_foldl_pop, A.weightKeys]
  · intro a ha
    rw [h4, keys_foldl_pop, List.mem_filter] at ha
    rw [h1, keys_foldl_pop, List.mem_filter]
    exact ⟨A.resoKeys a ha.1, ha.2⟩
  · intro a w hw
    rw [h1] at hw
    exact A.sorted a w (hmem hw).2
  · intro a w hw
    rw [h1] at hw
    rw [h2, hlk (hmem hw).1]
    exact A.flux a w (hmem hw).2
  · intro a w hw
    rw [h1] at hw
    rw [h3, hlk (hmem hw).1]
    exact A.ivar a w (hmem hw).2
  · intro a w hw
    rw [h1] at hw
    rw [h5, hlk (hmem hw).1]
    exact A.sm a w (hmem hw).2
  · intro a w hw
    rw [h1] at hw
    rw [h6, hlk (hmem hw).1]
    exact A.weight a w (hmem hw).2
  · intro a w hw
    rw [h1] at hw
    rw [h4, hlk (hmem hw).1]
    exact A.reso a w (hmem hw).2

theorem dropArms_reso (l : List String) {s : Spectrum K} (hs : ResoSame s) :
    ResoSame (l.foldl dropArm s) := by
  obtain ⟨h1, h2, h3, h4, h5, h6, -, h8, -⟩ := foldl_dropArm l s
  unfold ResoSame
  rw [h8.wave, h8.reso, h4]
  rcases hs with h | h | h
  · exact Or.inl h
  · exact Or.inr (Or.inl h)
  · right; right
    rw [h]
    clear h1 h2 h3 h4 h5 h6 h8
    induction l with
    | nil => rfl
    | cons k l ih => exact ih

theorem dropArms_inv (l : List String) {s : Spectrum K} (hs : Inv s) : Inv (l.foldl dropArm s) := by
  obtain ⟨h1, h2, h3, h4, h5, h6, -, h8, -⟩ := foldl_dropArm l s
  refine ⟨dataOk_congr h8 hs.data, dropArms_aligned l hs.aligned, ?_, dropArms_reso l hs.reso,
    by rw [h8.z]; exact hs.zpos⟩
  intro a ha
  rw [h3] at ha ⊢
  rw [keys_foldl_pop, List.mem_filter, decide_eq_true_eq] at ha
  unfold Dict.arr
  rw [lookup_foldl_pop, if_neg ha.2]
  exact hs.good a ha.1

theorem smooth_inv (sm : List K → K → List K) (hsm : ∀ v x, (sm v x).length = v.length) (size : K)
    {s : Spectrum K} (hs : Inv s) : Inv (s.setSmoothForestivar sm size) := by
  have hc := hs.core
  have A := hs.aligned
  unfold setSmoothForestivar
  split
  · have hc' : Core { s with smoothing := 0, ivarSm := none, weight := none } :=
      ⟨hc.nodup, hc.fluxKeys, hc.ivarKeys, hc.resoKeys, hc.sorted, hc.flux, hc.ivar, hc.reso, hc.good⟩
    exact ⟨⟨hs.data.nodup, hs.data.sorted, hs.data.flux, hs.data.ivar, hs.data.reso⟩,
      hc'.aligned rfl rfl, hs.good, hs.reso, hs.zpos⟩
  · have hk : (s.fivar.mapVals (fun _ v => sm v (size / s.dwave))).keys = s.fwave.keys := by
      rw [keys_mapVals]; exact A.ivarKeys
    have hl : ∀ arm w, s.fwave.lookup arm = some w →
        ((s.fivar.mapVals (fun _ v => sm v (size / s.dwave))).arr arm).length = w.length := by
      intro arm w hw
      rw [arr_mapVals (by rw [A.ivarKeys]; exact mem_keys_of_lookup hw), hsm]
      exact A.ivar arm w hw
    exact ⟨⟨hs.data.nodup, hs.data.sorted, hs.data.flux, hs.data.ivar, hs.data.reso⟩,
      ⟨A.nodup, A.fluxKeys, A.ivarKeys, hk, hk, A.resoKeys, A.sorted, A.flux, A.ivar, hl, hl, A.reso⟩,
      hs.good, hs.reso, hs.zpos⟩

theorem removeNonforest_inv {s : Spectrum K} (hs : Inv s) : Inv s.removeNonforestPixels := by
  have A := hs.aligned
  refine ⟨⟨List.nodup_nil, ?_, ?_, ?_, ?_⟩,
    ⟨A.nodup, A.fluxKeys, A.ivarKeys, A.smKeys, A.weightKeys, A.resoKeys, A.sorted, A.flux, A.ivar,
      A.sm, A.weight, A.reso⟩, hs.good, Or.inl rfl, hs.zpos⟩ <;>
  · intro arm w hw
    unfold removeNonforestPixels at hw
    simp at hw

/-- Arms left by `drop_short_arms` without arguments have a good pixel. -/
theorem dropEmpty_good [IsStrictOrderedRing K] {s : Spectrum K} (hn : s.fivar.keys.Nodup) (arm : String)
    (ha : arm ∈ (s.dropShortArms 0 0 0).fivar.keys) :
    HasGood ((s.dropShortArms 0 0 0).fivar.arr arm) := by
  have ht : s.dropShortArms 0 0 0 = (shortArms s 0 0 0).foldl dropArm s := rfl
  obtain ⟨-, -, h3, -⟩ := foldl_dropArm (shortArms s 0 0 0) s
  rw [ht, h3, keys_foldl_pop, List.mem_filter, decide_eq_true_eq, mem_shortArms hn] at ha
  rw [ht, h3]
  have hns : arm ∉ shortArms s 0 0 0 := by rw [mem_shortArms hn]; exact ha.2
  unfold Dict.arr
  rw [lookup_foldl_pop, if_neg hns]
  by_contra hb
  have h0 : numGood (s.fivar.arr arm) = 0 := numGood_eq_zero.mpr hb
  refine ha.2 ⟨ha.1, ?_⟩
  unfold minPixels
  rw [truncInt_lt_iff (by simp), h0]
  simp

/-- Masking keeps the arrays aligned; the arms left have a good pixel. -/
theorem masks_inv [IsStrictOrderedRing K] (dlaFlux : K → K → K → K) (row : MaskRow K)
    (maskers : List (Masker K)) {s : Spectrum K} (hs : Inv s) : Inv (applyMasks dlaFlux row maskers s) := by
  cases maskers with
  | nil => exact hs
  | cons m l =>
    unfold applyMasks
    dsimp only
    rw [maskers_foldl_eq dlaFlux row (m :: l) hs.aligned hs.zpos]
    have hA := aligned_updAll hs.aligned
      (fun _ _ h => length_scaled (fun w => ((m :: l).map (fun m => (factors dlaFlux row s.z m).1 w)).prod) h)
      (fun _ _ h => length_scaled (fun w => ((m :: l).map (fun m => (factors dlaFlux row s.z m).2 w)).prod) h)
    generalize scaled (fun w => ((m :: l).map (fun m => (factors dlaFlux row s.z m).1 w)).prod) = F
      at hA ⊢
    generalize scaled (fun w => ((m :: l).map (fun m => (factors dlaFlux row s.z m).2 w)).prod) = G
      at hA ⊢
    have hd : SameData s (updAll F G s) := ⟨rfl, rfl, rfl, rfl, rfl, rfl⟩
    have hr : ResoSame (updAll F G s) := hs.reso
    have hk : (updAll F G s).fivar.keys.Nodup := by rw [hA.ivarKeys]; exact hA.nodup
    generalize updAll F G s = t at hA hd hr hk ⊢
    have ht : t.dropShortArms 0 0 0 = (shortArms t 0 0 0).foldl dropArm t := rfl
    obtain ⟨-, -, -, -, -, -, -, h8, -⟩ := foldl_dropArm (shortArms t 0 0 0) t
    refine ⟨?_, ?_, dropEmpty_good hk, ?_, ?_⟩
    · rw [ht]; exact dataOk_congr h8 (dataOk_congr hd hs.data)
    · rw [ht]; exact dropArms_aligned _ hA
    · rw [ht]; exact dropArms_reso _ hr
    · rw [ht, h8.z, hd.z]; exact hs.zpos

theorem run_inv [IsStrictOrderedRing K] (sqrt : K → K) (eps : K) (sm : List K → K → List K)
    (hsm : ∀ v x, (sm v x).length = v.length) (dlaFlux : K → K → K → K) {s : Spectrum K} (hs : Inv s) (op : ForestOp K) :
    Inv (op.run sqrt eps sm dlaFlux s) := by
  cases op with
  | region w1 w2 lya1 lya2 => exact region_inv sqrt eps w1 w2 lya1 lya2 hs
  | dropShort lya1 lya2 skip => exact dropArms_inv _ hs
  | dropArm arm => exact dropArms_inv [arm] hs
  | removeNonforest => exact removeNonforest_inv hs
  | smooth size => exact smooth_inv sm hsm size hs
  | masks row maskers => exact masks_inv dlaFlux row maskers hs

end Verif.Proofs
