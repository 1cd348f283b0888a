import Verif.Spec.Masks
import Verif.Proofs.Slice
import Verif.Proofs.Dict
import Verif.Proofs.Split
import Mathlib.Algebra.Order.Field.Basic

/-! Lemmas about masks. -/

namespace Verif.Proofs
open Verif.Np Verif.Model Verif.Spec List

/-! ### Dictionary updated arm by arm -/

section
variable {α β : Type}

/-- A loop over the arms of `l` that replaces the array of the arm in `d`. -/
theorem foldl_update_eq {F : α → List β → List β} {l : Dict α} {d : Dict (List β)}
    (hl : l.keys.Nodup) (hd : d.keys.Nodup) (hs : ∀ a ∈ l.keys, a ∈ d.keys) :
    (l.foldl (fun (d : Dict (List β)) x => d.set x.1 (F x.2 (d.arr x.1))) d).keys = d.keys ∧
    ∀ a, List.lookup a (l.foldl (fun (d : Dict (List β)) x => d.set x.1 (F x.2 (d.arr x.1))) d) =
      match List.lookup a l with
      | some w => some (F w (d.arr a))
      | none => List.lookup a d := by
  induction l generalizing d with
  | nil => simp
  | cons x l ih =>
    rw [keys_cons, List.nodup_cons] at hl
    have hx : x.1 ∈ d.keys := hs x.1 (by simp)
    have hk : (d.set x.1 (F x.2 (d.arr x.1))).keys = d.keys := by rw [keys_set, if_pos hx]
    obtain ⟨h1, h2⟩ := ih (d := d.set x.1 (F x.2 (d.arr x.1))) hl.2 (by rw [hk]; exact hd)
      (fun a ha => by rw [hk]; exact hs a (List.mem_cons_of_mem _ ha))
    rw [List.foldl_cons]
    refine ⟨h1.trans hk, fun a => ?_⟩
    rw [h2, List.lookup_cons]
    by_cases ha : a = x.1
    · subst ha
      have : List.lookup x.1 l = none := lookup_eq_none_iff.mpr hl.1
      rw [this]
      simp [lookup_set]
    · have hb : (a == x.1) = false := by simp [ha]
      rw [hb]
      simp only
      rw [lookup_set, if_neg ha, arr_set, if_neg ha]

/-- If all arms are there it is a map. -/
theorem foldl_update_mapVals {F : List α → List β → List β} {l : Dict (List α)}
    {d : Dict (List β)} (hl : l.keys.Nodup) (hk : d.keys = l.keys) :
    l.foldl (fun (d : Dict (List β)) x => d.set x.1 (F x.2 (d.arr x.1))) d = d.mapVals (fun a y => F (l.arr a) y) := by
  obtain ⟨h1, h2⟩ := foldl_update_eq (F := F) hl (hk ▸ hl) (fun a ha => hk ▸ ha)
  refine eq_of_keys_of_lookup (by rw [h1, hk]; exact hl) (by rw [h1, keys_mapVals]) fun a ha => ?_
  rw [h1, hk] at ha
  rw [h2, lookup_mapVals, lookup_eq_arr ha, lookup_eq_arr (d := d) (by rw [hk]; exact ha)]
  rfl

end

variable {K : Type} [Field K] [LinearOrder K]

/-- One arm of a mask: new flux and ivar from the wavelengths and the old values. -/
def updArm (F G : List K → List K → List K) (s : Spectrum K) (x : String × List K) : Spectrum K :=
  { s with
    fflux := s.fflux.set x.1 (F x.2 (s.fflux.arr x.1))
    fivar := s.fivar.set x.1 (G x.2 (s.fivar.arr x.1)) }

/-- All arms. -/
def updAll (F G : List K → List K → List K) (s : Spectrum K) : Spectrum K :=
  { s with
    fflux := s.fflux.mapVals (fun a y => F (s.fwave.arr a) y)
    fivar := s.fivar.mapVals (fun a y => G (s.fwave.arr a) y) }

theorem foldl_updArm (F G : List K → List K → List K) (l : Dict (List K)) (s : Spectrum K) :
    l.foldl (updArm F G) s =
      { s with
        fflux := l.foldl (fun (d : Dict (List K)) x => d.set x.1 (F x.2 (d.arr x.1))) s.fflux
        fivar := l.foldl (fun (d : Dict (List K)) x => d.set x.1 (G x.2 (d.arr x.1))) s.fivar } := by
  induction l generalizing s with
  | nil => rfl
  | cons x l ih => rw [List.foldl_cons, ih]; rfl

theorem foldl_updArm_eq (F G : List K → List K → List K) {s : Spectrum K} (hs : Aligned s) :
    s.fwave.foldl (updArm F G) s = updAll F G s := by
  rw [foldl_updArm, foldl_update_mapVals hs.nodup hs.fluxKeys,
    foldl_update_mapVals hs.nodup hs.ivarKeys]
  rfl

/-! ### Marks -/

theorem length_markRanges (n : Nat) (rs : List (Nat × Nat)) : (markRanges n rs).length = n := by
  unfold markRanges
  suffices ∀ w : List Bool, (rs.foldl markRange w).length = w.length by
    rw [this]; simp
  intro w
  induction rs generalizing w with
  | nil => rfl
  | cons r rs ih => rw [List.foldl_cons, ih]; simp [markRange]

theorem getElem?_markRanges {n : Nat} {rs : List (Nat × Nat)} {i : Nat} (hi : i < n) :
    (markRanges n rs)[i]? = some (decide (∃ r ∈ rs, r.1 ≤ i ∧ i < r.2)) := by
  unfold markRanges
  suffices ∀ w : List Bool, ∀ b, w[i]? = some b →
      (rs.foldl markRange w)[i]? = some (b || decide (∃ r ∈ rs, r.1 ≤ i ∧ i < r.2)) by
    rw [this _ false (by simp [hi])]; simp
  intro w b hb
  induction rs generalizing w b with
  | nil => simp [hb]
  | cons r rs ih =>
    rw [List.foldl_cons]
    rw [ih (markRange w r) (b || (decide (r.1 ≤ i) && decide (i < r.2)))
      (by simp [markRange, hb])]
    congr 1
    by_cases h1 : r.1 ≤ i <;> by_cases h2 : i < r.2 <;> cases b <;> simp [h1, h2]

/-- Marks that agree with a predicate of the wavelength zero these pixels. -/
theorem zeroWhere_markRanges {p : K → Prop} [DecidablePred p] {wave y : List K}
    {rs : List (Nat × Nat)}
    (h : ∀ i w, wave[i]? = some w → ((∃ r ∈ rs, r.1 ≤ i ∧ i < r.2) ↔ p w)) :
    zeroWhere (markRanges wave.length rs) y = maskedAt p wave y := by
  apply List.ext_getElem?
  intro i
  unfold zeroWhere maskedAt
  rw [List.getElem?_zipWith, List.getElem?_zipWith]
  by_cases hi : i < wave.length
  · rw [getElem?_markRanges hi, List.getElem?_eq_getElem hi]
    have := h i wave[i] (List.getElem?_eq_getElem hi)
    cases y[i]? with
    | none => rfl
    | some v => simp only [decide_eq_true_eq, this]
  · rw [List.getElem?_eq_none (by rw [length_markRanges]; omega),
      List.getElem?_eq_none (l := wave) (by omega)]

/-- Pixels of an index range between two `searchsorted` positions. -/
theorem mem_idxRange {wave : List K} (h : wave.Pairwise (· < ·)) {a b : K} {i : Nat} {w : K}
    (hw : wave[i]? = some w) :
    (searchsorted wave a ≤ i ∧ i < searchsorted wave b) ↔ a ≤ w ∧ w < b := by
  rw [lt_searchsorted_iff h hw, ← not_lt, lt_searchsorted_iff h hw, not_lt]

theorem skyRanges_iff [IsStrictOrderedRing K] {lines : List (SkyLine K)} {z : K} (hz : 0 < 1 + z)
    {wave : List K} (h : wave.Pairwise (· < ·)) {i : Nat} {w : K} (hw : wave[i]? = some w) :
    (∃ r ∈ skyRanges lines z wave, r.1 ≤ i ∧ i < r.2) ↔ SkyMasked lines z w := by
  have h2 : (wave.map (fun w => w / (1 + z))).Pairwise (· < ·) := by
    rw [List.pairwise_map]
    exact h.imp (fun hab => div_lt_div_of_pos_right hab hz)
  have hw2 : (wave.map (fun w => w / (1 + z)))[i]? = some (w / (1 + z)) := by simp [hw]
  unfold skyRanges SkyMasked
  constructor
  · rintro ⟨r, hr, hi⟩
    rw [List.mem_append] at hr
    rcases hr with hr | hr
    · obtain ⟨l, hl, rfl⟩ := List.mem_map.mp hr
      rw [List.mem_filter, decide_eq_true_eq] at hl
      exact ⟨l, hl.1, Or.inl ⟨hl.2, (mem_idxRange h hw).mp hi⟩⟩
    · obtain ⟨l, hl, rfl⟩ := List.mem_map.mp hr
      rw [List.mem_filter, decide_eq_true_eq] at hl
      have := (mem_idxRange h2 hw2).mp hi
      rw [le_div_iff₀ hz, div_lt_iff₀ hz] at this
      exact ⟨l, hl.1, Or.inr ⟨hl.2, this⟩⟩
  · rintro ⟨l, hl, ⟨hf, hi⟩ | ⟨hf, hi⟩⟩
    · exact ⟨_, List.mem_append_left _ (List.mem_map.mpr
        ⟨l, List.mem_filter.mpr ⟨hl, by simpa using hf⟩, rfl⟩), (mem_idxRange h hw).mpr hi⟩
    · rw [← le_div_iff₀ hz, ← div_lt_iff₀ hz] at hi
      exact ⟨_, List.mem_append_right _ (List.mem_map.mpr
        ⟨l, List.mem_filter.mpr ⟨hl, by simpa using hf⟩, rfl⟩), (mem_idxRange h2 hw2).mpr hi⟩

theorem balIdx_iff {wave : List K} (h : wave.Pairwise (· < ·)) {r : K × K} {i : Nat} {w : K}
    (hw : wave[i]? = some w) :
    ((balIdx wave r).1 ≤ i ∧ i < (balIdx wave r).2) ↔
      (r.1 ≤ w ∧ w < r.2) ∨ (r.2 ≤ w ∧ w < r.1) := by
  rw [← mem_idxRange h hw, ← mem_idxRange h hw]
  unfold balIdx
  simp only
  omega

/-- The lines of the code are those of the specification. -/
theorem mem_balLines {l : K} : l ∈ (balLines : List K) ↔ ∃ x ∈ (ionLines : List (String × K)), x.2 = l := by
  have h : (balLines : List K).Perm ((ionLines : List (String × K)).map Prod.snd) := by
    have h1 : (balLines : List K) = ([1549, 1403, 1394, 124081 / 100, 12161 / 10, 1175, 1128, 1117, 1074, 1062] : List K) ++
        ([1031, 1037] ++ ([1039] ++ ([10257 / 10] ++ ([9725 / 10, 977] ++ ([9899 / 10] ++ [9497 / 10]))))) := rfl
    have h2 : (ionLines : List (String × K)).map Prod.snd =
        ([1549, 1403, 1394, 124081 / 100, 12161 / 10, 1175, 1128, 1117, 1074, 1062] : List K) ++
        ([1039] ++ ([1037, 1031] ++ ([10257 / 10] ++ ([9899 / 10] ++ ([977, 9725 / 10] ++ [9497 / 10]))))) := rfl
    rw [h1, h2]
    refine List.Perm.append_left _ ?_
    rw [← List.append_assoc, ← List.append_assoc [1039]]
    refine List.Perm.append (List.perm_append_comm.trans (List.Perm.append_left _ (List.Perm.swap _ _ _))) ?_
    refine List.Perm.append_left _ ?_
    rw [← List.append_assoc, ← List.append_assoc [9899 / 10]]
    exact List.Perm.append_right _ (List.perm_append_comm.trans (List.Perm.append_left _ (List.Perm.swap _ _ _)))
  rw [h.mem_iff, List.mem_map]

theorem balRanges_iff {row : MaskRow K} {z : K} {wave : List K} (h : wave.Pairwise (· < ·))
    {i : Nat} {w : K} (hw : wave[i]? = some w) :
    (∃ r ∈ (balRanges row z).map (balIdx wave), r.1 ≤ i ∧ i < r.2) ↔ BalMasked row z w := by
  unfold BalMasked balRanges
  constructor
  · rintro ⟨r, hr, hi⟩
    obtain ⟨q, hq, rfl⟩ := List.mem_map.mp hr
    rw [balIdx_iff h hw] at hi
    obtain ⟨l, hl, hq⟩ := List.mem_flatMap.mp hq
    obtain ⟨p, hp, rfl⟩ := List.mem_map.mp hq
    unfold balVelocities at hp
    rw [List.mem_filter, Bool.and_eq_true, decide_eq_true_eq, decide_eq_true_eq] at hp
    obtain ⟨x, hx, rfl⟩ := mem_balLines.mp hl
    exact ⟨x, hx, p, hp.1, hp.2.1, hp.2.2, hi⟩
  · rintro ⟨l, hl, p, hp, h1, h2, hi⟩
    refine ⟨_, List.mem_map.mpr ⟨_, List.mem_flatMap.mpr ⟨l.2, mem_balLines.mpr ⟨l, hl, rfl⟩, List.mem_map.mpr ⟨p, ?_, rfl⟩⟩,
      rfl⟩, (balIdx_iff h hw).mpr hi⟩
    unfold balVelocities
    rw [List.mem_filter, Bool.and_eq_true, decide_eq_true_eq, decide_eq_true_eq]
    exact ⟨hp, h1, h2⟩

theorem mapVals_congr {α β : Type} {f g : String → α → β} {d : Dict α}
    (h : ∀ a v, (a, v) ∈ d → f a v = g a v) : d.mapVals f = d.mapVals g := by
  unfold Dict.mapVals
  exact List.map_congr_left fun x hx => by rw [h x.1 x.2 hx]

theorem updAll_congr {F F' G G' : List K → List K → List K} {s : Spectrum K} (hs : Aligned s)
    (hF : ∀ arm w y, s.fwave.lookup arm = some w → y.length = w.length → F w y = F' w y)
    (hG : ∀ arm w y, s.fwave.lookup arm = some w → y.length = w.length → G w y = G' w y) :
    updAll F G s = updAll F' G' s := by
  unfold updAll
  have h1 : s.fflux.mapVals (fun a y => F (s.fwave.arr a) y) =
      s.fflux.mapVals (fun a y => F' (s.fwave.arr a) y) := by
    refine mapVals_congr fun a v hv => ?_
    have hk : a ∈ s.fwave.keys := by
      rw [← hs.fluxKeys]; exact List.mem_map.mpr ⟨_, hv, rfl⟩
    have hl := lookup_eq_arr hk
    refine hF a _ _ hl ?_
    have := lookup_of_mem (by rw [hs.fluxKeys]; exact hs.nodup) hv
    rw [← arr_of_lookup this]
    exact hs.flux a _ hl
  have h2 : s.fivar.mapVals (fun a y => G (s.fwave.arr a) y) =
      s.fivar.mapVals (fun a y => G' (s.fwave.arr a) y) := by
    refine mapVals_congr fun a v hv => ?_
    have hk : a ∈ s.fwave.keys := by
      rw [← hs.ivarKeys]; exact List.mem_map.mpr ⟨_, hv, rfl⟩
    have hl := lookup_eq_arr hk
    refine hG a _ _ hl ?_
    have := lookup_of_mem (by rw [hs.ivarKeys]; exact hs.nodup) hv
    rw [← arr_of_lookup this]
    exact hs.ivar a _ hl
  rw [h1, h2]

theorem skyApply_eq [IsStrictOrderedRing K] {s : Spectrum K} (hs : Aligned s) (hz : 0 < 1 + s.z)
    (lines : List (SkyLine K)) :
    skyApply lines s = updAll (maskedAt (SkyMasked lines s.z)) (maskedAt (SkyMasked lines s.z)) s := by
  have h1 : skyApply lines s = s.fwave.foldl (updArm
      (fun w y => zeroWhere (markRanges w.length (skyRanges lines s.z w)) y)
      (fun w y => zeroWhere (markRanges w.length (skyRanges lines s.z w)) y)) s := rfl
  rw [h1, foldl_updArm_eq _ _ hs]
  refine updAll_congr hs ?_ ?_
  all_goals
    intro arm w y hw _
    exact zeroWhere_markRanges fun i x hx => skyRanges_iff hz (hs.sorted arm w hw) hx

theorem maskedAt_false {p : K → Prop} [DecidablePred p] {wave y : List K}
    (hy : y.length = wave.length) (h : ∀ w ∈ wave, ¬ p w) : maskedAt p wave y = y := by
  unfold maskedAt
  induction wave generalizing y with
  | nil => simp at hy; simp [hy]
  | cons w ws ih =>
    cases y with
    | nil => simp at hy
    | cons a y =>
      rw [List.zipWith_cons_cons, if_neg (h w (by simp)),
        ih (by simpa using hy) (fun x hx => h x (List.mem_cons_of_mem _ hx))]

theorem mapVals_id {α : Type} {f : String → α → α} {d : Dict α}
    (h : ∀ a v, (a, v) ∈ d → f a v = v) : d.mapVals f = d := by
  unfold Dict.mapVals
  conv_rhs => rw [← List.map_id d]
  exact List.map_congr_left fun x hx => by rw [h x.1 x.2 hx]; rfl

theorem updAll_id {s : Spectrum K} : updAll (fun _ y => y) (fun _ y => y) s = s := by
  unfold updAll
  rw [mapVals_id (fun _ _ _ => rfl), mapVals_id (fun _ _ _ => rfl)]

theorem balApply_eq {s : Spectrum K} (hs : Aligned s) (row : MaskRow K) :
    balApply row s = updAll (maskedAt (BalMasked row s.z)) (maskedAt (BalMasked row s.z)) s := by
  unfold balApply
  split
  next h =>
    rw [← updAll_id (s := s)]
    have hno : ∀ w, ¬ BalMasked row s.z w := by
      rintro w ⟨l, hl, p, hp, h1, h2, -⟩
      have : p ∈ balVelocities row := by
        unfold balVelocities
        rw [List.mem_filter, Bool.and_eq_true, decide_eq_true_eq, decide_eq_true_eq]
        exact ⟨hp, h1, h2⟩
      rw [h] at this
      simp at this
    conv_rhs => rw [updAll_id]
    refine updAll_congr hs ?_ ?_
    all_goals
      intro arm w y hw hy
      exact (maskedAt_false hy (fun x _ => hno x)).symm
  next h =>
    have h1 : (s.fwave.foldl (fun t x => zeroArm t x.1
        (markRanges x.2.length ((balRanges row s.z).map (balIdx x.2)))) s) =
      s.fwave.foldl (updArm
      (fun w y => zeroWhere (markRanges w.length ((balRanges row s.z).map (balIdx w))) y)
      (fun w y => zeroWhere (markRanges w.length ((balRanges row s.z).map (balIdx w))) y)) s := rfl
    rw [h1, foldl_updArm_eq _ _ hs]
    refine updAll_congr hs ?_ ?_
    all_goals
      intro arm w y hw _
      exact zeroWhere_markRanges fun i x hx => balRanges_iff (hs.sorted arm w hw) hx

/-! ### DLA catalog -/

theorem grouping_keys {α κ : Type} [LinearOrder κ] {key : α → κ} {l : List α}
    {pieces : List (List α)} (h : IsGrouping key l pieces) :
    pieces = (uniqueVals (l.map key)).map (fun k => l.filter (fun s => decide (key s = k))) := by
  set g : List α → Option κ := fun p => p.head?.map key with hg
  have hA : ∀ ps : List (List α), (∀ p ∈ ps, p ∈ pieces) →
      ps = (ps.filterMap g).map (fun k => l.filter (fun s => decide (key s = k))) := by
    intro ps
    induction ps with
    | nil => intro _; rfl
    | cons p ps ih =>
      intro hm
      have hp := hm p (by simp)
      obtain ⟨a, q, rfl⟩ := List.exists_cons_of_ne_nil (h.nonempty p hp)
      have h1 := isGrouping_eq_filter h hp (r := a) (by simp)
      have h2 : g (a :: q) = some (key a) := rfl
      rw [List.filterMap_cons, h2]
      simp only [List.map_cons]
      rw [← h1, ← ih (fun x hx => hm x (List.mem_cons_of_mem _ hx))]
  have hB : (pieces.filterMap g).Pairwise (· < ·) := by
    rw [List.pairwise_filterMap]
    refine h.distinct.imp ?_
    intro p q hpq k hk k' hk'
    cases p with
    | nil => simp [hg] at hk
    | cons a p =>
      cases q with
      | nil => simp [hg] at hk'
      | cons b q =>
        simp [hg] at hk hk'
        subst hk hk'
        exact hpq a (by simp) b (by simp)
  have hC : ∀ k, k ∈ pieces.filterMap g ↔ k ∈ l.map key := by
    intro k
    rw [List.mem_filterMap, List.mem_map]
    constructor
    · rintro ⟨p, hp, hk⟩
      cases p with
      | nil => simp [hg] at hk
      | cons a p =>
        simp [hg] at hk
        refine ⟨a, ?_, hk⟩
        rw [← h.flatten]
        exact List.mem_flatten.mpr ⟨_, hp, by simp⟩
    · rintro ⟨a, ha, rfl⟩
      rw [← h.flatten] at ha
      obtain ⟨p, hp, hap⟩ := List.mem_flatten.mp ha
      obtain ⟨b, q, rfl⟩ := List.exists_cons_of_ne_nil (h.nonempty p hp)
      refine ⟨_, hp, ?_⟩
      simp only [hg, List.head?_cons, Option.map_some]
      rw [h.homogeneous _ hp a hap b (by simp)]
  rw [eq_uniqueVals hB hC]
  exact hA pieces (fun p hp => hp)

theorem lookup_zip_map {κ β : Type} [DecidableEq κ] (ks : List κ) (F : κ → β) (k : κ) :
    List.lookup k (ks.zip (ks.map F)) = if k ∈ ks then some (F k) else none := by
  induction ks with
  | nil => simp
  | cons x ks ih =>
    rw [List.map_cons, List.zip_cons_cons, List.lookup_cons, ih]
    by_cases h : k = x
    · subst h; simp
    · have hb : (k == x) = false := by simp [h]
      simp [hb, h]

/-- The rows of the catalog that a rank keeps. -/
def localRows (cat : List (DlaRow K)) (ids : Option (List Int)) : List (DlaRow K) :=
  match ids with
  | none => cat
  | some ids => cat.filter (fun r => decide (r.targetid ∈ ids))

theorem dlaInit_lookup (cat : List (DlaRow K)) (ids : Option (List Int)) (limit : K) (id : Int) :
    (∀ g, List.lookup id (dlaInit cat ids limit).groups = some g →
      g.Perm ((localRows cat ids).filter (fun r => decide (r.targetid = id))) ∧ g ≠ []) ∧
    (List.lookup id (dlaInit cat ids limit).groups = none →
      (localRows cat ids).filter (fun r => decide (r.targetid = id)) = []) := by
  have hd : (dlaInit cat ids limit).groups =
      (uniqueVals (((localRows cat ids).insertionSort
        (fun a b => a.targetid ≤ b.targetid)).map DlaRow.targetid)).zip
      (splitByKey DlaRow.targetid ((localRows cat ids).insertionSort
        (fun a b => a.targetid ≤ b.targetid))) := by
    unfold dlaInit localRows
    cases ids <;> rfl
  rw [hd]
  set c := (localRows cat ids).insertionSort (fun a b => a.targetid ≤ b.targetid) with hc
  have hr : Std.Total (fun a b : DlaRow K => a.targetid ≤ b.targetid) :=
    ⟨fun a b => le_total a.targetid b.targetid⟩
  have ht : IsTrans (DlaRow K) (fun a b => a.targetid ≤ b.targetid) :=
    ⟨fun _ _ _ h1 h2 => le_trans h1 h2⟩
  have hperm : c.Perm (localRows cat ids) := List.perm_insertionSort _ _
  have hsort : c.Pairwise (fun a b => a.targetid ≤ b.targetid) := List.pairwise_insertionSort _ _
  by_cases hcn : c = []
  · rw [hcn]
    have hl : localRows cat ids = [] := by
      rw [hcn] at hperm; exact hperm.symm.eq_nil
    rw [hl]
    simp [uniqueVals]
  · have hG := splitByKey_isGrouping DlaRow.targetid c hcn hsort
    rw [grouping_keys hG, lookup_zip_map]
    split
    next hm =>
      refine ⟨?_, by simp⟩
      intro g hg
      simp only [Option.some.injEq] at hg
      subst hg
      refine ⟨hperm.filter _, ?_⟩
      rw [mem_uniqueVals] at hm
      obtain ⟨r, hr, rfl⟩ := List.mem_map.mp hm
      intro hh
      rw [List.filter_eq_nil_iff] at hh
      simpa using hh r hr
    next hm =>
      refine ⟨by simp, fun _ => ?_⟩
      rw [List.filter_eq_nil_iff]
      intro r hr
      rw [mem_uniqueVals] at hm
      rw [decide_eq_true_eq]
      rintro rfl
      exact hm (List.mem_map.mpr ⟨r, hperm.mem_iff.mpr hr, rfl⟩)

theorem allDlas_eq (dlaFlux : K → K → K → K) (wave : List K) (dlas : List (DlaRow K)) :
    allDlas dlaFlux wave dlas = wave.map (fun w => (dlas.map (fun r => dlaFlux w r.z r.nhi)).prod) := by
  unfold allDlas
  suffices ∀ g : K → K, dlas.foldl
      (fun t r => List.zipWith (fun w x => x * dlaFlux w r.z r.nhi) wave t) (wave.map g) =
      wave.map (fun w => g w * (dlas.map (fun r => dlaFlux w r.z r.nhi)).prod) by
    have h := this (fun _ => 1)
    simp only [one_mul] at h
    rw [← h]
    congr 1
    simp
  intro g
  induction dlas generalizing g with
  | nil => simp
  | cons r dlas ih =>
    rw [List.foldl_cons]
    have : List.zipWith (fun w x => x * dlaFlux w r.z r.nhi) wave (wave.map g) =
        wave.map (fun w => g w * dlaFlux w r.z r.nhi) := by
      rw [List.zipWith_map_right, List.zipWith_self]
    rw [this, ih]
    simp [mul_assoc]

theorem dlaTransmission_eq (dlaFlux : K → K → K → K) (z : K) {wave : List K}
    (h : wave.Pairwise (· < ·)) (dlas : List (DlaRow K)) :
    dlaTransmission dlaFlux z wave dlas = wave.map (fun w =>
      if w < (1 + z) * (121567 / 100) then (dlas.map (fun r => dlaFlux w r.z r.nhi)).prod else 1) := by
  unfold dlaTransmission
  simp only [allDlas_eq, List.length_map]
  apply List.ext_getElem?
  intro i
  have hle := searchsorted_le wave ((1 + z) * lyaA)
  rw [List.getElem?_append, List.getElem?_take, List.getElem?_map, List.getElem?_map,
    List.length_take, List.length_map, List.getElem?_replicate]
  cases hw : wave[i]? with
  | none =>
    have : wave.length ≤ i := by simpa using hw
    simp; omega
  | some w =>
    have hi : i < wave.length := by
      have := (List.getElem?_eq_some_iff.mp hw).1; exact this
    have := lt_searchsorted_iff h (x := (1 + z) * lyaA) hw
    have e : (lyaA : K) = 121567 / 100 := rfl
    rw [e] at this hle ⊢
    simp only [Option.map_some, ← this]
    by_cases hlt : i < searchsorted wave ((1 + z) * (121567 / 100))
    · simp [hlt, hi]
    · simp [hlt]; omega

theorem dlaArm_flux (limit : K) (T : K → K) (wave y : List K) :
    List.zipWith (fun f x => f / x)
      (zeroWhere ((wave.map T).map (fun x => decide (x < limit))) y)
      ((wave.map T).map (fun x => if x < limit then 1 else x)) =
    List.zipWith (fun w f => (corrected limit (T w) f 0).1) wave y := by
  unfold zeroWhere corrected
  induction wave generalizing y with
  | nil => simp
  | cons w ws ih =>
    cases y with
    | nil => simp
    | cons a y =>
      simp only [List.map_cons, List.zipWith_cons_cons, ih]
      by_cases h : T w < limit <;> simp [h]

theorem dlaArm_ivar (limit : K) (T : K → K) (wave y : List K) :
    List.zipWith (fun v x => v * x ^ 2)
      (zeroWhere ((wave.map T).map (fun x => decide (x < limit))) y)
      ((wave.map T).map (fun x => if x < limit then 1 else x)) =
    List.zipWith (fun w v => (corrected limit (T w) 0 v).2) wave y := by
  unfold zeroWhere corrected
  induction wave generalizing y with
  | nil => simp
  | cons w ws ih =>
    cases y with
    | nil => simp
    | cons a y =>
      simp only [List.map_cons, List.zipWith_cons_cons, ih]
      by_cases h : T w < limit <;> simp [h]

theorem dlaApply_eq {s : Spectrum K} (hs : Aligned s) (dlaFlux : K → K → K → K) (m : DlaMask K)
    (row : MaskRow K) {dlas : List (DlaRow K)} (hl : List.lookup row.targetid m.groups = some dlas) :
    dlaApply dlaFlux m row s = updAll
      (fun wave y => List.zipWith (fun w f => (corrected m.limit
        (if w < (1 + s.z) * (121567 / 100) then (dlas.map (fun r => dlaFlux w r.z r.nhi)).prod else 1)
        f 0).1) wave y)
      (fun wave y => List.zipWith (fun w v => (corrected m.limit
        (if w < (1 + s.z) * (121567 / 100) then (dlas.map (fun r => dlaFlux w r.z r.nhi)).prod else 1)
        0 v).2) wave y) s := by
  unfold dlaApply
  rw [hl]
  simp only
  have h1 : s.fwave.foldl (fun t x => dlaArm m.limit t x.1 (dlaTransmission dlaFlux s.z x.2 dlas)) s =
      s.fwave.foldl (updArm
        (fun w y => List.zipWith (fun f x => f / x)
          (zeroWhere ((dlaTransmission dlaFlux s.z w dlas).map (fun x => decide (x < m.limit))) y)
          ((dlaTransmission dlaFlux s.z w dlas).map (fun x => if x < m.limit then 1 else x)))
        (fun w y => List.zipWith (fun v x => v * x ^ 2)
          (zeroWhere ((dlaTransmission dlaFlux s.z w dlas).map (fun x => decide (x < m.limit))) y)
          ((dlaTransmission dlaFlux s.z w dlas).map (fun x => if x < m.limit then 1 else x)))) s := rfl
  rw [h1, foldl_updArm_eq _ _ hs]
  refine updAll_congr hs ?_ ?_
  · intro arm w y hw _
    rw [dlaTransmission_eq _ _ (hs.sorted arm w hw), dlaArm_flux]
  · intro arm w y hw _
    rw [dlaTransmission_eq _ _ (hs.sorted arm w hw), dlaArm_ivar]

end Verif.Proofs
