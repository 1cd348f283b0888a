import Verif.Proofs.MaskSeq
import Verif.Proofs.DeltaFiles
import Mathlib.Algebra.BigOperators.Ring.List
import Mathlib.Algebra.Order.Ring.Rat
import Mathlib.Algebra.Order.Field.Rat
import Mathlib.Data.Rat.Floor
import Mathlib.Tactic.Linarith
import Mathlib.Tactic.NormNum
import Mathlib.Tactic.FieldSimp
import Mathlib.Tactic.Positivity

/-!
# C35 - C38: sky, BAL and DLA masks
-/

namespace Verif.Props
open Verif.Np Verif.Model Verif.Proofs Verif.Spec List Spectrum

variable {K : Type} [Field K] [LinearOrder K]

/-! ### C35 -/

/-- **C35.** `SkyMask.apply` changes nothing but flux and ivar of the forest; in every arm it zeroes
both exactly in the pixels inside one of the listed ranges (observed frame or rest frame). -/
theorem C35_sky_mask [IsStrictOrderedRing K] {s : Spectrum K} (hs : Aligned s) (hz : 0 < 1 + s.z)
    (lines : List (SkyLine K)) :
    let t := skyApply lines s
    t = { s with fflux := t.fflux, fivar := t.fivar } ∧
    t.fflux.keys = s.fflux.keys ∧ t.fivar.keys = s.fivar.keys ∧
    ∀ arm w, s.fwave.lookup arm = some w →
      t.fflux.lookup arm = some (maskedAt (SkyMasked lines s.z) w (s.fflux.arr arm)) ∧
      t.fivar.lookup arm = some (maskedAt (SkyMasked lines s.z) w (s.fivar.arr arm)) := by
  dsimp only
  rw [skyApply_eq hs hz]
  refine ⟨rfl, by simp only [updAll, keys_mapVals], by simp only [updAll, keys_mapVals], fun arm w hw => ?_⟩
  have hm := mem_keys_of_lookup hw
  unfold updAll
  simp only [lookup_mapVals]
  rw [lookup_eq_arr (d := s.fflux) (by rw [hs.fluxKeys]; exact hm),
    lookup_eq_arr (d := s.fivar) (by rw [hs.ivarKeys]; exact hm), arr_of_lookup hw]
  exact ⟨rfl, rfl⟩

/-- **C35.** The masked arrays pixel by pixel: zero in the masked pixels, the value before in the
others. -/
theorem C35_pixels {p : K → Prop} [DecidablePred p] {wave y : List K} (hy : y.length = wave.length)
    {i : Nat} {w x : K} (hw : wave[i]? = some w) (hx : y[i]? = some x) :
    (p w → (maskedAt p wave y)[i]? = some 0) ∧ (¬ p w → (maskedAt p wave y)[i]? = some x) ∧
      (maskedAt p wave y).length = y.length := by
  unfold maskedAt
  rw [List.getElem?_zipWith, hw, hx]
  refine ⟨fun h => by simp [h], fun h => by simp [h], by simp [hy]⟩

/-- A forest of two arms. -/
def c35Spec : Spectrum ℚ :=
  { blank 2 1 [] [] [] [] with
    fwave := [("b", [3600, 3601, 3602, 3603]), ("r", [3603, 3604, 3605])]
    fflux := [("b", [1, 2, 3, 4]), ("r", [5, 6, 7])]
    fivar := [("b", [1, 1, 1, 1]), ("r", [2, 0, 2])]
    freso := [("b", [[1, 2, 3, 4]]), ("r", [[5, 6, 7]])]
    ivarSm := none
    weight := none }

theorem c35Spec_ok : Aligned c35Spec := by
  refine ⟨by decide, by decide, by decide, by decide, by decide, by decide, ?_, ?_, ?_, ?_, ?_, ?_⟩
  all_goals
    intro arm w hw
    have hm := mem_of_lookup hw
    simp only [c35Spec, List.mem_cons, Prod.mk.injEq, List.not_mem_nil, or_false] at hm
    rcases hm with ⟨rfl, rfl⟩ | ⟨rfl, rfl⟩ <;> decide

/-- A range in the observed frame, one in the rest frame and a line with an unknown frame. -/
example : let t := skyApply [⟨3601, 3603, "OBS"⟩, ⟨2404 / 2, 2410 / 2, "RF"⟩, ⟨0, 9000, "X"⟩] c35Spec
    t.fflux = [("b", [1, 0, 0, 4]), ("r", [5, 6, 7])] ∧
    t.fivar = [("b", [1, 0, 0, 1]), ("r", [2, 0, 2])] := by decide +kernel

example : (skyApply [⟨2402 / 2, 9000, "RF"⟩] c35Spec).fflux =
    [("b", [1, 2, 3, 0]), ("r", [0, 0, 0])] := by decide +kernel

example : Aligned c35Spec ∧ 0 < 1 + c35Spec.z := ⟨c35Spec_ok, by decide +kernel⟩

/-! ### C36 -/

/-- **C36.** `BALMask.apply` changes nothing but flux and ivar of the forest; in every arm it zeroes
both exactly in the pixels within one of the velocity ranges of this quasar from one of the lines. -/
theorem C36_bal_mask {s : Spectrum K} (hs : Aligned s) (row : MaskRow K) :
    let t := balApply row s
    t = { s with fflux := t.fflux, fivar := t.fivar } ∧
    t.fflux.keys = s.fflux.keys ∧ t.fivar.keys = s.fivar.keys ∧
    ∀ arm w, s.fwave.lookup arm = some w →
      t.fflux.lookup arm = some (maskedAt (BalMasked row s.z) w (s.fflux.arr arm)) ∧
      t.fivar.lookup arm = some (maskedAt (BalMasked row s.z) w (s.fivar.arr arm)) := by
  dsimp only
  rw [balApply_eq hs]
  refine ⟨rfl, by simp only [updAll, keys_mapVals], by simp only [updAll, keys_mapVals], fun arm w hw => ?_⟩
  have hm := mem_keys_of_lookup hw
  unfold updAll
  simp only [lookup_mapVals]
  rw [lookup_eq_arr (d := s.fflux) (by rw [hs.fluxKeys]; exact hm),
    lookup_eq_arr (d := s.fivar) (by rw [hs.ivarKeys]; exact hm), arr_of_lookup hw]
  exact ⟨rfl, rfl⟩

/-- **C36.** A quasar without a pair of positive velocities is left as it is. -/
theorem C36_no_bal (s : Spectrum K) {row : MaskRow K}
    (h : ∀ p ∈ velocityPairs row, ¬ (0 < p.1 ∧ 0 < p.2)) : balApply row s = s := by
  unfold balApply
  rw [if_pos]
  unfold balVelocities
  rw [List.filter_eq_nil_iff]
  intro p hp
  have := h p hp
  simpa using this

/-- **C36.** Absorption is on the blue side of its line: a masked pixel is bluer than one of the lines in
the frame of the quasar, and therefore bluer than CIV. -/
theorem C36_blueward [IsStrictOrderedRing K] {row : MaskRow K} {z w : K} (hz : 0 < 1 + z)
    (h : BalMasked row z w) : (∃ l ∈ (ionLines : List (String × K)), w < l.2 * (1 + z)) ∧ w < 1549 * (1 + z) := by
  have key : ∀ l v : K, 0 < l → 0 < v → shifted z l v < l * (1 + z) := by
    intro l v hl hv
    unfold shifted
    have h1 : 0 < l * (1 + z) := mul_pos hl hz
    have h2 : 0 < v / (299792458 / 1000) := by positivity
    nlinarith [mul_pos h1 h2]
  obtain ⟨l, hl, p, -, h1, h2, hw⟩ := h
  have hlpos : 0 < l.2 ∧ l.2 ≤ 1549 := by
    simp only [ionLines, List.mem_cons, List.not_mem_nil, or_false] at hl
    rcases hl with rfl | rfl | rfl | rfl | rfl | rfl | rfl | rfl | rfl | rfl | rfl | rfl | rfl | rfl |
      rfl | rfl | rfl | rfl <;> norm_num
  have hlt : w < l.2 * (1 + z) := by
    rcases hw with hw | hw
    · exact hw.2.trans (key l.2 _ hlpos.1 h1)
    · exact hw.2.trans (key l.2 _ hlpos.1 h2)
  exact ⟨⟨l, hl, hlt⟩, hlt.trans_le (mul_le_mul_of_nonneg_right hlpos.2 hz.le)⟩

/-- **C36.** The catalog check passes exactly if the four velocity columns are there, and raises
`QsonicException` otherwise. -/
theorem C36_check_catalog (cols : List String) :
    (balCheckCatalog cols = .ok () ↔ "VMIN_CIV_450" ∈ cols ∧ "VMAX_CIV_450" ∈ cols ∧
      "VMIN_CIV_2000" ∈ cols ∧ "VMAX_CIV_2000" ∈ cols) ∧
    (balCheckCatalog cols ≠ .ok () → balCheckCatalog cols = .error .qsonic) := by
  unfold balCheckCatalog
  simp only [List.all_cons, List.all_nil, Bool.and_true, Bool.and_eq_true, decide_eq_true_eq]
  split
  next h => exact ⟨⟨fun _ => h, fun _ => rfl⟩, fun hh => absurd rfl hh⟩
  next h => exact ⟨⟨fun hh => by simp at hh, fun hh => absurd hh h⟩, fun _ => rfl⟩

/-- A quasar with gas between 2997.92458 and 5995.84916 km/s; one velocity pair is not used. -/
def c36Row : MaskRow ℚ :=
  ⟨7, [299792458 / 100000, 0], [-1], [299792458 / 50000, 10], [-1]⟩

/-- One pixel between the ranges, two within those of OIV, OVI and OI, and one behind CIV. -/
def c36Spec : Spectrum ℚ :=
  { blank 2 1 [] [] [] [] with
    fwave := [("b", [3000, 3055, 3060, 4648])]
    fflux := [("b", [1, 2, 3, 4])]
    fivar := [("b", [1, 1, 1, 1])]
    ivarSm := none
    weight := none }

theorem c36Spec_ok : Aligned c36Spec := by
  refine ⟨by decide, by decide, by decide, by decide, by decide, by decide, ?_, ?_, ?_, ?_, ?_, ?_⟩
  all_goals
    intro arm w hw
    have hm := mem_of_lookup hw
    simp only [c36Spec, List.mem_cons, Prod.mk.injEq, List.not_mem_nil, or_false] at hm
    rcases hm with ⟨rfl, rfl⟩ <;> decide

example : Aligned c36Spec ∧ velocityPairs c36Row ≠ [] ∧
    (balApply c36Row c36Spec).fflux = [("b", [1, 0, 0, 4])] ∧
    (balApply c36Row c36Spec).fivar = [("b", [1, 0, 0, 1])] := by
  refine ⟨c36Spec_ok, by decide +kernel, by decide +kernel, by decide +kernel⟩

example : BalMasked c36Row 2 3055 ∧ ¬ BalMasked c36Row 2 3000 := by decide +kernel

/-! ### C37 -/

/-- A target is among the local ones (`None`: all are). -/
def IsLocal (ids : Option (List Int)) (id : Int) : Prop := ∀ l, ids = some l → id ∈ l

theorem filter_localRows {cat : List (DlaRow K)} {ids : Option (List Int)} {id : Int}
    (h : IsLocal ids id) :
    (localRows cat ids).filter (fun r => decide (r.targetid = id)) =
      cat.filter (fun r => decide (r.targetid = id)) := by
  unfold localRows
  cases ids with
  | none => rfl
  | some l =>
    simp only
    rw [List.filter_filter]
    refine List.filter_congr fun r _ => ?_
    have := h l rfl
    by_cases hr : r.targetid = id
    · simp [hr, this]
    · simp [hr]

/-- **C37.** A spectrum whose target has DLAs in the catalog: nothing but flux and ivar of the forest
changes, and in every pixel they are those corrected by the transmission of all DLAs of this target
(and of no other), or zero if the transmission is below the limit. -/
theorem C37_dla_mask {s : Spectrum K} (hs : Aligned s) (dlaFlux : K → K → K → K)
    (cat : List (DlaRow K)) (ids : Option (List Int)) (limit : K) (row : MaskRow K)
    (hl : IsLocal ids row.targetid) (hc : ∃ r ∈ cat, r.targetid = row.targetid) :
    let t := dlaApply dlaFlux (dlaInit cat ids limit) row s
    let T := transmission dlaFlux cat row.targetid s.z
    t = { s with fflux := t.fflux, fivar := t.fivar } ∧
    t.fflux.keys = s.fflux.keys ∧ t.fivar.keys = s.fivar.keys ∧
    ∀ arm w, s.fwave.lookup arm = some w →
      t.fflux.lookup arm =
        some (List.zipWith (fun w f => (corrected limit (T w) f 0).1) w (s.fflux.arr arm)) ∧
      t.fivar.lookup arm =
        some (List.zipWith (fun w v => (corrected limit (T w) 0 v).2) w (s.fivar.arr arm)) := by
  dsimp only
  obtain ⟨h1, h2⟩ := dlaInit_lookup cat ids limit row.targetid
  rw [filter_localRows hl] at h1 h2
  cases hg : List.lookup row.targetid (dlaInit cat ids limit).groups with
  | none =>
    obtain ⟨r, hr, he⟩ := hc
    have := List.filter_eq_nil_iff.mp (h2 hg) r hr
    simp [he] at this
  | some g =>
    have hperm := (h1 g hg).1
    have hT : ∀ w, (if w < (1 + s.z) * (121567 / 100) then
        (g.map (fun r => dlaFlux w r.z r.nhi)).prod else 1) =
        transmission dlaFlux cat row.targetid s.z w := by
      intro w
      unfold transmission
      rw [(hperm.map (fun r => dlaFlux w r.z r.nhi)).prod_eq]
    rw [dlaApply_eq hs _ _ _ hg]
    have hlim : (dlaInit cat ids limit).limit = limit := rfl
    simp only [hT, hlim]
    refine ⟨rfl, by simp only [updAll, keys_mapVals], by simp only [updAll, keys_mapVals], fun arm w hw => ?_⟩
    have hm := mem_keys_of_lookup hw
    unfold updAll
    simp only [lookup_mapVals]
    rw [lookup_eq_arr (d := s.fflux) (by rw [hs.fluxKeys]; exact hm),
      lookup_eq_arr (d := s.fivar) (by rw [hs.ivarKeys]; exact hm), arr_of_lookup hw]
    exact ⟨rfl, rfl⟩

/-- **C37.** A spectrum whose target has no DLA in the catalog is left as it is. -/
theorem C37_no_dla (s : Spectrum K) (dlaFlux : K → K → K → K) (cat : List (DlaRow K))
    (ids : Option (List Int)) (limit : K) (row : MaskRow K)
    (hc : ∀ r ∈ cat, r.targetid ≠ row.targetid) :
    dlaApply dlaFlux (dlaInit cat ids limit) row s = s := by
  obtain ⟨h1, -⟩ := dlaInit_lookup cat ids limit row.targetid
  unfold dlaApply
  cases hg : List.lookup row.targetid (dlaInit cat ids limit).groups with
  | none => rfl
  | some g =>
    obtain ⟨hp, hne⟩ := h1 g hg
    exfalso
    apply hne
    have : (localRows cat ids).filter (fun r => decide (r.targetid = row.targetid)) = [] := by
      rw [List.filter_eq_nil_iff]
      intro r hr
      have : r ∈ cat := by
        unfold localRows at hr
        cases ids with
        | none => exact hr
        | some l => exact (List.mem_filter.mp hr).1
      simpa using hc r this
    rw [this] at hp
    exact hp.eq_nil

/-- **C37.** The correction keeps the signal-to-noise of a pixel that is not masked and its status: it is
good exactly if it was; a pixel is masked exactly below the limit. -/
theorem C37_signal_to_noise [IsStrictOrderedRing K] {limit t f v : K} (hl : 0 < limit) (ht : limit ≤ t) :
    (corrected limit t f v).1 ^ 2 * (corrected limit t f v).2 = f ^ 2 * v ∧
    (corrected limit t f v).1 * t = f ∧ (0 < (corrected limit t f v).2 ↔ 0 < v) ∧
    ∀ t', t' < limit → corrected limit t' f v = (0, 0) := by
  have hp : 0 < t := hl.trans_le ht
  unfold corrected
  rw [if_neg (not_lt.mpr ht)]
  refine ⟨?_, ?_, ?_, fun t' h => by rw [if_pos h]⟩
  · simp only; field_simp
  · simp only; field_simp
  · simp only
    exact mul_pos_iff_of_pos_right (by positivity)

/-- **C37.** The redshift column: the only one of the accepted names that is there; none is an error. -/
theorem C37_redshift_column {pick : List String → Option String} (hp : IsPick pick)
    (hnone : pick [] = none) (cols : List String) :
    ("Z_DLA" ∈ cols → "Z" ∉ cols → dlaZColumn pick cols = .ok "Z_DLA") ∧
    ("Z_DLA" ∉ cols → "Z" ∈ cols → dlaZColumn pick cols = .ok "Z") ∧
    ("Z_DLA" ∉ cols → "Z" ∉ cols → dlaZColumn pick cols = .error .valueError) := by
  unfold dlaZColumn
  refine ⟨fun h1 h2 => ?_, fun h1 h2 => ?_, fun h1 h2 => ?_⟩
  · have : ["Z_DLA", "Z"].filter (fun c => decide (c ∈ cols)) = ["Z_DLA"] := by simp [h1, h2]
    rw [this, hp.single]
  · have : ["Z_DLA", "Z"].filter (fun c => decide (c ∈ cols)) = ["Z"] := by simp [h1, h2]
    rw [this, hp.single]
  · have : ["Z_DLA", "Z"].filter (fun c => decide (c ∈ cols)) = [] := by simp [h1, h2]
    rw [this, hnone]

/-- **C37, what does not hold.** With both columns in the file the redshift column depends on the order
in which python's set gives its elements: both choices are possible. -/
theorem C37_redshift_column_ambiguous : ∃ p q : List String → Option String, IsPick p ∧ IsPick q ∧
    dlaZColumn p ["TARGETID", "Z", "Z_DLA", "NHI"] = .ok "Z_DLA" ∧
    dlaZColumn q ["TARGETID", "Z", "Z_DLA", "NHI"] = .ok "Z" := by
  refine ⟨List.head?, List.getLast?, ⟨fun h => ?_, fun {l} h => ?_⟩, ⟨fun h => ?_, fun {l} h => ?_⟩, by decide,
    by decide⟩
  · exact List.mem_of_mem_head? h
  · exact ⟨_, List.head?_eq_some_head h⟩
  · exact List.mem_of_getLast? h
  · exact ⟨_, List.getLast?_eq_some_getLast h⟩

/-- Two DLAs of target 7 and one of another target; the toy profile is a step of depth `nhi`. -/
example : let cat : List (DlaRow ℚ) := [⟨7, 3602, 1 / 2⟩, ⟨9, 3600, 1 / 10⟩, ⟨7, 3601, 9 / 10⟩]
    let prof : ℚ → ℚ → ℚ → ℚ := fun w z nhi => if z ≤ w ∧ w < z + 2 then nhi else 1
    let row : MaskRow ℚ := ⟨7, [], [], [], []⟩
    let t := dlaApply prof (dlaInit cat (some [7, 8]) (8 / 10)) row c35Spec
    IsLocal (some [7, 8]) row.targetid ∧ (∃ r ∈ cat, r.targetid = row.targetid) ∧
    t.fflux = [("b", [1, 2 / (9 / 10), 0, 0]), ("r", [0, 6, 7])] ∧
    t.fivar = [("b", [1, 81 / 100, 0, 0]), ("r", [0, 0, 2])] := by
  refine ⟨?_, by decide, by decide +kernel, by decide +kernel⟩
  intro l hl
  cases hl
  decide

/-! ### C38 -/

/-- **C38.** The order in which sky, BAL and DLA masks are applied does not matter. -/
theorem C38_order [IsStrictOrderedRing K] [FloorRing K] {s : Spectrum K} (hs : Aligned s)
    (hz : 0 < 1 + s.z) (dlaFlux : K → K → K → K) (row : MaskRow K) {l l' : List (Masker K)}
    (h : l.Perm l') : applyMasks dlaFlux row l s = applyMasks dlaFlux row l' s := by
  have hf : l.foldl (fun t m => m.apply dlaFlux row t) s =
      l'.foldl (fun t m => m.apply dlaFlux row t) s := by
    rw [maskers_foldl_eq dlaFlux row l hs hz, maskers_foldl_eq dlaFlux row l' hs hz]
    refine updAll_congr hs ?_ ?_ <;> intro _ _ _ _ _ <;> congr 1 <;> funext w
    · exact (h.map _).prod_eq
    · exact (h.map _).prod_eq
  cases l with
  | nil =>
    have := h.symm.eq_nil
    subst this
    rfl
  | cons m l =>
    cases l' with
    | nil => exact absurd h.eq_nil (by simp)
    | cons m' l' =>
      unfold applyMasks
      simp only
      rw [hf]

/-- A mask that only removes pixels: sky or BAL. -/
def Removes : Masker K → Prop
  | .dla _ => False
  | _ => True

/-- The pixels that a removing mask removes. -/
def Removed (row : MaskRow K) (z w : K) : Masker K → Prop
  | .sky lines => SkyMasked lines z w
  | .bal => BalMasked row z w
  | .dla _ => False

/-- **C38.** Sky and BAL masks, in any number: the pixels in none of the masks keep flux and ivar, the
others are zero; so repeating masks changes nothing. -/
theorem C38_only_remove [IsStrictOrderedRing K] {s : Spectrum K} (hs : Aligned s)
    (hz : 0 < 1 + s.z) (dlaFlux : K → K → K → K) (row : MaskRow K) {l : List (Masker K)}
    (hl : ∀ m ∈ l, Removes m) {arm : String} {wave : List K} (hw : s.fwave.lookup arm = some wave)
    {i : Nat} {w f v : K} (hi : wave[i]? = some w) (hf : (s.fflux.arr arm)[i]? = some f)
    (hv : (s.fivar.arr arm)[i]? = some v) :
    let t := l.foldl (fun t m => m.apply dlaFlux row t) s
    ((∃ m ∈ l, Removed row s.z w m) →
      (t.fflux.arr arm)[i]? = some 0 ∧ (t.fivar.arr arm)[i]? = some 0) ∧
    ((∀ m ∈ l, ¬ Removed row s.z w m) →
      (t.fflux.arr arm)[i]? = some f ∧ (t.fivar.arr arm)[i]? = some v) := by
  dsimp only
  rw [maskers_foldl_eq dlaFlux row l hs hz]
  have hm := mem_keys_of_lookup hw
  unfold updAll
  simp only
  rw [arr_mapVals (by rw [hs.fluxKeys]; exact hm), arr_mapVals (by rw [hs.ivarKeys]; exact hm),
    arr_of_lookup hw]
  unfold scaled
  rw [List.getElem?_zipWith, List.getElem?_zipWith, hi, hf, hv]
  simp only [Option.some.injEq]
  have hfac : ∀ m ∈ l, (Removed row s.z w m → (factors dlaFlux row s.z m).1 w = 0 ∧
      (factors dlaFlux row s.z m).2 w = 0) ∧ (¬ Removed row s.z w m →
      (factors dlaFlux row s.z m).1 w = 1 ∧ (factors dlaFlux row s.z m).2 w = 1) := by
    intro m hm
    have := hl m hm
    cases m with
    | sky lines => simp only [Removed, factors]; constructor <;> intro h <;> simp [h]
    | bal => simp only [Removed, factors]; constructor <;> intro h <;> simp [h]
    | dla m => exact absurd this (by simp [Removes])
  constructor
  · rintro ⟨m, hm, hr⟩
    have h0 := (hfac m hm).1 hr
    rw [List.prod_eq_zero (List.mem_map.mpr ⟨m, hm, h0.1⟩),
      List.prod_eq_zero (List.mem_map.mpr ⟨m, hm, h0.2⟩), mul_zero, mul_zero]
    exact ⟨rfl, rfl⟩
  · intro hn
    have e1 : (l.map (fun m => (factors dlaFlux row s.z m).1 w)).prod = 1 := by
      refine List.prod_eq_one ?_
      intro x hx
      obtain ⟨m, hm, rfl⟩ := List.mem_map.mp hx
      exact ((hfac m hm).2 (hn m hm)).1
    have e2 : (l.map (fun m => (factors dlaFlux row s.z m).2 w)).prod = 1 := by
      refine List.prod_eq_one ?_
      intro x hx
      obtain ⟨m, hm, rfl⟩ := List.mem_map.mp hx
      exact ((hfac m hm).2 (hn m hm)).2
    rw [e1, e2, mul_one, mul_one]
    exact ⟨rfl, rfl⟩

/-- **C38.** The result of sky and BAL masks depends only on which masks there are, not on order or
repetition. -/
theorem C38_repeat [IsStrictOrderedRing K] [FloorRing K] {s : Spectrum K} (hs : Aligned s)
    (hz : 0 < 1 + s.z) (dlaFlux : K → K → K → K) (row : MaskRow K) {l l' : List (Masker K)}
    (hl : ∀ m ∈ l, Removes m) (h : ∀ m, m ∈ l ↔ m ∈ l') :
    applyMasks dlaFlux row l s = applyMasks dlaFlux row l' s := by
  have hl' : ∀ m ∈ l', Removes m := fun m hm => hl m ((h m).mpr hm)
  have hf : l.foldl (fun t m => m.apply dlaFlux row t) s =
      l'.foldl (fun t m => m.apply dlaFlux row t) s := by
    rw [maskers_foldl_eq dlaFlux row l hs hz, maskers_foldl_eq dlaFlux row l' hs hz]
    have h01 : ∀ w, ∀ m : Masker K, Removes m → ((factors dlaFlux row s.z m).1 w = 0 ∨
        (factors dlaFlux row s.z m).1 w = 1) ∧ ((factors dlaFlux row s.z m).2 w = 0 ∨
        (factors dlaFlux row s.z m).2 w = 1) := by
      intro w m hm
      cases m with
      | sky lines => simp only [factors]; by_cases hh : SkyMasked lines s.z w <;> simp [hh]
      | bal => simp only [factors]; by_cases hh : BalMasked row s.z w <;> simp [hh]
      | dla m => exact absurd hm (by simp [Removes])
    have hprod : ∀ g : Masker K → K, (∀ m, Removes m → g m = 0 ∨ g m = 1) →
        (l.map g).prod = (l'.map g).prod := by
      intro g hg
      by_cases h0 : ∃ m ∈ l, g m = 0
      · obtain ⟨m, hm, h0⟩ := h0
        rw [List.prod_eq_zero (List.mem_map.mpr ⟨m, hm, h0⟩),
          List.prod_eq_zero (List.mem_map.mpr ⟨m, (h m).mp hm, h0⟩)]
      · have h1 : ∀ m ∈ l, g m = 1 := fun m hm =>
          (hg m (hl m hm)).resolve_left (fun hh => h0 ⟨m, hm, hh⟩)
        rw [List.prod_eq_one, List.prod_eq_one]
        · intro x hx
          obtain ⟨m, hm, rfl⟩ := List.mem_map.mp hx
          exact h1 m ((h m).mpr hm)
        · intro x hx
          obtain ⟨m, hm, rfl⟩ := List.mem_map.mp hx
          exact h1 m hm
    refine updAll_congr hs ?_ ?_ <;> intro _ _ _ _ _ <;> congr 1 <;> funext w
    · exact hprod _ (fun m hm => (h01 w m hm).1)
    · exact hprod _ (fun m hm => (h01 w m hm).2)
  cases l with
  | nil =>
    cases l' with
    | nil => rfl
    | cons m l' => exact absurd ((h m).mpr (by simp)) (by simp)
  | cons m l =>
    cases l' with
    | nil => exact absurd ((h m).mp (by simp)) (by simp)
    | cons m' l' =>
      unfold applyMasks
      simp only
      rw [hf]

end Verif.Props
