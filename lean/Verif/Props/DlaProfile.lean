import Verif.Props.Masks
import Verif.Proofs.DlaProfile

/-!
# The transmission of damped systems (C73)
-/

namespace Verif.Props
open Verif.Np Verif.Model Verif.Spec Verif.Proofs

/-- **C73.** The transmission of a DLA is strictly between zero and one, at every wavelength, redshift and column
density, for Doppler parameters from 0.05 km/s on (the code uses 10 km/s). -/
theorem C73_range {b : ℝ} (hb : 1 / 20 ≤ b) (wave z nhi : ℝ) :
    0 < Dla.dlaFlux b wave z nhi ∧ Dla.dlaFlux b wave z nhi < 1 := by
  unfold Dla.dlaFlux
  refine ⟨Real.exp_pos _, ?_⟩
  refine (Real.exp_lt_exp.mpr ?_).trans_eq Real.exp_zero
  have h1 := opticalDepth_pos (lambda12 := 121567 / 100) (f12 := 41641 / 100000) (A12 := 62648 * 10 ^ 4) (b := b)
    (by norm_num) (by norm_num) (by norm_num) (by linarith) (by norm_num; linarith) (wave / (1 + z)) nhi
  have h2 := opticalDepth_pos (lambda12 := 10257220 / 10000) (f12 := 79142 / 1000000) (A12 := 16725 * 10 ^ 4) (b := b)
    (by norm_num) (by norm_num) (by norm_num) (by linarith) (by norm_num; linarith) (wave / (1 + z)) nhi
  linarith

/-- **C73.** A larger column density never absorbs less. -/
theorem C73_column_density {b : ℝ} (hb : 1 / 20 ≤ b) (wave z : ℝ) {nhi nhi' : ℝ} (h : nhi ≤ nhi') :
    Dla.dlaFlux b wave z nhi' ≤ Dla.dlaFlux b wave z nhi := by
  unfold Dla.dlaFlux
  refine Real.exp_le_exp.mpr ?_
  have h1 := opticalDepth_mono (lambda12 := 121567 / 100) (f12 := 41641 / 100000) (A12 := 62648 * 10 ^ 4) (b := b)
    (by norm_num) (by norm_num) (by norm_num) (by linarith) (by norm_num; linarith) (wave / (1 + z)) h
  have h2 := opticalDepth_mono (lambda12 := 10257220 / 10000) (f12 := 79142 / 1000000) (A12 := 16725 * 10 ^ 4) (b := b)
    (by norm_num) (by norm_num) (by norm_num) (by linarith) (by norm_num; linarith) (wave / (1 + z)) h
  linarith

example : Dla.dlaFlux 10 3600 2 21 ≤ Dla.dlaFlux 10 3600 2 20 ∧ 0 < Dla.dlaFlux 10 3600 2 21 :=
  ⟨C73_column_density (by norm_num) _ _ (by norm_num), (C73_range (by norm_num) _ _ _).1⟩

/-- Every DLA of `cat` is in `cat'` with at least its column density; there may be more. -/
def Weaker (cat cat' : List (DlaRow ℝ)) : Prop :=
  ∃ l, l.Sublist cat' ∧ List.Forall₂ (fun r r' => r.targetid = r'.targetid ∧ r.z = r'.z ∧ r.nhi ≤ r'.nhi) cat l

theorem prod_pos_le {l : List ℝ} (h : ∀ x ∈ l, 0 < x ∧ x ≤ 1) : 0 < l.prod ∧ l.prod ≤ 1 := by
  induction l with
  | nil => simp
  | cons a l ih =>
    have ha := h a (by simp)
    have hl := ih (fun x hx => h x (by simp [hx]))
    rw [List.prod_cons]
    exact ⟨mul_pos ha.1 hl.1, mul_le_one₀ ha.2 hl.1.le hl.2⟩

theorem prod_sublist {l l' : List ℝ} (h : l.Sublist l') (h1 : ∀ x ∈ l', 0 < x ∧ x ≤ 1) : l'.prod ≤ l.prod := by
  induction h with
  | slnil => simp
  | @cons l l' a h ih =>
    have ha := h1 a (by simp)
    have ih := ih (fun x hx => h1 x (by simp [hx]))
    have hp := (prod_pos_le (l := l') (fun x hx => h1 x (List.mem_cons_of_mem a hx))).1
    rw [List.prod_cons]
    nlinarith
  | @cons_cons l l' a h ih =>
    have ha := h1 a (by simp)
    have ih := ih (fun x hx => h1 x (by simp [hx]))
    rw [List.prod_cons, List.prod_cons]
    exact mul_le_mul_of_nonneg_left ih ha.1.le

theorem prod_forall₂ {l l' : List ℝ} (h : List.Forall₂ (fun a b => 0 < b ∧ b ≤ a) l l') : l'.prod ≤ l.prod ∧ 0 < l'.prod := by
  induction h with
  | nil => simp
  | cons h _ ih =>
    rw [List.prod_cons, List.prod_cons]
    exact ⟨mul_le_mul h.2 ih.1 ih.2.le (h.1.le.trans h.2), mul_pos h.1 ih.2⟩

theorem forall₂_filter {cat l : List (DlaRow ℝ)} (id : Int)
    (h : List.Forall₂ (fun r r' => r.targetid = r'.targetid ∧ r.z = r'.z ∧ r.nhi ≤ r'.nhi) cat l) :
    List.Forall₂ (fun r r' => r.targetid = r'.targetid ∧ r.z = r'.z ∧ r.nhi ≤ r'.nhi)
      (cat.filter (fun r => decide (r.targetid = id))) (l.filter (fun r => decide (r.targetid = id))) := by
  induction h with
  | nil => exact .nil
  | @cons r r' _ _ h _ ih =>
    by_cases hr : r.targetid = id
    · rw [List.filter_cons_of_pos (by simpa using hr), List.filter_cons_of_pos (by simpa using h.1 ▸ hr)]
      exact .cons h ih
    · rw [List.filter_cons_of_neg (by simpa using hr), List.filter_cons_of_neg (by simpa using h.1 ▸ hr)]
      exact ih

theorem transmission_range (cat : List (DlaRow ℝ)) (id : Int) (z w : ℝ) :
    0 < transmission (Dla.dlaFlux 10) cat id z w ∧ transmission (Dla.dlaFlux 10) cat id z w ≤ 1 := by
  unfold transmission
  split
  · refine prod_pos_le fun x hx => ?_
    obtain ⟨r, -, rfl⟩ := List.mem_map.mp hx
    have := C73_range (b := 10) (by norm_num) w r.z r.nhi
    exact ⟨this.1, this.2.le⟩
  · exact ⟨one_pos, le_rfl⟩

theorem transmission_mono {cat cat' : List (DlaRow ℝ)} (h : Weaker cat cat') (id : Int) (z w : ℝ) :
    transmission (Dla.dlaFlux 10) cat' id z w ≤ transmission (Dla.dlaFlux 10) cat id z w := by
  obtain ⟨l, hs, hf⟩ := h
  have hr : ∀ (c : List (DlaRow ℝ)), ∀ x ∈ c.map (fun r => Dla.dlaFlux 10 w r.z r.nhi), 0 < x ∧ x ≤ 1 := by
    intro c x hx
    obtain ⟨r, -, rfl⟩ := List.mem_map.mp hx
    have := C73_range (b := 10) (by norm_num) w r.z r.nhi
    exact ⟨this.1, this.2.le⟩
  unfold transmission
  split
  · refine (prod_sublist ((hs.filter (fun r => decide (r.targetid = id))).map _) (hr _)).trans ?_
    refine (prod_forall₂ ?_).1
    rw [List.forall₂_map_left_iff, List.forall₂_map_right_iff]
    refine (forall₂_filter id hf).imp fun r r' hrr => ⟨(C73_range (by norm_num) _ _ _).1, ?_⟩
    rw [hrr.2.1]
    exact C73_column_density (by norm_num) _ _ hrr.2.2
  · exact le_rfl

theorem corrected_mono {limit t t' v : ℝ} (ht' : 0 < t') (h : t' ≤ t) (hv : 0 ≤ v) :
    0 ≤ (corrected limit t' 0 v).2 ∧ (corrected limit t' 0 v).2 ≤ (corrected limit t 0 v).2 := by
  unfold corrected
  by_cases h1 : t' < limit
  · rw [if_pos h1]
    refine ⟨le_rfl, ?_⟩
    split
    · exact le_rfl
    · simp only; positivity
  · rw [if_neg h1, if_neg (by push Not at h1 ⊢; exact h1.trans h)]
    simp only
    exact ⟨by positivity, mul_le_mul_of_nonneg_left (pow_le_pow_left₀ ht'.le h 2) hv⟩

/-- The ivar of an arm after `DLAMask.apply`, whether the target has DLAs or not. -/
theorem dla_ivar {s : Spectrum ℝ} (hs : Aligned s) (cat : List (DlaRow ℝ)) (ids : Option (List Int)) {limit : ℝ}
    (hlim : limit ≤ 1) (row : MaskRow ℝ) (hl : IsLocal ids row.targetid) {arm : String} {w : List ℝ}
    (hw : s.fwave.lookup arm = some w) :
    (dlaApply (Dla.dlaFlux 10) (dlaInit cat ids limit) row s).fivar.arr arm =
      List.zipWith (fun w v => (corrected limit (transmission (Dla.dlaFlux 10) cat row.targetid s.z w) 0 v).2) w
        (s.fivar.arr arm) := by
  by_cases hc : ∃ r ∈ cat, r.targetid = row.targetid
  · exact arr_of_lookup (((C37_dla_mask hs (Dla.dlaFlux 10) cat ids limit row hl hc).2.2.2 arm w hw).2)
  · push Not at hc
    rw [C37_no_dla s (Dla.dlaFlux 10) cat ids limit row hc]
    have h1 : ∀ x, transmission (Dla.dlaFlux 10) cat row.targetid s.z x = 1 := by
      intro x
      unfold transmission
      have : cat.filter (fun r => decide (r.targetid = row.targetid)) = [] := by
        rw [List.filter_eq_nil_iff]
        intro r hr
        simpa using hc r hr
      rw [this]
      simp
    have h2 : ∀ x v, (corrected limit (transmission (Dla.dlaFlux 10) cat row.targetid s.z x) 0 v).2 = v := by
      intro x v
      rw [h1, corrected, if_neg (not_lt.mpr hlim)]
      simp
    simp only [h2]
    refine List.ext_getElem ?_ fun i h3 h4 => ?_
    · simp [hs.ivar arm w hw]
    · simp

/-- **C73.** The DLA mask never raises the ivar of a pixel; the more DLAs a catalog has for the target and the larger
their column densities, the smaller the ivar of every pixel, so that a pixel masked with one catalog is masked with the
stronger one. -/
theorem C73_monotone {s : Spectrum ℝ} (hs : Aligned s) (hv : ∀ arm, ∀ v ∈ s.fivar.arr arm, 0 ≤ v)
    {cat cat' : List (DlaRow ℝ)} (hcat : Weaker cat cat') (ids : Option (List Int)) {limit : ℝ} (hlim : limit ≤ 1)
    (row : MaskRow ℝ) (hl : IsLocal ids row.targetid) {arm : String} (ha : arm ∈ s.fwave.keys) :
    let before := s.fivar.arr arm
    let weak := (dlaApply (Dla.dlaFlux 10) (dlaInit cat ids limit) row s).fivar.arr arm
    let strong := (dlaApply (Dla.dlaFlux 10) (dlaInit cat' ids limit) row s).fivar.arr arm
    weak.length = before.length ∧ strong.length = before.length ∧
    ∀ (i : Nat) (v a b : ℝ), before[i]? = some v → weak[i]? = some a → strong[i]? = some b → 0 ≤ b ∧ b ≤ a ∧ a ≤ v := by
  obtain ⟨w, hw⟩ := lookup_isSome ha
  dsimp only
  rw [dla_ivar hs cat ids hlim row hl hw, dla_ivar hs cat' ids hlim row hl hw]
  have hlen := hs.ivar arm w hw
  refine ⟨by simp [hlen], by simp [hlen], fun i v a b h1 h2 h3 => ?_⟩
  have hiv : i < (s.fivar.arr arm).length := (List.getElem?_eq_some_iff.mp h1).1
  have hiw : i < w.length := hlen ▸ hiv
  have hvi : (s.fivar.arr arm)[i] = v := (List.getElem?_eq_some_iff.mp h1).2
  have hv0 : 0 ≤ v := hv arm v (hvi ▸ List.getElem_mem hiv)
  rw [List.getElem?_zipWith, List.getElem?_eq_getElem hiw, h1] at h2 h3
  simp only [Option.some.injEq] at h2 h3
  subst h2 h3
  have hr := transmission_range cat row.targetid s.z w[i]
  have hr' := transmission_range cat' row.targetid s.z w[i]
  have hm := transmission_mono hcat row.targetid s.z w[i]
  have h4 := corrected_mono (limit := limit) hr'.1 hm hv0
  refine ⟨h4.1, h4.2, ?_⟩
  have h5 := (corrected_mono (limit := limit) hr.1 hr.2 hv0).2
  rw [corrected, corrected, if_neg (not_lt.mpr hlim)] at h5
  rw [corrected]
  simpa using h5

/-- A forest of two pixels; a catalog with a second DLA and a larger column density of the first one. -/
noncomputable def c73Spec : Spectrum ℝ :=
  { Spectrum.blank 3 1 [] [] [] [] with
    fwave := [("b", [3600, 4800])]
    fflux := [("b", [1, 2])]
    fivar := [("b", [1, 3])]
    ivarSm := none
    weight := none }

theorem c73Spec_ok : Aligned c73Spec := by
  refine ⟨by simp [c73Spec, Dict.keys], rfl, rfl, rfl, rfl, by simp [c73Spec, Spectrum.blank, Dict.keys], ?_, ?_, ?_, ?_, ?_, ?_⟩
  all_goals
    intro arm w hw
    have hm := mem_of_lookup hw
    simp only [c73Spec, List.mem_cons, Prod.mk.injEq, List.not_mem_nil, or_false] at hm
    obtain ⟨rfl, rfl⟩ := hm
  · norm_num
  · rfl
  · rfl
  · rfl
  · rfl
  · intro r hr
    cases hr

example : Aligned c73Spec ∧ (∀ arm, ∀ v ∈ c73Spec.fivar.arr arm, 0 ≤ v) ∧
    Weaker [⟨7, 2, 20⟩] [⟨7, 2, 21⟩, ⟨7, 5 / 2, 20⟩] ∧ IsLocal none 7 ∧ "b" ∈ c73Spec.fwave.keys := by
  refine ⟨c73Spec_ok, fun arm v hv => ?_, ⟨[⟨7, 2, 21⟩], by simp, ?_⟩, fun l hl => (by cases hl), by
    simp [c73Spec, Dict.keys]⟩
  · by_cases ha : arm = "b"
    · subst ha
      have : c73Spec.fivar.arr "b" = [1, 3] := rfl
      rw [this] at hv
      simp only [List.mem_cons, List.not_mem_nil, or_false] at hv
      rcases hv with rfl | rfl <;> norm_num
    · have : c73Spec.fivar.arr arm = [] := by
        simp [c73Spec, Dict.arr, List.lookup, beq_eq_false_iff_ne.mpr ha]
      rw [this] at hv
      cases hv
  · refine .cons ⟨rfl, rfl, ?_⟩ .nil
    norm_num

end Verif.Props
