import Verif.Spec.VarLss
import Verif.Proofs.Slice
import Verif.Props.Subsample
import Mathlib.Tactic.FieldSimp
import Mathlib.Tactic.LinearCombination
import Mathlib.Tactic.NormNum
import Mathlib.Tactic.Linarith

/-!
# Lemmas on the bins of `VarLSSFitter`
-/

namespace Verif.Proofs
open Verif Verif.Np Verif.Model Verif.Model.VarCfg Verif.Spec Verif.Props
open scoped BigOperators

variable {K : Type} [Field K] [LinearOrder K]

section
variable [IsStrictOrderedRing K] [FloorRing K]

theorem le_truncInt {m : Int} (hm : 1 ≤ m) (x : K) : m ≤ truncInt x ↔ (m : K) ≤ x := by
  unfold truncInt
  split
  · exact Int.le_floor
  · rename_i h
    push Not at h
    have h1 : ⌈x⌉ ≤ 0 := Int.ceil_le.mpr (by push_cast; exact h.le)
    have h2 : (1 : K) ≤ (m : K) := by exact_mod_cast hm
    constructor
    · intro h3; omega
    · intro h3; linarith

theorem le_waveIdx {c : VarCfg K} (h : GoodBins c) (m : Nat) (w : K) :
    m + 1 ≤ c.waveIdx w ↔ m ≤ c.nw ∧ c.w1 + m * ((c.w2 - c.w1) / c.nw) ≤ w := by
  have hd : 0 < c.dw := div_pos (sub_pos.mpr h.range) (by exact_mod_cast h.nw_pos)
  have e : (w - c.center 0) / c.dw + 3 / 2 = (w - c.w1) / c.dw + 1 := by
    unfold center edge
    field_simp
    push_cast
    ring
  unfold waveIdx
  rw [e, Int.le_toNat (by positivity), le_min_iff, le_max_iff, or_iff_left (by omega)]
  rw [le_truncInt (by push_cast; omega), and_comm]
  refine and_congr (by omega) ?_
  push_cast
  rw [add_le_add_iff_right, le_div_iff₀ hd]
  change (m : K) * c.dw ≤ _ ↔ c.w1 + m * c.dw ≤ w
  constructor <;> intro h' <;> linarith

omit [IsStrictOrderedRing K] in
theorem waveIdx_le (c : VarCfg K) (w : K) : c.waveIdx w ≤ c.nw + 1 := by
  unfold waveIdx
  have := min_le_right (max (truncInt ((w - c.center 0) / c.dw + 3 / 2)) 0) ((c.nw + 1 : Nat) : Int)
  omega

omit [Field K] [IsStrictOrderedRing K] [FloorRing K] in
theorem ivarIdx_le {c : VarCfg K} (h : c.edges.length = c.nv + 1) (v : K) : c.ivarIdx v ≤ c.nv + 1 := by
  unfold ivarIdx searchsorted
  rw [← h]
  exact List.findIdx_le_length

omit [IsStrictOrderedRing K] in
theorem allIdx_lt {c : VarCfg K} (h : c.edges.length = c.nv + 1) (w v : K) :
    c.allIdx w v < (c.nv + 2) * (c.nw + 2) := by
  unfold allIdx
  have h1 := waveIdx_le c w
  have h2 := ivarIdx_le h v
  have : c.waveIdx w * (c.nv + 2) ≤ (c.nw + 1) * (c.nv + 2) := Nat.mul_le_mul_right _ h1
  nlinarith

theorem waveIdx_eq {c : VarCfg K} (h : GoodBins c) {iw : Nat} (hi : iw < c.nw) (w : K) :
    c.waveIdx w = iw + 1 ↔
      c.w1 + iw * ((c.w2 - c.w1) / c.nw) ≤ w ∧ w < c.w1 + (iw + 1) * ((c.w2 - c.w1) / c.nw) := by
  have h1 := le_waveIdx h iw w
  have h2 := le_waveIdx h (iw + 1) w
  push_cast at h2
  constructor
  · intro e
    rw [e] at h1 h2
    refine ⟨(h1.mp le_rfl).2, ?_⟩
    by_contra hc
    push Not at hc
    exact absurd (h2.mpr ⟨by omega, hc⟩) (by omega)
  · rintro ⟨a, b⟩
    have := h1.mpr ⟨hi.le, a⟩
    have h3 : ¬ iw + 1 + 1 ≤ c.waveIdx w := fun h3 => absurd (h2.mp h3).2 (not_le.mpr b)
    omega

omit [IsStrictOrderedRing K] [FloorRing K] in
theorem ivarIdx_eq {c : VarCfg K} (h : GoodBins c) {iv : Nat} (hi : iv < c.nv) (v : K) :
    c.ivarIdx v = iv + 1 ↔
      ∃ lo hi, c.edges[iv]? = some lo ∧ c.edges[iv + 1]? = some hi ∧ lo < v ∧ v ≤ hi := by
  have hl := h.length
  have e1 : c.edges[iv]? = some (c.edges[iv]'(by omega)) := List.getElem?_eq_getElem _
  have e2 : c.edges[iv + 1]? = some (c.edges[iv + 1]'(by omega)) := List.getElem?_eq_getElem _
  have h1 := lt_searchsorted_iff h.sorted (x := v) e1
  have h2 := lt_searchsorted_iff h.sorted (x := v) e2
  unfold ivarIdx
  constructor
  · intro e
    refine ⟨_, _, e1, e2, h1.mp (by omega), ?_⟩
    by_contra hc
    push Not at hc
    have := h2.mpr hc
    omega
  · rintro ⟨lo, hi', f1, f2, a, b⟩
    rw [e1] at f1; rw [e2] at f2
    cases f1; cases f2
    have := h1.mpr a
    have h3 : ¬ iv + 1 < searchsorted c.edges v := fun h3 => absurd (h2.mp h3) (not_lt.mpr b)
    omega

/-- Index of a used bin. -/
def binIdx (c : VarCfg K) (iw iv : Nat) : Nat := (iw + 1) * (c.nv + 2) + 1 + iv

theorem allIdx_eq {c : VarCfg K} (h : GoodBins c) {iw iv : Nat} (hw : iw < c.nw) (hv : iv < c.nv) (p : VPix K) :
    c.allIdx p.wave p.ivar = binIdx c iw iv ↔ InBin c iw iv p := by
  unfold InBin
  rw [← waveIdx_eq h hw, ← ivarIdx_eq h hv]
  unfold allIdx binIdx
  have h2 := ivarIdx_le h.length p.ivar
  constructor
  · intro e
    have e' : c.ivarIdx p.ivar + (c.nv + 2) * c.waveIdx p.wave = (iv + 1) + (c.nv + 2) * (iw + 1) := by
      nlinarith
    have m1 := congrArg (· % (c.nv + 2)) e'
    have m2 := congrArg (· / (c.nv + 2)) e'
    simp only [Nat.add_mul_mod_self_left] at m1
    simp only [Nat.add_mul_div_left _ _ (show 0 < c.nv + 2 by omega)] at m2
    rw [Nat.mod_eq_of_lt (by omega), Nat.mod_eq_of_lt (by omega)] at m1
    rw [Nat.div_eq_of_lt (by omega), Nat.div_eq_of_lt (by omega)] at m2
    omega
  · rintro ⟨e1, e2⟩
    rw [e1, e2]; ring

end

omit [Field K] [LinearOrder K] in
theorem binIdx_lt {c : VarCfg K} {iw iv : Nat} (hw : iw < c.nw) (hv : iv < c.nv) :
    binIdx c iw iv < (c.nv + 2) * (c.nw + 2) := by
  unfold binIdx
  have : (iw + 1) * (c.nv + 2) ≤ c.nw * (c.nv + 2) := Nat.mul_le_mul_right _ hw
  nlinarith

omit [Field K] [LinearOrder K] in
theorem validIdx_eq (c : VarCfg K) :
    c.validIdx = (List.range c.nw).flatMap (fun iw => (List.range c.nv).map (fun iv => binIdx c iw iv)) := by
  have s1 : c.validIdx.Pairwise (· < ·) := by
    unfold validIdx
    exact List.Pairwise.filter _ List.pairwise_lt_range
  have s2 : ((List.range c.nw).flatMap
      (fun iw => (List.range c.nv).map (fun iv => binIdx c iw iv))).Pairwise (· < ·) := by
    rw [List.pairwise_flatMap]
    refine ⟨fun iw _ => ?_, ?_⟩
    · rw [List.pairwise_map]
      refine List.Pairwise.imp ?_ List.pairwise_lt_range
      intro a b hab
      unfold binIdx; omega
    · refine List.Pairwise.imp ?_ List.pairwise_lt_range
      intro a b hab x hx y hy
      obtain ⟨iv, hiv, rfl⟩ := List.mem_map.mp hx
      obtain ⟨iv', hiv', rfl⟩ := List.mem_map.mp hy
      rw [List.mem_range] at hiv hiv'
      unfold binIdx
      have : (a + 1 + 1) * (c.nv + 2) ≤ (b + 1) * (c.nv + 2) := Nat.mul_le_mul_right _ (by omega)
      nlinarith
  refine List.Perm.eq_of_pairwise (le := (· < ·)) ?_ s1 s2 ?_
  · intro a b _ _ h1 h2; omega
  · rw [List.perm_ext_iff_of_nodup (s1.imp (fun h => Nat.ne_of_lt h)) (s2.imp (fun h => Nat.ne_of_lt h))]
    intro x
    unfold validIdx wvalid
    simp only [List.mem_filter, List.mem_range, List.any_eq_true, List.mem_flatMap, List.mem_map,
      Bool.and_eq_true, decide_eq_true_eq]
    constructor
    · rintro ⟨-, iw, hiw, h1, h2⟩
      refine ⟨iw, hiw, x - ((iw + 1) * (c.nv + 2) + 1), by omega, by unfold binIdx; omega⟩
    · rintro ⟨iw, hiw, iv, hiv, rfl⟩
      refine ⟨binIdx_lt hiw hiv, iw, hiw, ?_, ?_⟩ <;> unfold binIdx <;> omega

theorem getElem?_flatMap_const {α : Type} (f : Nat → Nat → α) (n m i j : Nat) (hi : i < n) (hj : j < m) :
    ((List.range n).flatMap (fun i => (List.range m).map (f i)))[i * m + j]? = some (f i j) := by
  induction n generalizing i f with
  | zero => omega
  | succ n ih =>
    rw [List.range_succ_eq_map, List.flatMap_cons, List.flatMap_map]
    cases i with
    | zero =>
      rw [List.getElem?_append_left (by simpa using hj)]
      simp [hj]
    | succ i =>
      rw [List.getElem?_append_right (by simp; nlinarith)]
      have : (i + 1) * m + j - ((List.range m).map (f 0)).length = i * m + j := by
        simp [Nat.succ_mul]; omega
      rw [this]
      exact ih (fun i => f (i + 1)) i (by omega)

omit [Field K] [LinearOrder K] in
theorem valid_eq {α : Type} (c : VarCfg K) (a : Fin ((c.nv + 2) * (c.nw + 2)) → α) (b : Nat → α)
    (hb : ∀ k, a k = b k) : VarLss.valid c a =
      (List.range c.nw).flatMap (fun iw => (List.range c.nv).map (fun iv => b (binIdx c iw iv))) := by
  have e : (List.range c.nw).flatMap (fun iw => (List.range c.nv).map (fun iv => b (binIdx c iw iv))) =
      c.validIdx.map b := by
    rw [validIdx_eq, List.map_flatMap]
    simp [Function.comp_def]
  rw [e]
  unfold VarLss.valid
  have : ∀ l : List Nat, (∀ i ∈ l, i < (c.nv + 2) * (c.nw + 2)) →
      l.filterMap (fun i => if h : i < (c.nv + 2) * (c.nw + 2) then some (a ⟨i, h⟩) else none) = l.map b := by
    intro l hl
    induction l with
    | nil => rfl
    | cons i l ih =>
      rw [List.filterMap_cons, dif_pos (hl i List.mem_cons_self), List.map_cons, hb]
      rw [ih fun j hj => hl j (List.mem_cons_of_mem _ hj)]
  refine this _ (fun i hi => ?_)
  unfold validIdx at hi
  exact List.mem_range.mp (List.mem_filter.mp hi).1

omit [Field K] [LinearOrder K] in
theorem valid_get {α : Type} (c : VarCfg K) (a : Fin ((c.nv + 2) * (c.nw + 2)) → α) {iw iv : Nat}
    (hw : iw < c.nw) (hv : iv < c.nv) :
    (VarLss.valid c a)[iw * c.nv + iv]? = some (a ⟨binIdx c iw iv, binIdx_lt hw hv⟩) := by
  have hpos : 0 < (c.nv + 2) * (c.nw + 2) := by positivity
  rw [valid_eq c a (fun i => if h : i < (c.nv + 2) * (c.nw + 2) then a ⟨i, h⟩ else a ⟨0, hpos⟩)
    (fun k => by simp)]
  rw [getElem?_flatMap_const _ _ _ _ _ hw hv]
  simp [binIdx_lt hw hv]

omit [Field K] [LinearOrder K] in
theorem valid_length {α : Type} (c : VarCfg K) (a : Fin ((c.nv + 2) * (c.nw + 2)) → α) :
    (VarLss.valid c a).length = c.nw * c.nv := by
  have hpos : 0 < (c.nv + 2) * (c.nw + 2) := by positivity
  rw [valid_eq c a (fun i => if h : i < (c.nv + 2) * (c.nw + 2) then a ⟨i, h⟩ else a ⟨0, hpos⟩)
    (fun k => by simp)]
  simp

section
variable [IsStrictOrderedRing K] [FloorRing K] {n : Nat} {c : VarCfg K}
open VarLss

/-- The measurement that one call of `add` gives to the subsampler. -/
def measOf (c : VarCfg K) (l : List (VPix K)) : Measurement K 4 ((c.nv + 2) * (c.nw + 2)) :=
  (fun j k => xvecOf c l j k, fun k => (npixOf c l k : K))

theorem weighted_measOf (c : VarCfg K) (l : List (VPix K)) : Weighted (measOf c l) := by
  intro k
  refine ⟨Nat.cast_nonneg _, fun h0 j => ?_⟩
  have h1 : npixOf c l k = 0 := (Nat.cast_eq_zero (R := K)).mp h0
  unfold npixOf at h1
  simp only [measOf, xvecOf]
  rw [List.countP_eq_length_filter, List.length_eq_zero_iff] at h1
  rw [h1]; rfl

omit [IsStrictOrderedRing K] [LinearOrder K] [FloorRing K] in
theorem addAll_mean [LinearOrder K] {m d : Nat} (l : List (Measurement K m d)) {s t : Subsample K n m d}
    (h : addAll s l = .ok t) : t.mean = s.mean := by
  induction l generalizing s with
  | nil => cases h; rfl
  | cons p l ih =>
    unfold addAll at h
    rw [List.foldlM_cons] at h
    cases ha : s.add p.1 p.2 with
    | error e => rw [ha] at h; cases h
    | ok s' =>
      rw [ha] at h
      rw [ih h]
      unfold Subsample.add at ha
      split at ha
      · cases ha
      · cases ha; rfl

theorem addList_ok (hc : c.edges.length = c.nv + 1) (ls : List (List (VPix K))) (s : VarLss K n c)
    (hs : s.sub.normalized = false) : ∃ t, s.addList ls = (t, none) ∧
      (∀ k, t.numPix k = s.numPix k + (ls.map (fun l => npixOf c l k)).sum) ∧
      (∀ k, t.numQso k = s.numQso k + ls.countP (fun l => decide (0 < npixOf c l k))) ∧
      addAll s.sub (ls.map (measOf c)) = .ok t.sub ∧ t.calculated = s.calculated := by
  induction ls generalizing s with
  | nil => exact ⟨s, rfl, by simp, by simp, rfl, rfl⟩
  | cons l ls ih =>
    have hall : l.all (fun p => decide (c.allIdx p.wave p.ivar < c.minlength)) = true := by
      rw [List.all_eq_true]
      intro p _
      exact decide_eq_true (allIdx_lt hc _ _)
    obtain ⟨sub', hsub⟩ : ∃ sub', s.sub.add (measOf c l).1 (measOf c l).2 = .ok sub' := by
      unfold Subsample.add; rw [if_neg (by rw [hs]; simp)]; exact ⟨_, rfl⟩
    have hn : sub'.normalized = false := by
      unfold Subsample.add at hsub; rw [if_neg (by rw [hs]; simp)] at hsub; cases hsub; exact hs
    have ha : s.add l = ({ s with
        numPix := fun k => s.numPix k + npixOf c l k
        sub := sub'
        numQso := fun k => s.numQso k + (if 0 < npixOf c l k then 1 else 0) }, none) := by
      unfold VarLss.add
      rw [if_pos hall]
      change (match s.sub.add (measOf c l).1 (measOf c l).2 with
        | .error e => _
        | .ok sub => _) = _
      rw [hsub]
    obtain ⟨t, h1, h2, h3, h4, h5⟩ := ih { s with
        numPix := fun k => s.numPix k + npixOf c l k
        sub := sub'
        numQso := fun k => s.numQso k + (if 0 < npixOf c l k then 1 else 0) } hn
    refine ⟨t, ?_, fun k => ?_, fun k => ?_, ?_, h5⟩
    · unfold VarLss.addList
      rw [ha]
      exact h1
    · rw [h2]; simp only [List.map_cons, List.sum_cons]; omega
    · rw [h3]; simp only [List.countP_cons, decide_eq_true_eq]; omega
    · unfold addAll
      rw [List.map_cons, List.foldlM_cons, hsub]
      exact h4

theorem npixOf_bin (hc : GoodBins c) {iw iv : Nat} (hw : iw < c.nw) (hv : iv < c.nv) (l : List (VPix K)) :
    npixOf c l (binIdx c iw iv) = (inBin c iw iv l).length := by
  classical
  unfold npixOf inBin
  rw [List.countP_eq_length_filter]
  congr 1
  refine List.filter_congr fun p _ => ?_
  rw [decide_eq_decide]
  exact allIdx_eq hc hw hv p

theorem xvecOf_bin (hc : GoodBins c) {iw iv : Nat} (hw : iw < c.nw) (hv : iv < c.nv) (l : List (VPix K))
    (j : Fin 4) :
    xvecOf c l j (binIdx c iw iv) = ((inBin c iw iv l).map (fun p => pixRow p j)).sum := by
  classical
  unfold xvecOf inBin
  congr 2
  refine List.filter_congr fun p _ => ?_
  rw [decide_eq_decide]
  exact allIdx_eq hc hw hv p

omit [FloorRing K] [IsStrictOrderedRing K] in
theorem inBin_flatten (iw iv : Nat) (ls : List (List (VPix K))) :
    inBin c iw iv ls.flatten = (ls.map (inBin c iw iv)).flatten := by
  classical
  unfold inBin
  exact List.filter_flatten

theorem spectraIn_bin (hc : GoodBins c) {iw iv : Nat} (hw : iw < c.nw) (hv : iv < c.nv)
    (ls : List (List (VPix K))) :
    ls.countP (fun l => decide (0 < npixOf c l (binIdx c iw iv))) = spectraIn c iw iv ls := by
  classical
  unfold spectraIn
  refine List.countP_congr fun l _ => ?_
  rw [decide_eq_true_iff, decide_eq_true_iff, npixOf_bin hc hw hv, List.length_pos_iff_exists_mem]
  unfold inBin
  simp only [List.mem_filter, decide_eq_true_eq]

omit [IsStrictOrderedRing K] [FloorRing K] in
/-- Statistics of an object that has not been normalised. -/
theorem getMeanNVar_fresh (eps : K) {m d : Nat} {s : Subsample K n m d} (hs : s.mean = none) :
    ∃ t v, s.getMeanNVar eps false = (t, none) ∧ t.mean = s.getMean.mean ∧ t.variance = some v ∧
      t.x = s.normalized'.x ∧ t.w = s.normalized'.w ∧ t.xdiff ≠ none := by
  unfold Subsample.getMeanNVar Subsample.ensureMean
  rw [hs]
  refine ⟨_, _, rfl, ?_, rfl, rfl, rfl, ?_⟩
  · simp [Subsample.xdiffOf, Subsample.getMean]
  · simp

end

end Verif.Proofs
