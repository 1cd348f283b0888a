import Verif.Spec.Coadd
import Verif.Proofs.SpectrumInit
import Mathlib.Data.List.GetD
import Mathlib.Tactic.Linarith
import Mathlib.Tactic.FieldSimp
import Mathlib.Tactic.Ring
import Mathlib.Algebra.Order.BigOperators.Group.List
import Mathlib.Algebra.Order.Floor.Semiring

/-! Lemmas about scatter assignments and coadding. -/

namespace Verif.Proofs
open Verif.Np Verif.Model Verif.Spec List

section
variable {K : Type}

theorem putAll_length (a : List K) (l : List (Nat × K)) : (putAll a l).length = a.length := by
  unfold putAll
  induction l generalizing a with
  | nil => rfl
  | cons p l ih => rw [List.foldl_cons, ih]; simp

theorem normIdx_ok {n : Nat} {i : Int} {j : Nat} (h : normIdx n i = .ok j) : j < n := by
  unfold normIdx at h
  split at h
  · split at h
    · simp at h; omega
    · simp at h
  · split at h
    · simp at h; omega
    · simp at h

theorem normIdx_nat {n j : Nat} (h : j < n) : normIdx n (j : Int) = .ok j := by
  unfold normIdx
  simp [h]

theorem map_fst_zip_sublist {α β : Type} (l : List α) (m : List β) :
    ((l.zip m).map Prod.fst).Sublist l := by
  induction l generalizing m with
  | nil => simp
  | cons x l ih =>
    cases m with
    | nil => simp
    | cons y m => simpa using ih m

variable [AddCommMonoid K]

/-- The sum of the values for index `k`. -/
def sumAt (l : List (Nat × K)) (k : Nat) : K :=
  ((l.filter (fun p => decide (p.1 = k))).map Prod.snd).sum

theorem putAll_add (a : List K) {l : List (Nat × K)} (hn : (l.map Prod.fst).Nodup)
    (hl : ∀ p ∈ l, p.1 < a.length) (r : List K) (hr : r.length = a.length)
    (hra : ∀ p ∈ l, r[p.1]? = a[p.1]?) (k : Nat) (hk : k < a.length) :
    (putAll r (l.map (fun p => (p.1, a.getD p.1 0 + p.2))))[k]? =
      some (r.getD k 0 + sumAt l k) := by
  induction l generalizing r with
  | nil =>
    simp only [putAll, List.map_nil, List.foldl_nil, sumAt, List.filter_nil, List.sum_nil, add_zero]
    rw [List.getElem?_eq_getElem (by omega), List.getD_eq_getElem _ _ (by omega)]
  | cons p l ih =>
    rw [List.map_cons, List.nodup_cons] at hn
    have hp : p.1 < a.length := hl p (by simp)
    have := ih hn.2 (fun q hq => hl q (by simp [hq])) (r.set p.1 (a.getD p.1 0 + p.2))
      (by simp [hr]) (by
        intro q hq
        have hne : p.1 ≠ q.1 := fun h => hn.1 (List.mem_map.mpr ⟨q, hq, h.symm⟩)
        rw [List.getElem?_set_ne hne]
        exact hra q (by simp [hq]))
    unfold putAll at this ⊢
    rw [List.map_cons, List.foldl_cons, this]
    congr 1
    unfold sumAt
    rw [List.filter_cons]
    by_cases h : p.1 = k
    · have hrk : r.getD k 0 = a.getD k 0 := by
        have := hra p (by simp)
        rw [h] at this
        rw [List.getD_eq_getElem?_getD, List.getD_eq_getElem?_getD, this]
      simp only [h, decide_true, if_true, List.map_cons, List.sum_cons]
      rw [hrk, List.getD_eq_getElem _ _ (by simp; omega), List.getElem_set_self, add_assoc]
    · simp only [h, decide_false, Bool.false_eq_true, if_false]
      rw [List.getD_eq_getElem?_getD, List.getElem?_set_ne h, ← List.getD_eq_getElem?_getD]

/-- `a[idx] += v` for distinct indices within the array. -/
theorem scatterAdd_ok {n : Nat} (F : Nat → K) {idx : List Nat} {v : List K} (hn : idx.Nodup)
    (hi : ∀ i ∈ idx, i < n) :
    scatterAdd ((List.range n).map F) (idx.map (fun i : Nat => (i : Int))) v =
      .ok ((List.range n).map (fun k => F k + sumAt (idx.zip v) k)) := by
  unfold scatterAdd
  have hm : (idx.map (fun i : Nat => (i : Int))).mapM (normIdx ((List.range n).map F).length) =
      .ok idx := by
    rw [List.mapM_map]
    have := mapM_eq_ok (f := fun i : Nat => normIdx ((List.range n).map F).length (i : Int))
      (g := id) (l := idx) (fun i hi' => by simpa using normIdx_nat (by simpa using hi i hi'))
    rw [List.map_id] at this
    exact this
  rw [hm, except_bind_ok, except_pure]
  congr 1
  have hsub : ((idx.zip v).map Prod.fst).Sublist idx := by
    exact map_fst_zip_sublist idx v
  apply List.ext_getElem?
  intro k
  by_cases hk : k < n
  · rw [putAll_add _ (hn.sublist hsub) (fun p hp => by
        simpa using hi p.1 (List.of_mem_zip hp).1) _ rfl (fun _ _ => rfl) k (by simpa using hk)]
    simp [hk]
  · rw [List.getElem?_eq_none (by rw [putAll_length]; simp; omega),
      List.getElem?_eq_none (by simp; omega)]

end

section
variable {K : Type} [Field K] [LinearOrder K] [IsStrictOrderedRing K] [FloorRing K]

/-- The index is the cell. -/
theorem coaddIdx_eq_iff {minWave dwave w : K} (hd : 0 < dwave) (hw : minWave ≤ w) (k : Nat) :
    coaddIdx minWave dwave w = (k : Int) ↔ InCell minWave dwave k w := by
  have h0 : 0 ≤ (w - minWave) / dwave + 1 / 10 := by
    have := div_nonneg (sub_nonneg.mpr hw) hd.le
    linarith
  unfold coaddIdx truncInt InCell
  rw [if_pos h0, Int.floor_eq_iff]
  push_cast
  constructor
  · rintro ⟨h1, h2⟩
    have e : (w - minWave) / dwave * dwave = w - minWave := by field_simp
    constructor
    · have : ((k : K) - 1 / 10) ≤ (w - minWave) / dwave := by linarith
      have := mul_le_mul_of_nonneg_right this hd.le
      linarith
    · have : (w - minWave) / dwave < (k : K) + 9 / 10 := by linarith
      have := mul_lt_mul_of_pos_right this hd
      linarith
  · rintro ⟨h1, h2⟩
    have h3 : ((k : K) - 1 / 10) ≤ (w - minWave) / dwave := by
      rw [le_div_iff₀ hd]; linarith
    have h4 : (w - minWave) / dwave < (k : K) + 9 / 10 := by
      rw [div_lt_iff₀ hd]; linarith
    constructor <;> linarith

theorem coaddIdx_nonneg {minWave dwave w : K} (hd : 0 < dwave) (hw : minWave ≤ w) :
    0 ≤ coaddIdx minWave dwave w := by
  have h0 : 0 ≤ (w - minWave) / dwave + 1 / 10 := by
    have := div_nonneg (sub_nonneg.mpr hw) hd.le
    linarith
  unfold coaddIdx truncInt
  rw [if_pos h0]
  exact Int.floor_nonneg.mpr h0

theorem coaddIdx_mono {minWave dwave w w' : K} (hd : 0 < dwave) (hw : minWave ≤ w) (hww : w ≤ w') :
    coaddIdx minWave dwave w ≤ coaddIdx minWave dwave w' := by
  have h0 : 0 ≤ (w - minWave) / dwave + 1 / 10 := by
    have := div_nonneg (sub_nonneg.mpr hw) hd.le
    linarith
  have h1 : (w - minWave) / dwave ≤ (w' - minWave) / dwave :=
    div_le_div_of_nonneg_right (by linarith) hd.le
  unfold coaddIdx truncInt
  rw [if_pos h0, if_pos (by linarith)]
  exact Int.floor_le_floor (by linarith)

/-- The index as a natural number. -/
def cellIdx (minWave dwave w : K) : Nat := (coaddIdx minWave dwave w).toNat

theorem coaddIdx_eq_cellIdx {minWave dwave w : K} (hd : 0 < dwave) (hw : minWave ≤ w) :
    coaddIdx minWave dwave w = (cellIdx minWave dwave w : Int) := by
  unfold cellIdx
  rw [Int.toNat_of_nonneg (coaddIdx_nonneg hd hw)]

theorem cellIdx_eq_iff {minWave dwave w : K} (hd : 0 < dwave) (hw : minWave ≤ w) (k : Nat) :
    cellIdx minWave dwave w = k ↔ InCell minWave dwave k w := by
  rw [← coaddIdx_eq_iff hd hw, coaddIdx_eq_cellIdx hd hw]
  exact Int.ofNat_inj.symm

theorem sumAt_cell {minWave dwave : K} (hd : 0 < dwave) {pix : List (Pix K)}
    (hw : ∀ p ∈ pix, minWave ≤ p.wave) (f : Pix K → K) (k : Nat) :
    sumAt ((pix.map (fun p => cellIdx minWave dwave p.wave)).zip (pix.map f)) k =
      ((pix.filter (fun p => decide (InCell minWave dwave k p.wave))).map f).sum := by
  unfold sumAt
  rw [List.zip_map', List.filter_map, List.map_map]
  congr 1
  rw [show (Prod.snd ∘ fun p : Pix K => (cellIdx minWave dwave p.wave, f p)) = f from rfl]
  congr 1
  refine List.filter_congr fun p hp => ?_
  simp only [Function.comp_apply]
  rw [decide_eq_decide]
  exact cellIdx_eq_iff hd (hw p hp) k

theorem cellIdx_nodup {minWave dwave : K} (hd : 0 < dwave) {pix : List (Pix K)}
    (hw : ∀ p ∈ pix, minWave ≤ p.wave)
    (h1 : pix.Pairwise (fun p q => ∀ k, InCell minWave dwave k p.wave →
      ¬ InCell minWave dwave k q.wave)) :
    (pix.map (fun p => cellIdx minWave dwave p.wave)).Nodup := by
  unfold List.Nodup
  rw [List.pairwise_map]
  refine List.Pairwise.imp_of_mem ?_ h1
  intro p q hp hq h he
  have hp' := (cellIdx_eq_iff hd (hw p hp) (cellIdx minWave dwave p.wave)).mp rfl
  have hq' := (cellIdx_eq_iff hd (hw q hq) (cellIdx minWave dwave p.wave)).mp he.symm
  exact h _ hp' hq'

/-- One arm on the grid. -/
theorem scatterAdd_cell {minWave dwave : K} (hd : 0 < dwave) {n : Nat} {pix : List (Pix K)}
    (hw : ∀ p ∈ pix, minWave ≤ p.wave)
    (hn : ∀ p ∈ pix, cellIdx minWave dwave p.wave < n)
    (h1 : pix.Pairwise (fun p q => ∀ k, InCell minWave dwave k p.wave →
      ¬ InCell minWave dwave k q.wave)) (F : Nat → K) (f : Pix K → K) :
    scatterAdd ((List.range n).map F) (pix.map (fun p => coaddIdx minWave dwave p.wave))
      (pix.map f) = .ok ((List.range n).map (fun k => F k +
        ((pix.filter (fun p => decide (InCell minWave dwave k p.wave))).map f).sum)) := by
  have e : pix.map (fun p => coaddIdx minWave dwave p.wave) =
      (pix.map (fun p => cellIdx minWave dwave p.wave)).map (fun i : Nat => (i : Int)) := by
    rw [List.map_map]
    exact List.map_congr_left fun p hp => coaddIdx_eq_cellIdx hd (hw p hp)
  rw [e, scatterAdd_ok F (cellIdx_nodup hd hw h1) (by
    intro i hi
    obtain ⟨p, hp, rfl⟩ := List.mem_map.mp hi
    exact hn p hp)]
  congr 1
  refine List.map_congr_left fun k _ => ?_
  rw [sumAt_cell hd hw]

theorem coadd_foldlM {minWave dwave : K} (hd : 0 < dwave) {n : Nat} {arms : List (List (Pix K))}
    (hw : ∀ a ∈ arms, ∀ p ∈ a, minWave ≤ p.wave)
    (hn : ∀ a ∈ arms, ∀ p ∈ a, cellIdx minWave dwave p.wave < n)
    (h1 : OnePerCell minWave dwave arms) (F V N : Nat → K) :
    arms.foldlM (coaddArm minWave dwave)
      ⟨(List.range n).map F, (List.range n).map V, (List.range n).map N⟩ =
    .ok ⟨(List.range n).map (fun k => F k +
            ((cell minWave dwave arms k).map (fun p => p.weight * p.flux)).sum),
         (List.range n).map (fun k => V k +
            ((cell minWave dwave arms k).map (fun p => p.weight ^ 2 * varOf p.ivar)).sum),
         (List.range n).map (fun k => N k + sumWeight (cell minWave dwave arms k))⟩ := by
  induction arms generalizing F V N with
  | nil => simp [cell, sumWeight]
  | cons a arms ih =>
    rw [List.foldlM_cons]
    have ha := hw a (by simp)
    have hna := hn a (by simp)
    have h1a := h1 a (by simp)
    have : coaddArm minWave dwave
        ⟨(List.range n).map F, (List.range n).map V, (List.range n).map N⟩ a = .ok
        ⟨(List.range n).map (fun k => F k + ((a.filter (fun p => decide
            (InCell minWave dwave k p.wave))).map (fun p => p.weight * p.flux)).sum),
         (List.range n).map (fun k => V k + ((a.filter (fun p => decide
            (InCell minWave dwave k p.wave))).map (fun p => p.weight ^ 2 * varOf p.ivar)).sum),
         (List.range n).map (fun k => N k + ((a.filter (fun p => decide
            (InCell minWave dwave k p.wave))).map (fun p => p.weight)).sum)⟩ := by
      unfold coaddArm
      dsimp only
      rw [scatterAdd_cell hd ha hna h1a, except_bind_ok, scatterAdd_cell hd ha hna h1a,
        except_bind_ok, scatterAdd_cell hd ha hna h1a, except_bind_ok, except_pure]
    rw [this, except_bind_ok, ih (fun b hb => hw b (by simp [hb])) (fun b hb => hn b (by simp [hb]))
      (fun b hb => h1 b (by simp [hb]))]
    congr 2
    · refine List.map_congr_left fun k _ => ?_
      simp [cell, List.filter_append, add_assoc]
    · refine List.map_congr_left fun k _ => ?_
      simp [cell, List.filter_append, add_assoc]
    · refine List.map_congr_left fun k _ => ?_
      simp [cell, sumWeight, List.filter_append, add_assoc]

theorem replicate_eq_map_range {α : Type} (n : Nat) (x : α) :
    List.replicate n x = (List.range n).map (fun _ => x) := by
  simp [List.map_const']

/-- Coadding: flux and ivar of every grid pixel. -/
theorem coaddArms_eq {minWave dwave : K} (hd : 0 < dwave) {n : Nat} {arms : List (List (Pix K))}
    (hw : ∀ a ∈ arms, ∀ p ∈ a, minWave ≤ p.wave)
    (hn : ∀ a ∈ arms, ∀ p ∈ a, cellIdx minWave dwave p.wave < n)
    (h1 : OnePerCell minWave dwave arms) :
    coaddArms minWave dwave n arms = .ok
      ((List.range n).map (fun k =>
        if 0 < sumWeight (cell minWave dwave arms k) then
          ((cell minWave dwave arms k).map (fun p => p.weight * p.flux)).sum /
            sumWeight (cell minWave dwave arms k)
        else ((cell minWave dwave arms k).map (fun p => p.weight * p.flux)).sum),
       (List.range n).map (fun k =>
        if 0 < sumWeight (cell minWave dwave arms k) then
          sumWeight (cell minWave dwave arms k) ^ 2 /
            ((cell minWave dwave arms k).map (fun p => p.weight ^ 2 * varOf p.ivar)).sum
        else ((cell minWave dwave arms k).map (fun p => p.weight ^ 2 * varOf p.ivar)).sum)) := by
  unfold coaddArms
  dsimp only
  rw [replicate_eq_map_range, coadd_foldlM hd hw hn h1, except_bind_ok, except_pure]
  simp only [zero_add]
  unfold normFlux normIvar
  dsimp only
  rw [List.zipWith_map, List.zipWith_self, List.zipWith_map, List.zipWith_self]

omit [IsStrictOrderedRing K] [FloorRing K] in
theorem sum_varOf (l : List (Pix K)) :
    (l.map (fun p => p.weight ^ 2 * varOf p.ivar)).sum =
      ((l.filter (fun p => decide (0 < p.ivar))).map (fun p => p.weight ^ 2 / p.ivar)).sum := by
  induction l with
  | nil => rfl
  | cons p l ih =>
    rw [List.filter_cons, List.map_cons, List.sum_cons, ih]
    unfold varOf
    by_cases h : 0 < p.ivar
    · simp [h, div_eq_mul_inv]
    · simp [h]

omit [FloorRing K] in
theorem sum_eq_zero_weights {l : List (Pix K)} (h0 : ∀ p ∈ l, 0 ≤ p.weight)
    (hs : ¬ 0 < sumWeight l) : ∀ p ∈ l, p.weight = 0 := by
  induction l with
  | nil => intro p hp; simp at hp
  | cons q l ih =>
    have hq := h0 q (by simp)
    have hl : 0 ≤ sumWeight l := by
      unfold sumWeight
      exact List.sum_nonneg fun x hx => by
        obtain ⟨p, hp, rfl⟩ := List.mem_map.mp hx
        exact h0 p (by simp [hp])
    have e : sumWeight (q :: l) = q.weight + sumWeight l := by simp [sumWeight]
    rw [e] at hs
    have h1 : q.weight = 0 := le_antisymm (by linarith) hq
    have h2 : ¬ 0 < sumWeight l := by linarith
    intro p hp
    rcases List.mem_cons.mp hp with rfl | hp
    · exact h1
    · exact ih (fun p hp => h0 p (by simp [hp])) h2 p hp

/-- Steps of at least the spacing put the pixels in different cells. -/
theorem not_inCell_of_step {minWave dwave w w' : K} (h : w + dwave ≤ w') (k : Nat)
    (hw : InCell minWave dwave k w) : ¬ InCell minWave dwave k w' := by
  unfold InCell at hw ⊢
  rintro ⟨-, h2⟩
  have := hw.1
  have e : ((k : K) + 9 / 10) * dwave = ((k : K) - 1 / 10) * dwave + dwave := by ring
  linarith

end
end Verif.Proofs
