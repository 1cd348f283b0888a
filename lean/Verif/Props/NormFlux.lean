import Verif.Model.MeanCont
import Verif.Props.Stack
import Verif.Props.Interp

/-!
# C80: `--normalize-stacked-flux`
-/

namespace Verif.Props
open Verif Verif.Np Verif.Model Verif.Model.Spectrum Verif.Spec Verif.Proofs

variable {K : Type} [Field K] [LinearOrder K] [IsStrictOrderedRing K] [FloorRing K]

/-- The factor of a wavelength. -/
def normAt (st : Stacker K) (x : K) : K := (st.interp.eval x).getD 1

omit [IsStrictOrderedRing K] in
theorem normSpec_foldl (st : Stacker K) (l : Dict (List K)) (hn : (Dict.keys l).Nodup) (s : Spectrum K) :
    let t := l.foldl (fun t a => { t with cont := t.cont.set a.1 (normArm st a.2 (t.cont.arr a.1)) }) s
    t.fwave = s.fwave ∧ t.fflux = s.fflux ∧ t.fweight = s.fweight ∧ t.valid = s.valid ∧ t.z = s.z ∧
    (∀ a, a ∉ Dict.keys l → t.cont.arr a = s.cont.arr a) ∧
    ∀ a w, (a, w) ∈ l → t.cont.arr a = normArm st w (s.cont.arr a) := by
  induction l generalizing s with
  | nil => exact ⟨rfl, rfl, rfl, rfl, rfl, fun _ _ => rfl, by simp⟩
  | cons x l ih =>
    have hn' : (Dict.keys l).Nodup := (List.nodup_cons.mp hn).2
    have hx : x.1 ∉ Dict.keys l := (List.nodup_cons.mp hn).1
    obtain ⟨h1, h2, h3, h4, h5, h6, h7⟩ := ih hn' { s with cont := s.cont.set x.1 (normArm st x.2 (s.cont.arr x.1)) }
    refine ⟨h1, h2, h3, h4, h5, ?_, ?_⟩
    · intro a ha
      have hax : ¬ a = x.1 := fun h => ha (h ▸ List.mem_cons_self)
      have := h6 a (fun h => ha (List.mem_cons_of_mem _ h))
      refine this.trans ?_
      change (s.cont.set x.1 _).arr a = _
      rw [arr_set, if_neg hax]
    · intro a w hm
      rcases List.mem_cons.mp hm with h | hm
      · subst h
        refine (h6 a hx).trans ?_
        change (s.cont.set a _).arr a = _
        rw [arr_set, if_pos rfl]
      · have hax : ¬ a = x.1 := fun h => hx (h ▸ List.mem_map_of_mem (f := Prod.fst) hm)
        refine (h7 a w hm).trans ?_
        change normArm st w ((s.cont.set x.1 _).arr a) = _
        rw [arr_set, if_neg hax]

omit [IsStrictOrderedRing K] in
theorem zip_normArm (st : Stacker K) (z : K) : ∀ w f wt c : List K,
    ((w.zip f).zip (wt.zip (normArm st w c))).map
      (fun p => ({ z := z, wave := p.1.1, flux := p.1.2, weight := p.2.1, cont := p.2.2 } : FPix K)) =
    (((w.zip f).zip (wt.zip c)).map
      (fun p => ({ z := z, wave := p.1.1, flux := p.1.2, weight := p.2.1, cont := p.2.2 } : FPix K))).map
      (fun p => { p with cont := p.cont * normAt st p.wave })
  | [], _, _, _ => by simp
  | _ :: _, [], _, _ => by simp
  | _ :: _, _ :: _, [], _ => by simp
  | _ :: _, _ :: _, _ :: _, [] => by simp [normArm, mulFlux]
  | x :: w, a :: f, b :: wt, y :: c => by
    have ih := zip_normArm st z w f wt c
    simp only [normArm, mulFlux, List.zipWith_cons_cons, List.zip_cons_cons, List.map_cons] at ih ⊢
    rw [ih]
    rfl

omit [IsStrictOrderedRing K] in
/-- The normalisation multiplies the continuum of every forest pixel of the valid spectra. -/
theorem forestPixels_norm (st : Stacker K) {l : List (Spectrum K)} (hn : ∀ s ∈ l, (Dict.keys s.fwave).Nodup) :
    forestPixels (normalizeFlux true st l) =
      (forestPixels l).map (fun p => { p with cont := p.cont * normAt st p.wave }) := by
  have key : ∀ s : Spectrum K, (Dict.keys s.fwave).Nodup → (normSpec st s).valid = s.valid ∧
      (normSpec st s).fwave.flatMap (fun x => (((x.2.zip ((normSpec st s).fflux.arr x.1)).zip
        (((normSpec st s).fweight.arr x.1).zip ((normSpec st s).cont.arr x.1))).map
        (fun p => ({ z := (normSpec st s).z, wave := p.1.1, flux := p.1.2, weight := p.2.1, cont := p.2.2 } : FPix K)))) =
      (s.fwave.flatMap (fun x => ((x.2.zip (s.fflux.arr x.1)).zip ((s.fweight.arr x.1).zip (s.cont.arr x.1))).map
        (fun p => ({ z := s.z, wave := p.1.1, flux := p.1.2, weight := p.2.1, cont := p.2.2 } : FPix K)))).map
        (fun p => { p with cont := p.cont * normAt st p.wave }) := by
    intro s hs
    obtain ⟨h1, h2, h3, h4, h5, -, h7⟩ := normSpec_foldl st s.fwave hs s
    refine ⟨h4, ?_⟩
    unfold normSpec
    rw [h1, h2, h3, h5, List.map_flatMap]
    unfold List.flatMap
    refine congrArg List.flatten (List.map_congr_left fun x hx => ?_)
    rw [h7 x.1 x.2 hx, zip_normArm]
  unfold normalizeFlux
  rw [if_pos rfl]
  induction l with
  | nil => rfl
  | cons s l ih =>
    have ih := ih (fun t ht => hn t (List.mem_cons_of_mem _ ht))
    unfold forestPixels at ih ⊢
    rw [List.map_cons]
    cases hv : s.valid with
    | false =>
      rw [if_neg (by simp), List.filter_cons_of_neg (by simp [hv]), List.filter_cons_of_neg (by simp [hv])]
      exact ih
    | true =>
      obtain ⟨k1, k2⟩ := key s (hn s List.mem_cons_self)
      rw [if_pos rfl, List.filter_cons_of_pos (by rw [k1]; exact hv), List.filter_cons_of_pos hv, List.flatMap_cons,
        List.flatMap_cons, List.map_append, ih, k2]

theorem allInForest_norm (st : Stacker K) {w1 w2 r1 r2 : K} {l : List (Spectrum K)} (h : AllInForest w1 w2 r1 r2 l)
    (hn : ∀ s ∈ l, (Dict.keys s.fwave).Nodup) : AllInForest w1 w2 r1 r2 (normalizeFlux true st l) := by
  unfold normalizeFlux
  rw [if_pos rfl]
  intro t ht hv
  obtain ⟨s, hs, rfl⟩ := List.mem_map.mp ht
  cases hs' : s.valid with
  | false =>
    rw [if_neg (by rw [hs']; simp), hs'] at hv
    cases hv
  | true =>
    obtain ⟨h1, -, -, -, h5, -, -⟩ := normSpec_foldl st s.fwave (hn s hs) s
    have := h s hs hs'
    rw [if_pos rfl]
    unfold normSpec
    rw [h1, h5]
    exact this

/-- The factor in a cell whose value is the same in its neighbours. -/
theorem normAt_flat {w1 w2 dw : K} {st : Stacker K} (ho : linGrid w1 w2 dw = .ok st.obs) (hw : w1 < w2)
    (hl : st.fp.length = st.obs.n) (h2 : 2 ≤ st.obs.n) {k : Nat} (hk : k < st.obs.n) {t : K}
    (hf : ∀ j, j ≤ k + 1 → k ≤ j + 1 → j < st.obs.n → st.fp[j]? = some t) {w : K}
    (hc : InStackCell w1 w2 st.obs.n k w) : normAt st w = t := by
  obtain ⟨-, g2, g3⟩ := linGrid_ok ho
  have hd := dx_pos ho hw
  obtain ⟨c1, c2⟩ := hc
  rw [← g2] at c1 c2
  have x1 : (k : K) - 1 / 2 ≤ (w - st.obs.x0) / st.obs.dx := by
    rw [le_div_iff₀ hd, g3]; linarith
  have x2 : (w - st.obs.x0) / st.obs.dx < k + 1 / 2 := by
    rw [div_lt_iff₀ hd, g3]; linarith
  have f1 : (k : Int) - 1 ≤ ⌊(w - st.obs.x0) / st.obs.dx⌋ := by
    rw [Int.le_floor]; push_cast; linarith
  have f2 : ⌊(w - st.obs.x0) / st.obs.dx⌋ < (k : Int) + 1 := by
    rw [Int.floor_lt]; push_cast; linarith
  have hi := interpIdx_eq (n := st.fp.length) (by omega) ((w - st.obs.x0) / st.obs.dx)
  obtain ⟨j, hj, hj2⟩ := interpIdx_nat (n := st.fp.length) (by omega) ((w - st.obs.x0) / st.obs.dx)
  rw [hj] at hi
  have e1 := hf j (by omega) (by omega) (by omega)
  have e2 := hf (j + 1) (by omega) (by omega) (by omega)
  unfold normAt LinInterp.eval Stacker.interp
  rw [evalLin_of_idx hj e1 e2]
  simp

theorem calculate_obs (sqrt : K → K) (residual : Bool) {w1 w2 dw r1 r2 dr : K} {obs rf : StackGrid K}
    (ho : linGrid w1 w2 dw = .ok obs) (hw : w1 < w2) (hr : linGrid r1 r2 dr = .ok rf) (hrw : r1 < r2)
    (ranks : List (List (Spectrum K))) (h : ∀ l ∈ ranks, AllInForest w1 w2 r1 r2 l) {st : Stacker K}
    (hst : st ∈ Stacker.calculate sqrt
      (ranks.map (fun l => (stackSpectra residual (Stacker.new obs rf).reset l).1))) :
    st.obs = obs ∧ st.fp.length = obs.n := by
  unfold Stacker.calculate at hst
  obtain ⟨s, hs, rfl⟩ := List.mem_map.mp hst
  obtain ⟨l, hl, rfl⟩ := List.mem_map.mp hs
  obtain ⟨e1, -, -, -⟩ := rank_sums ho hw hr hrw residual (h l hl)
  refine ⟨e1, ?_⟩
  unfold Stacker.finish Stacker.divPos Stacker.sumArrays
  simp [e1]

/-- **C80.** The stack of the spectra after the normalisation is, in every cell, the mean of flux / (continuum times
interpolated stack). -/
theorem C80_restack {w1 w2 dw r1 r2 dr : K} {obs rf : StackGrid K} (ho : linGrid w1 w2 dw = .ok obs) (hw : w1 < w2)
    (hr : linGrid r1 r2 dr = .ok rf) (hrw : r1 < r2) (residual : Bool) (sqrt : K → K)
    (ranks : List (List (Spectrum K))) (h : ∀ l ∈ ranks, AllInForest w1 w2 r1 r2 l)
    (hn : ∀ l ∈ ranks, ∀ s ∈ l, (Dict.keys s.fwave).Nodup) (st st' : Stacker K)
    (hc' : ∀ l ∈ ranks, ∀ p ∈ forestPixels l, p.cont * normAt st p.wave ≠ 0)
    (hst' : st' ∈ Stacker.calculate sqrt (ranks.map (fun l =>
      (stackSpectra residual (Stacker.new obs rf).reset (normalizeFlux true st l)).1))) {k : Nat} (hk : k < obs.n) :
    st'.fp[k]? = some (wmean (fun p => p.flux / (p.cont * normAt st p.wave))
      (fun p => p.weight * (p.cont * normAt st p.wave) ^ 2)
      ((forestPixels ranks.flatten).filter (fun p => decide (InStackCell w1 w2 obs.n k p.wave)))) := by
  have e : ranks.map (fun l => (stackSpectra residual (Stacker.new obs rf).reset (normalizeFlux true st l)).1) =
      (ranks.map (normalizeFlux true st)).map (fun l => (stackSpectra residual (Stacker.new obs rf).reset l).1) := by
    rw [List.map_map]
    rfl
  rw [e] at hst'
  have m := (C52_mean ho hw hr hrw residual sqrt (ranks.map (normalizeFlux true st))
    (by
      intro l' hl'
      obtain ⟨l, hl, rfl⟩ := List.mem_map.mp hl'
      exact allInForest_norm st (h l hl) (hn l hl))
    (by
      intro l' hl' p hp
      obtain ⟨l, hl, rfl⟩ := List.mem_map.mp hl'
      rw [forestPixels_norm st (hn l hl)] at hp
      obtain ⟨q, hq, rfl⟩ := List.mem_map.mp hp
      exact hc' l hl q hq) st' hst').1 k hk
  rw [m]
  have e2 : forestPixels (ranks.map (normalizeFlux true st)).flatten =
      (forestPixels ranks.flatten).map (fun p => { p with cont := p.cont * normAt st p.wave }) := by
    rw [forestPixels_flatten, forestPixels_flatten, List.map_flatMap]
    unfold List.flatMap
    rw [List.map_map]
    refine congrArg List.flatten (List.map_congr_left fun l hl => ?_)
    exact forestPixels_norm st (hn l hl)
  rw [e2, List.filter_map]
  unfold wmean
  rw [List.map_map, List.map_map]
  rfl

omit [FloorRing K] in
theorem wmean_ne_zero {α : Type} {value weight : α → K} {l : List α} {t : K} (h : wmean value weight l = t) (ht : t ≠ 0) :
    0 < (l.map weight).sum ∧ (l.map (fun p => weight p * value p)).sum = t * (l.map weight).sum := by
  unfold wmean at h
  split at h
  · next hp => exact ⟨hp, (div_eq_iff hp.ne').mp h⟩
  · exact absurd h.symm ht

/-- **C80.** Where the stack has the same value, not zero, in a cell and in its neighbours, the stack after the
normalisation is one. -/
theorem C80_flat_partial {w1 w2 dw r1 r2 dr : K} {obs rf : StackGrid K} (ho : linGrid w1 w2 dw = .ok obs) (hw : w1 < w2)
    (hr : linGrid r1 r2 dr = .ok rf) (hrw : r1 < r2) (residual : Bool) (sqrt : K → K)
    (ranks : List (List (Spectrum K))) (h : ∀ l ∈ ranks, AllInForest w1 w2 r1 r2 l)
    (hn : ∀ l ∈ ranks, ∀ s ∈ l, (Dict.keys s.fwave).Nodup)
    (hc : ∀ l ∈ ranks, ∀ p ∈ forestPixels l, p.cont ≠ 0) (st st' : Stacker K)
    (hst : st ∈ Stacker.calculate sqrt
      (ranks.map (fun l => (stackSpectra residual (Stacker.new obs rf).reset l).1)))
    (hc' : ∀ l ∈ ranks, ∀ p ∈ forestPixels l, p.cont * normAt st p.wave ≠ 0)
    (hst' : st' ∈ Stacker.calculate sqrt (ranks.map (fun l =>
      (stackSpectra residual (Stacker.new obs rf).reset (normalizeFlux true st l)).1)))
    (h2 : 2 ≤ obs.n) {k : Nat} (hk : k < obs.n) {t : K} (ht : t ≠ 0)
    (hf : ∀ j, j ≤ k + 1 → k ≤ j + 1 → j < obs.n → st.fp[j]? = some t) : st'.fp[k]? = some 1 := by
  rw [C80_restack ho hw hr hrw residual sqrt ranks h hn st st' hc' hst' hk]
  obtain ⟨e1, e2⟩ := calculate_obs sqrt residual ho hw hr hrw ranks h hst
  have m := (C52_mean ho hw hr hrw residual sqrt ranks h hc st hst).1 k hk
  rw [hf k (by omega) (by omega) hk] at m
  obtain ⟨m1, m2⟩ := wmean_ne_zero (Option.some.inj m).symm ht
  have hN : ∀ p ∈ (forestPixels ranks.flatten).filter (fun p => decide (InStackCell w1 w2 obs.n k p.wave)),
      normAt st p.wave = t ∧ p.cont ≠ 0 := by
    intro p hp
    obtain ⟨hp, hq⟩ := List.mem_filter.mp hp
    constructor
    · refine normAt_flat (e1 ▸ ho) hw (e1 ▸ e2) (e1 ▸ h2) (e1 ▸ hk) (e1 ▸ hf) ?_
      rw [e1]
      exact of_decide_eq_true hq
    · rw [forestPixels_flatten] at hp
      obtain ⟨l, hl, hp⟩ := List.mem_flatMap.mp hp
      exact hc l hl p hp
  generalize (forestPixels ranks.flatten).filter (fun p => decide (InStackCell w1 w2 obs.n k p.wave)) = L at *
  have s1 : (L.map (fun p => p.weight * (p.cont * normAt st p.wave) ^ 2)).sum =
      t ^ 2 * (L.map (fun p => p.weight * p.cont ^ 2)).sum := by
    rw [← List.sum_map_mul_left]
    refine congrArg _ (List.map_congr_left fun p hp => ?_)
    rw [(hN p hp).1]; ring
  have s2 : (L.map (fun p => p.weight * (p.cont * normAt st p.wave) ^ 2 * (p.flux / (p.cont * normAt st p.wave)))).sum =
      t * (L.map (fun p => p.weight * p.cont ^ 2 * (p.flux / p.cont))).sum := by
    rw [← List.sum_map_mul_left]
    refine congrArg _ (List.map_congr_left fun p hp => ?_)
    rw [(hN p hp).1]
    have := (hN p hp).2
    field_simp
  unfold wmean
  have hp : 0 < t ^ 2 * (L.map (fun p => p.weight * p.cont ^ 2)).sum := mul_pos (by positivity) m1
  rw [s1, s2, if_pos hp, m2]
  congr 1
  rw [div_eq_one_iff_eq hp.ne']
  ring

/-- **C80.** If the flux is not negative, the weights are not negative and the interpolated stack is between `lo` and `hi`
in a cell with stack `t`, the stack after the normalisation is between `lo t / hi²` and `hi t / lo²`. -/
theorem C80_bound_partial {w1 w2 dw r1 r2 dr : K} {obs rf : StackGrid K} (ho : linGrid w1 w2 dw = .ok obs) (hw : w1 < w2)
    (hr : linGrid r1 r2 dr = .ok rf) (hrw : r1 < r2) (residual : Bool) (sqrt : K → K)
    (ranks : List (List (Spectrum K))) (h : ∀ l ∈ ranks, AllInForest w1 w2 r1 r2 l)
    (hn : ∀ l ∈ ranks, ∀ s ∈ l, (Dict.keys s.fwave).Nodup)
    (hc : ∀ l ∈ ranks, ∀ p ∈ forestPixels l, 0 < p.cont ∧ 0 ≤ p.flux ∧ 0 ≤ p.weight) (st st' : Stacker K)
    (hst : st ∈ Stacker.calculate sqrt
      (ranks.map (fun l => (stackSpectra residual (Stacker.new obs rf).reset l).1)))
    (hc' : ∀ l ∈ ranks, ∀ p ∈ forestPixels l, p.cont * normAt st p.wave ≠ 0)
    (hst' : st' ∈ Stacker.calculate sqrt (ranks.map (fun l =>
      (stackSpectra residual (Stacker.new obs rf).reset (normalizeFlux true st l)).1)))
    {k : Nat} (hk : k < obs.n) {t lo hi : K} (ht : t ≠ 0) (hf : st.fp[k]? = some t) (h0 : 0 < lo)
    (hlo : ∀ l ∈ ranks, ∀ p ∈ forestPixels l, InStackCell w1 w2 obs.n k p.wave →
      lo ≤ normAt st p.wave ∧ normAt st p.wave ≤ hi) :
    ∃ v, st'.fp[k]? = some v ∧ lo * t / hi ^ 2 ≤ v ∧ v ≤ hi * t / lo ^ 2 := by
  refine ⟨_, C80_restack ho hw hr hrw residual sqrt ranks h hn st st' hc' hst' hk, ?_⟩
  have m := (C52_mean ho hw hr hrw residual sqrt ranks h (fun l hl p hp => (hc l hl p hp).1.ne') st hst).1 k hk
  rw [hf] at m
  obtain ⟨m1, m2⟩ := wmean_ne_zero (Option.some.inj m).symm ht
  have hN : ∀ p ∈ (forestPixels ranks.flatten).filter (fun p => decide (InStackCell w1 w2 obs.n k p.wave)),
      (lo ≤ normAt st p.wave ∧ normAt st p.wave ≤ hi) ∧ 0 < p.cont ∧ 0 ≤ p.flux ∧ 0 ≤ p.weight := by
    intro p hp
    obtain ⟨hp, hq⟩ := List.mem_filter.mp hp
    rw [forestPixels_flatten] at hp
    obtain ⟨l, hl, hp⟩ := List.mem_flatMap.mp hp
    exact ⟨hlo l hl p hp (of_decide_eq_true hq), hc l hl p hp⟩
  generalize (forestPixels ranks.flatten).filter (fun p => decide (InStackCell w1 w2 obs.n k p.wave)) = L at *
  clear m hlo hc hc' hst hst'
  have b : lo ^ 2 * (L.map (fun p => p.weight * p.cont ^ 2)).sum ≤
        (L.map (fun p => p.weight * (p.cont * normAt st p.wave) ^ 2)).sum ∧
      (L.map (fun p => p.weight * (p.cont * normAt st p.wave) ^ 2)).sum ≤
        hi ^ 2 * (L.map (fun p => p.weight * p.cont ^ 2)).sum ∧
      lo * (L.map (fun p => p.weight * p.cont ^ 2 * (p.flux / p.cont))).sum ≤
        (L.map (fun p => p.weight * (p.cont * normAt st p.wave) ^ 2 * (p.flux / (p.cont * normAt st p.wave)))).sum ∧
      (L.map (fun p => p.weight * (p.cont * normAt st p.wave) ^ 2 * (p.flux / (p.cont * normAt st p.wave)))).sum ≤
        hi * (L.map (fun p => p.weight * p.cont ^ 2 * (p.flux / p.cont))).sum := by
    rw [← List.sum_map_mul_left, ← List.sum_map_mul_left, ← List.sum_map_mul_left, ← List.sum_map_mul_left]
    have key : ∀ p ∈ L, lo ^ 2 * (p.weight * p.cont ^ 2) ≤ p.weight * (p.cont * normAt st p.wave) ^ 2 ∧
        p.weight * (p.cont * normAt st p.wave) ^ 2 ≤ hi ^ 2 * (p.weight * p.cont ^ 2) ∧
        lo * (p.weight * p.cont ^ 2 * (p.flux / p.cont)) ≤
          p.weight * (p.cont * normAt st p.wave) ^ 2 * (p.flux / (p.cont * normAt st p.wave)) ∧
        p.weight * (p.cont * normAt st p.wave) ^ 2 * (p.flux / (p.cont * normAt st p.wave)) ≤
          hi * (p.weight * p.cont ^ 2 * (p.flux / p.cont)) := by
      intro p hp
      obtain ⟨⟨n1, n2⟩, c0, f0, v0⟩ := hN p hp
      have s0 : 0 < normAt st p.wave := lt_of_lt_of_le h0 n1
      have e1 : p.weight * (p.cont * normAt st p.wave) ^ 2 = normAt st p.wave ^ 2 * (p.weight * p.cont ^ 2) := by ring
      have e2 : p.weight * (p.cont * normAt st p.wave) ^ 2 * (p.flux / (p.cont * normAt st p.wave)) =
          normAt st p.wave * (p.weight * p.cont ^ 2 * (p.flux / p.cont)) := by field_simp
      have q1 : 0 ≤ p.weight * p.cont ^ 2 := by positivity
      have q2 : 0 ≤ p.weight * p.cont ^ 2 * (p.flux / p.cont) := by positivity
      rw [e2, e1]
      exact ⟨mul_le_mul_of_nonneg_right (pow_le_pow_left₀ h0.le n1 2) q1,
        mul_le_mul_of_nonneg_right (pow_le_pow_left₀ s0.le n2 2) q1,
        mul_le_mul_of_nonneg_right n1 q2, mul_le_mul_of_nonneg_right n2 q2⟩
    exact ⟨List.sum_le_sum fun p hp => (key p hp).1, List.sum_le_sum fun p hp => (key p hp).2.1,
      List.sum_le_sum fun p hp => (key p hp).2.2.1, List.sum_le_sum fun p hp => (key p hp).2.2.2⟩
  obtain ⟨b1, b2, b3, b4⟩ := b
  rw [m2] at b3 b4
  have hne : L ≠ [] := by rintro rfl; simp at m1
  obtain ⟨p, hp⟩ := List.exists_mem_of_ne_nil L hne
  have h1 : 0 < hi := lt_of_lt_of_le h0 ((hN p hp).1.1.trans (hN p hp).1.2)
  have t0 : 0 ≤ t := by
    by_contra hneg
    push Not at hneg
    have : 0 ≤ (L.map (fun p => p.weight * p.cont ^ 2 * (p.flux / p.cont))).sum := by
      apply List.sum_nonneg
      intro a ha
      obtain ⟨q, hq, rfl⟩ := List.mem_map.mp ha
      obtain ⟨-, c0, f0, v0⟩ := hN q hq
      positivity
    rw [m2] at this
    nlinarith
  unfold wmean
  have hp : 0 < (L.map (fun p => p.weight * (p.cont * normAt st p.wave) ^ 2)).sum := by
    have : 0 < lo ^ 2 * (L.map (fun p => p.weight * p.cont ^ 2)).sum := mul_pos (by positivity) m1
    linarith
  rw [if_pos hp]
  generalize (L.map (fun p => p.weight * p.cont ^ 2)).sum = S at *
  generalize (L.map (fun p => p.weight * (p.cont * normAt st p.wave) ^ 2)).sum = S' at *
  generalize (L.map (fun p => p.weight * (p.cont * normAt st p.wave) ^ 2 * (p.flux / (p.cont * normAt st p.wave)))).sum =
    N at *
  constructor
  · rw [div_le_div_iff₀ (by positivity) hp]
    calc lo * t * S' ≤ lo * t * (hi ^ 2 * S) := mul_le_mul_of_nonneg_left b2 (by positivity)
      _ = lo * (t * S) * hi ^ 2 := by ring
      _ ≤ N * hi ^ 2 := mul_le_mul_of_nonneg_right b3 (by positivity)
  · rw [div_le_div_iff₀ hp (by positivity)]
    calc N * lo ^ 2 ≤ hi * (t * S) * lo ^ 2 := mul_le_mul_of_nonneg_right b4 (by positivity)
      _ = hi * t * (lo ^ 2 * S) := by ring
      _ ≤ hi * t * S' := mul_le_mul_of_nonneg_left b1 (by positivity)

/-- **C80.** If the stack is positive everywhere, positive continua stay positive in all pixels between the centers of the
first and the last cell. -/
theorem C80_positive_partial (st : Stacker K) (hd : 0 < st.obs.dx) (hpos : ∀ t ∈ st.fp, 0 < t) (h2 : 2 ≤ st.fp.length)
    {l : List (Spectrum K)} (hn : ∀ s ∈ l, (Dict.keys s.fwave).Nodup) (hc : ∀ p ∈ forestPixels l, 0 < p.cont)
    {p : FPix K} (hp : p ∈ forestPixels (normalizeFlux true st l)) (hl : st.obs.x0 ≤ p.wave)
    (hu : p.wave ≤ st.obs.x0 + ((st.fp.length : K) - 1) * st.obs.dx) : 0 < p.cont := by
  rw [forestPixels_norm st hn] at hp
  obtain ⟨q, hq, rfl⟩ := List.mem_map.mp hp
  have c0 := hc q hq
  change st.obs.x0 ≤ q.wave at hl
  change q.wave ≤ _ at hu
  change 0 < q.cont * normAt st q.wave
  refine mul_pos c0 ?_
  obtain ⟨k, hk, hlt⟩ := interpIdx_nat h2 ((q.wave - st.obs.x0) / st.obs.dx)
  have hi := interpIdx_eq h2 ((q.wave - st.obs.x0) / st.obs.dx)
  rw [hk] at hi
  have x0 : 0 ≤ (q.wave - st.obs.x0) / st.obs.dx := div_nonneg (by linarith) hd.le
  have x1 : (q.wave - st.obs.x0) / st.obs.dx ≤ (st.fp.length : K) - 1 := by rw [div_le_iff₀ hd]; linarith
  have f0 : 0 ≤ ⌊(q.wave - st.obs.x0) / st.obs.dx⌋ := Int.floor_nonneg.mpr x0
  have a : (k : K) ≤ (q.wave - st.obs.x0) / st.obs.dx := by
    have : (k : Int) ≤ ⌊(q.wave - st.obs.x0) / st.obs.dx⌋ := by omega
    exact_mod_cast Int.le_floor.mp this
  have b : (q.wave - st.obs.x0) / st.obs.dx ≤ k + 1 := by
    rcases lt_or_ge (⌊(q.wave - st.obs.x0) / st.obs.dx⌋) ((st.fp.length : Int) - 1) with hf | hf
    · have : ⌊(q.wave - st.obs.x0) / st.obs.dx⌋ < (k : Int) + 1 := by omega
      have := Int.floor_lt.mp this
      push_cast at this
      exact this.le
    · have : (st.fp.length : Int) = k + 2 := by omega
      have : (st.fp.length : K) = k + 2 := by exact_mod_cast this
      linarith
  rw [le_div_iff₀ hd] at a
  rw [div_le_iff₀ hd] at b
  obtain ⟨y, hy, hm, -, -⟩ := C41_between (f := st.interp) hd (k := k) (x := q.wave)
    (List.getElem?_eq_getElem (show k < st.fp.length by omega)) (List.getElem?_eq_getElem hlt)
    (by change st.obs.x0 + k * st.obs.dx ≤ _; linarith) (by change _ ≤ st.obs.x0 + (k + 1) * st.obs.dx; linarith)
  unfold normAt
  rw [hy]
  exact lt_of_lt_of_le (lt_min (hpos _ (List.getElem_mem _)) (hpos _ (List.getElem_mem _))) hm

/-! ### Counterexamples -/

/-- A quasar with four forest pixels and continuum one, in the first two of four cells. -/
def c80Spec : Spectrum ℚ :=
  { blank 2 1 [] [] [] [] with
    fwave := [("B", [3300, 3304, 3312, 3314])], fflux := [("B", [1, 3, 10, 6])],
    fivar := [("B", [1, 1, 1, 1])], ivarSm := none, weight := none, cont := [("B", [1, 1, 1, 1])], valid := true }

/-- Its stack. -/
def c80Stack : List (Stacker ℚ) := Stacker.calculate id [(stackSpectra true
  (Stacker.new (⟨3304, 8, 4⟩ : StackGrid ℚ) ⟨1105, 10, 2⟩).reset [c80Spec]).1]

/-- The spectrum after the normalisation. -/
def c80Norm : List (Spectrum ℚ) := c80Stack.flatMap (fun st => normalizeFlux true st [c80Spec])

/-- **C80.** The stack after the normalisation is not one, and a continuum that was positive is negative in a pixel with
positive weight: the stack of the first two cells is 2 and 8, the continuum at the first pixel becomes `2 - 6/2 = -1`; the
stack is interpolated with zero from the empty cell in the last pixel. -/
theorem C80_refuted :
    c80Stack.map (·.fp) = [[2, 8, 0, 0]] ∧ c80Norm.map (fun s => s.cont.arr "B") = [[-1, 2, 8, 6]] ∧
    (Stacker.calculate id [(stackSpectra true (Stacker.new (⟨3304, 8, 4⟩ : StackGrid ℚ) ⟨1105, 10, 2⟩).reset
      c80Norm).1]).map (·.fp) = [[1, 29 / 25, 0, 0]] := by
  decide +kernel

/-- A quasar with stack two in three cells. -/
def c80Flat : Spectrum ℚ :=
  { blank 2 1 [] [] [] [] with
    fwave := [("B", [3300, 3304, 3312, 3320])], fflux := [("B", [1, 3, 2, 2])],
    fivar := [("B", [1, 1, 1, 1])], ivarSm := none, weight := none, cont := [("B", [1, 1, 1, 1])], valid := true }

/-- The hypotheses of `C80_flat_partial` and `C80_bound_partial`. -/
example : AllInForest 3300 3324 1100 1120 [c80Flat] ∧ linGrid (3300 : ℚ) 3324 8 = .ok ⟨3304, 8, 3⟩ ∧
    (Stacker.calculate id [(stackSpectra true (Stacker.new (⟨3304, 8, 3⟩ : StackGrid ℚ) ⟨1105, 10, 2⟩).reset
      [c80Flat]).1]).map (·.fp) = [[2, 2, 2]] := by
  refine ⟨?_, by decide +kernel, by decide +kernel⟩
  intro s hs _
  obtain rfl := List.mem_singleton.mp hs
  refine ⟨by decide +kernel, ?_⟩
  decide +kernel

end Verif.Props
