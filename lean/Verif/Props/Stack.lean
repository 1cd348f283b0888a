import Verif.Proofs.Stack
import Verif.Props.Aligned
import Mathlib.Data.Rat.Floor

/-!
# C52: flux stacking
-/

namespace Verif.Props
open Verif Verif.Np Verif.Model Verif.Model.Spectrum Verif.Spec Verif.Proofs

variable {K : Type} [Field K] [LinearOrder K] [IsStrictOrderedRing K] [FloorRing K]

/-- **C52.** A wavelength in the range has an index in the range, which is that of the only cell with the
wavelength in it; the upper limit itself is out of range. -/
theorem C52_index {w1 w2 dw : K} {g : StackGrid K} (h : linGrid w1 w2 dw = .ok g) (hw : w1 < w2) {w : K}
    (hl : w1 ≤ w) (hu : w < w2) :
    ∃ k < g.n, g.idx w = (k : Int) ∧ ∀ j : Nat, InStackCell w1 w2 g.n j w ↔ j = k := by
  obtain ⟨h0, h1⟩ := idx_range h hw hl
  have h2 := h1.mpr hu
  refine ⟨(g.idx w).toNat, by omega, by omega, fun j => ?_⟩
  rw [← idx_eq h hw hl]
  omega

/-- **C52.** `add` with a pixel at the upper limit of the observed range raises `ValueError` (the documentation
excludes only larger wavelengths), and the stack is as before. -/
theorem C52_upper_limit {w1 w2 dw : K} {st : Stacker K} (h : linGrid w1 w2 dw = .ok st.obs) (hw : w1 < w2)
    {l : List (SPix K)} (hp : ∃ p ∈ l, p.wave = w2) : st.add l = (st, some .valueError) := by
  obtain ⟨p, hp, hp2⟩ := hp
  unfold Stacker.add
  have : Stacker.fits st.obs (l.map (·.wave)) = false := by
    rw [Bool.eq_false_iff]
    intro hf
    unfold Stacker.fits at hf
    rw [List.all_eq_true] at hf
    have h3 := hf p.wave (List.mem_map_of_mem hp)
    have h2 := (idx_range h hw (w := w2) hw.le).2
    rw [hp2] at h3
    simp only [Bool.and_eq_true, decide_eq_true_eq] at h3
    exact lt_irrefl _ (h2.mp h3.2)
  rw [this]
  rfl

/-- All forest pixels of the valid spectra are in the forest. -/
def AllInForest (w1 w2 r1 r2 : K) (l : List (Spectrum K)) : Prop :=
  ∀ s ∈ l, s.valid = true → 0 < 1 + s.z ∧ ∀ x ∈ s.fwave, ∀ w ∈ x.2, InForest s.z w1 w2 r1 r2 w

/-- The pixel of the stack for a forest pixel. -/
def toSPix (residual : Bool) (p : FPix K) : SPix K := stackPix residual p.z p.wave p.flux p.weight p.cont

omit [LinearOrder K] [IsStrictOrderedRing K] [FloorRing K] in
theorem flatten_stackArm (residual : Bool) (l : List (Spectrum K)) :
    ((l.filter (·.valid)).flatMap (fun s => s.fwave.map (stackArm residual s))).flatten =
      (forestPixels l).map (toSPix residual) := by
  unfold forestPixels
  rw [List.map_flatMap]
  induction l.filter (·.valid) with
  | nil => rfl
  | cons s l ih =>
    rw [List.flatMap_cons, List.flatten_append, ih, List.flatMap_cons]
    congr 1
    rw [List.map_flatMap, ← List.flatMap_def]
    refine congrArg (fun f => s.fwave.flatMap f) (funext fun x => ?_)
    unfold stackArm
    rw [List.map_map]
    rfl

omit [LinearOrder K] [IsStrictOrderedRing K] [FloorRing K] in
theorem mem_stackArm {residual : Bool} {l : List (Spectrum K)} {a : List (SPix K)}
    (ha : a ∈ (l.filter (·.valid)).flatMap (fun s => s.fwave.map (stackArm residual s))) {p : SPix K} (hp : p ∈ a) :
    ∃ s ∈ l, s.valid = true ∧ ∃ x ∈ s.fwave, p.wave ∈ x.2 ∧ p.waveRf = p.wave / (1 + s.z) := by
  obtain ⟨s, hs, hm⟩ := List.mem_flatMap.mp ha
  obtain ⟨hs, hv⟩ := List.mem_filter.mp hs
  obtain ⟨x, hx, rfl⟩ := List.mem_map.mp hm
  unfold stackArm at hp
  obtain ⟨q, hq, rfl⟩ := List.mem_map.mp hp
  refine ⟨s, hs, hv, x, hx, ?_, rfl⟩
  exact (List.of_mem_zip (List.of_mem_zip hq).1).1

omit [FloorRing K] in
theorem inRange_stackArm {w1 w2 r1 r2 : K} {residual : Bool} {l : List (Spectrum K)} (h : AllInForest w1 w2 r1 r2 l) :
    ∀ a ∈ (l.filter (·.valid)).flatMap (fun s => s.fwave.map (stackArm residual s)), ∀ p ∈ a,
      (w1 ≤ p.wave ∧ p.wave < w2) ∧ (r1 ≤ p.waveRf ∧ p.waveRf < r2) := by
  intro a ha p hp
  obtain ⟨s, hs, hv, x, hx, hw, hrf⟩ := mem_stackArm ha hp
  obtain ⟨hz, hf⟩ := h s hs hv
  obtain ⟨f1, f2, f3, f4⟩ := hf x hx _ hw
  refine ⟨⟨f1, f3⟩, ?_⟩
  rw [hrf, le_div_iff₀ hz, div_lt_iff₀ hz]
  constructor <;> linarith

/-- **C52.** Stacking spectra whose pixels are in the forest never raises. -/
theorem C52_no_error {w1 w2 dw r1 r2 dr : K} {obs rf : StackGrid K} (ho : linGrid w1 w2 dw = .ok obs) (hw : w1 < w2)
    (hr : linGrid r1 r2 dr = .ok rf) (hrw : r1 < r2) (residual : Bool) {l : List (Spectrum K)}
    (h : AllInForest w1 w2 r1 r2 l) :
    (stackSpectra residual (Stacker.new obs rf).reset l).2 = none :=
  (addList_sums (st := (Stacker.new obs rf).reset) hw hrw _ (inRange_stackArm h) ho hr).1

theorem lookup_foldl_pop_some {α : Type} (l : List String) {d : Dict α} {a : String} {v : α}
    (h : List.lookup a (l.foldl (fun d k => Dict.pop d k) d) = some v) : List.lookup a d = some v := by
  rw [lookup_foldl_pop] at h
  split at h
  · cases h
  · exact h

omit [IsStrictOrderedRing K] in
theorem dropArms_fwave (l : List String) (s : Spectrum K) {arm : String} {w : List K}
    (h : (l.foldl dropArm s).fwave.lookup arm = some w) : s.fwave.lookup arm = some w := by
  rw [(foldl_dropArm l s).1] at h
  exact lookup_foldl_pop_some l h

omit [IsStrictOrderedRing K] in
theorem dropShort_z (s : Spectrum K) (a b c : K) : (s.dropShortArms a b c).z = s.z :=
  (foldl_dropArm (shortArms s a b c) s).2.2.2.2.2.2.2.1.z

/-- **C52.** After setting the forest region, and after any sequence of masks, cuts, smoothing and settings of the
same region, all pixels are in the forest: `FluxStacker.add` can be called. -/
theorem C52_forest (sqrt : K → K) (eps : K) (sm : List K → K → List K) (hsm : ∀ v x, (sm v x).length = v.length)
    (dlaFlux : K → K → K → K) {z dwave : K} (hz : 0 < 1 + z) {wave flux ivar : Dict (List K)}
    {reso : Dict (List (List K))} (hs : DataOk (blank z dwave wave flux ivar reso)) (w1 w2 r1 r2 : K)
    (ops : List (ForestOp K)) (hops : ∀ a b c d, ForestOp.region a b c d ∈ ops → a = w1 ∧ b = w2 ∧ c = r1 ∧ d = r2) :
    let t := ops.foldl (ForestOp.run sqrt eps sm dlaFlux) (blank z dwave wave flux ivar reso)
    0 < 1 + t.z ∧ ∀ x ∈ t.fwave, ∀ w ∈ x.2, InForest t.z w1 w2 r1 r2 w := by
  have h0 : Inv (blank z dwave wave flux ivar reso) := by
    refine ⟨hs, ⟨List.nodup_nil, rfl, rfl, rfl, rfl, by simp [blank], ?_, ?_, ?_, ?_, ?_, ?_⟩,
      by simp [blank], Or.inr (Or.inr rfl), hz⟩ <;>
    · intro arm w hw
      simp [blank] at hw
  have key : ∀ s : Spectrum K, Inv s →
      (∀ arm l, s.fwave.lookup arm = some l → ∀ w ∈ l, InForest s.z w1 w2 r1 r2 w) →
      Inv (ops.foldl (ForestOp.run sqrt eps sm dlaFlux) s) ∧
      ∀ arm l, (ops.foldl (ForestOp.run sqrt eps sm dlaFlux) s).fwave.lookup arm = some l → ∀ w ∈ l,
        InForest (ops.foldl (ForestOp.run sqrt eps sm dlaFlux) s).z w1 w2 r1 r2 w := by
    induction ops with
    | nil => exact fun s hs hf => ⟨hs, hf⟩
    | cons op ops ih =>
      intro s hs hf
      refine ih (fun a b c d h => hops a b c d (List.mem_cons_of_mem _ h)) _ (run_inv sqrt eps sm hsm dlaFlux hs op) ?_
      cases op with
      | region a b c d =>
        obtain ⟨rfl, rfl, rfl, rfl⟩ := hops a b c d List.mem_cons_self
        intro arm l hl w hw
        have hzz : (s.setForestRegion sqrt eps a b c d).z = s.z :=
          (setForestRegion_sameData sqrt eps s a b c d).z
        change InForest (s.setForestRegion sqrt eps a b c d).z a b c d w
        rw [hzz]
        change (s.setForestRegion sqrt eps a b c d).fwave.lookup arm = some l at hl
        cases hlk : s.wave.lookup arm with
        | none =>
          have h := setForestRegion_other (s := s) sqrt eps a b c d (lookup_eq_none_iff.mp hlk)
          unfold armView at h
          rw [Prod.mk.injEq] at h
          rw [h.1] at hl
          exact hf arm l hl w hw
        | some wv =>
          have h := setForestRegion_arm hs.data sqrt eps a b c d hlk
          split at h
          · unfold armView at h
            rw [Prod.mk.injEq] at h
            rw [h.1] at hl
            cases hl
            exact of_decide_eq_true (List.mem_filter.mp hw).2
          · unfold armView at h
            rw [Prod.mk.injEq] at h
            rw [h.1] at hl
            exact hf arm l hl w hw
      | dropShort a b c =>
        intro arm l hl w hw
        have hd : SameData s (s.dropShortArms a b c) := (foldl_dropArm (shortArms s a b c) s).2.2.2.2.2.2.2.1
        change InForest (s.dropShortArms a b c).z w1 w2 r1 r2 w
        rw [hd.z]
        exact hf arm l (dropArms_fwave (shortArms s a b c) s hl) w hw
      | dropArm a =>
        intro arm l hl w hw
        exact hf arm l (dropArms_fwave [a] s hl) w hw
      | removeNonforest => exact hf
      | smooth size =>
        intro arm l hl w hw
        have e1 : (s.setSmoothForestivar sm size).fwave = s.fwave := by unfold setSmoothForestivar; split <;> rfl
        have e2 : (s.setSmoothForestivar sm size).z = s.z := by unfold setSmoothForestivar; split <;> rfl
        change InForest (s.setSmoothForestivar sm size).z w1 w2 r1 r2 w
        change (s.setSmoothForestivar sm size).fwave.lookup arm = some l at hl
        rw [e2]; rw [e1] at hl
        exact hf arm l hl w hw
      | masks row maskers =>
        cases maskers with
        | nil => exact hf
        | cons m ms =>
          intro arm l hl w hw
          unfold ForestOp.run applyMasks at hl ⊢
          dsimp only at hl ⊢
          rw [maskers_foldl_eq dlaFlux row (m :: ms) hs.aligned hs.zpos] at hl ⊢
          rw [dropShort_z]
          exact hf arm l (dropArms_fwave (shortArms (updAll _ _ s) 0 0 0) (updAll _ _ s) hl) w hw
  obtain ⟨k1, k2⟩ := key _ h0 (by intro arm l hl; simp [blank] at hl)
  exact ⟨k1.zpos, fun x hx w hw => k2 x.1 x.2 (lookup_of_mem k1.aligned.nodup hx) w hw⟩

omit [LinearOrder K] [IsStrictOrderedRing K] [FloorRing K] in
theorem sum_ranks {α β : Type} (F : α → List β) (P : β → Bool) (g : β → K) (ranks : List α) :
    (ranks.map (fun l => (((F l).filter P).map g).sum)).sum = (((ranks.flatMap F).filter P).map g).sum := by
  induction ranks with
  | nil => rfl
  | cons l ranks ih =>
    rw [List.map_cons, List.sum_cons, ih, List.flatMap_cons, List.filter_append, List.map_append, List.sum_append]

omit [IsStrictOrderedRing K] [FloorRing K] [LinearOrder K] [Field K] in
theorem forestPixels_flatten (ranks : List (List (Spectrum K))) :
    forestPixels ranks.flatten = ranks.flatMap forestPixels := by
  unfold forestPixels
  rw [List.filter_flatten]
  induction ranks with
  | nil => rfl
  | cons l ranks ih =>
    rw [List.map_cons, List.flatten_cons, List.flatMap_append, ih, List.flatMap_cons]

/-- What a rank has in its arrays before the sums over the ranks. -/
theorem rank_sums {w1 w2 dw r1 r2 dr : K} {obs rf : StackGrid K} (ho : linGrid w1 w2 dw = .ok obs) (hw : w1 < w2)
    (hr : linGrid r1 r2 dr = .ok rf) (hrw : r1 < r2) (residual : Bool) {l : List (Spectrum K)}
    (h : AllInForest w1 w2 r1 r2 l) :
    let st := (stackSpectra residual (Stacker.new obs rf).reset l).1
    st.obs = obs ∧ st.rf = rf ∧
    (∀ k < obs.n, st.fp[k]?.getD 0 = (((forestPixels l).filter
        (fun p => decide (InStackCell w1 w2 obs.n k p.wave))).map (fun p => p.weight * p.cont ^ 2 * (p.flux / p.cont))).sum ∧
      st.ep[k]?.getD 0 = (((forestPixels l).filter
        (fun p => decide (InStackCell w1 w2 obs.n k p.wave))).map (fun p => p.weight * p.cont ^ 2)).sum) ∧
    (∀ k < rf.n, st.fpRf[k]?.getD 0 = (((forestPixels l).filter
        (fun p => decide (InStackCell r1 r2 rf.n k (p.wave / (1 + p.z))))).map (fun p =>
          p.weight * p.cont ^ 2 * (if residual then p.flux / p.cont else p.cont))).sum ∧
      st.epRf[k]?.getD 0 = (((forestPixels l).filter
        (fun p => decide (InStackCell r1 r2 rf.n k (p.wave / (1 + p.z))))).map (fun p => p.weight * p.cont ^ 2)).sum) := by
  intro st
  have S : Sums w1 w2 r1 r2 (Stacker.new obs rf).reset st _ :=
    (addList_sums (st := (Stacker.new obs rf).reset) hw hrw _ (inRange_stackArm (residual := residual) h) ho hr).2
  rw [flatten_stackArm] at S
  have z1 : ∀ (n : Nat) (x : K), ∀ k < n, ((List.replicate n x).map (fun _ => (0 : K)))[k]? = some 0 := by
    intro n x k hk
    simp [hk]
  refine ⟨S.obs, S.rf, fun k hk => ⟨?_, ?_⟩, fun k hk => ⟨?_, ?_⟩⟩
  · rw [S.fp, show (Stacker.new obs rf).reset.fp[k]? = some (0 : K) from z1 _ _ k hk, List.filter_map, List.map_map]
    simp only [Option.map_some, Option.getD_some, zero_add, Function.comp_def, toSPix, stackPix, mul_div_assoc]
    rfl
  · rw [S.ep, show (Stacker.new obs rf).reset.ep[k]? = some (0 : K) from z1 _ _ k hk, List.filter_map, List.map_map]
    simp only [Option.map_some, Option.getD_some, zero_add, Function.comp_def, toSPix, stackPix]
    rfl
  · rw [S.fpRf, show (Stacker.new obs rf).reset.fpRf[k]? = some (0 : K) from z1 _ _ k hk, List.filter_map, List.map_map]
    simp only [Option.map_some, Option.getD_some, zero_add, Function.comp_def, toSPix, stackPix, mul_div_assoc]
    cases residual <;> rfl
  · rw [S.epRf, show (Stacker.new obs rf).reset.epRf[k]? = some (0 : K) from z1 _ _ k hk, List.filter_map, List.map_map]
    simp only [Option.map_some, Option.getD_some, zero_add, Function.comp_def, toSPix, stackPix]
    rfl

omit [IsStrictOrderedRing K] [FloorRing K] in
theorem divPos_get {n : Nat} (as bs : List (List K)) {k : Nat} (hk : k < n) :
    (Stacker.divPos (Stacker.sumArrays n as) (Stacker.sumArrays n bs))[k]? =
      some (if 0 < (bs.map (fun a => a[k]?.getD 0)).sum then
        (as.map (fun a => a[k]?.getD 0)).sum / (bs.map (fun a => a[k]?.getD 0)).sum else 0) := by
  unfold Stacker.divPos Stacker.sumArrays
  simp [List.getElem?_map, List.getElem?_range hk]

/-- **C52.** The stack on every rank is the weighted mean of flux / continuum over the pixels of all ranks in
each cell; in the rest frame of flux / continuum or, for the models that do not stack residuals, of the
continuum. Cells without weight have zero. -/
theorem C52_mean {w1 w2 dw r1 r2 dr : K} {obs rf : StackGrid K} (ho : linGrid w1 w2 dw = .ok obs) (hw : w1 < w2)
    (hr : linGrid r1 r2 dr = .ok rf) (hrw : r1 < r2) (residual : Bool) (sqrt : K → K)
    (ranks : List (List (Spectrum K))) (h : ∀ l ∈ ranks, AllInForest w1 w2 r1 r2 l)
    (_hc : ∀ l ∈ ranks, ∀ p ∈ forestPixels l, p.cont ≠ 0) (st : Stacker K)
    (hst : st ∈ Stacker.calculate sqrt
      (ranks.map (fun l => (stackSpectra residual (Stacker.new obs rf).reset l).1))) :
    (∀ k < obs.n, st.fp[k]? = some (wmean (fun p => p.flux / p.cont) (fun p => p.weight * p.cont ^ 2)
      ((forestPixels ranks.flatten).filter (fun p => decide (InStackCell w1 w2 obs.n k p.wave))))) ∧
    (∀ k < rf.n, st.fpRf[k]? = some (wmean (fun p => if residual then p.flux / p.cont else p.cont)
      (fun p => p.weight * p.cont ^ 2)
      ((forestPixels ranks.flatten).filter (fun p => decide (InStackCell r1 r2 rf.n k (p.wave / (1 + p.z))))))) := by
  unfold Stacker.calculate at hst
  obtain ⟨s, hs, rfl⟩ := List.mem_map.mp hst
  obtain ⟨l, hl, rfl⟩ := List.mem_map.mp hs
  obtain ⟨e1, e2, -, -⟩ := rank_sums ho hw hr hrw residual (h l hl)
  have R : ∀ l ∈ ranks, _ := fun l hl => rank_sums ho hw hr hrw residual (h l hl)
  constructor
  · intro k hk
    unfold Stacker.finish
    dsimp only
    rw [e1, divPos_get _ _ hk, forestPixels_flatten]
    unfold wmean
    simp only [List.map_map, Function.comp_def]
    rw [List.map_congr_left (fun l hl => ((R l hl).2.2.1 k hk).1), List.map_congr_left (fun l hl => ((R l hl).2.2.1 k hk).2),
      sum_ranks, sum_ranks]
  · intro k hk
    unfold Stacker.finish
    dsimp only
    rw [e2, divPos_get _ _ hk, forestPixels_flatten]
    unfold wmean
    simp only [List.map_map, Function.comp_def]
    rw [List.map_congr_left (fun l hl => ((R l hl).2.2.2 k hk).1), List.map_congr_left (fun l hl => ((R l hl).2.2.2 k hk).2),
      sum_ranks, sum_ranks]

/-- **C52.** The distribution of the spectra over the ranks does not matter, nor their order. -/
theorem C52_distribution {w1 w2 dw r1 r2 dr : K} {obs rf : StackGrid K} (ho : linGrid w1 w2 dw = .ok obs)
    (hw : w1 < w2) (hr : linGrid r1 r2 dr = .ok rf) (hrw : r1 < r2) (residual : Bool) (sqrt : K → K)
    (ranks ranks' : List (List (Spectrum K))) (hp : ranks.flatten.Perm ranks'.flatten)
    (h : ∀ l ∈ ranks, AllInForest w1 w2 r1 r2 l)
    (hc : ∀ l ∈ ranks, ∀ p ∈ forestPixels l, p.cont ≠ 0) (st st' : Stacker K)
    (hst : st ∈ Stacker.calculate sqrt
      (ranks.map (fun l => (stackSpectra residual (Stacker.new obs rf).reset l).1)))
    (hst' : st' ∈ Stacker.calculate sqrt
      (ranks'.map (fun l => (stackSpectra residual (Stacker.new obs rf).reset l).1))) :
    (∀ k < obs.n, st.fp[k]? = st'.fp[k]?) ∧ (∀ k < rf.n, st.fpRf[k]? = st'.fpRf[k]?) := by
  have h' : ∀ l ∈ ranks', AllInForest w1 w2 r1 r2 l := by
    intro l hl s hs
    have : s ∈ ranks.flatten := hp.mem_iff.mpr (List.mem_flatten.mpr ⟨l, hl, hs⟩)
    obtain ⟨l', hl', hs'⟩ := List.mem_flatten.mp this
    exact h l' hl' s hs'
  have hpp : (forestPixels ranks.flatten).Perm (forestPixels ranks'.flatten) := by
    unfold forestPixels
    exact (hp.filter _).flatMap_right _
  have hc' : ∀ l ∈ ranks', ∀ p ∈ forestPixels l, p.cont ≠ 0 := by
    intro l hl p hm
    have : p ∈ forestPixels ranks.flatten := by
      rw [hpp.mem_iff, forestPixels_flatten]
      exact List.mem_flatMap.mpr ⟨l, hl, hm⟩
    rw [forestPixels_flatten] at this
    obtain ⟨l', hl', hm'⟩ := List.mem_flatMap.mp this
    exact hc l' hl' p hm'
  obtain ⟨a1, a2⟩ := C52_mean ho hw hr hrw residual sqrt ranks h hc st hst
  obtain ⟨b1, b2⟩ := C52_mean ho hw hr hrw residual sqrt ranks' h' hc' st' hst'
  have wm : ∀ (v : FPix K → K) (P : FPix K → Bool),
      wmean v (fun p => p.weight * p.cont ^ 2) ((forestPixels ranks.flatten).filter P) =
      wmean v (fun p => p.weight * p.cont ^ 2) ((forestPixels ranks'.flatten).filter P) := by
    intro v P
    unfold wmean
    rw [((hpp.filter P).map _).sum_eq, ((hpp.filter P).map (fun p => p.weight * p.cont ^ 2 * v p)).sum_eq]
  exact ⟨fun k hk => by rw [a1 k hk, b1 k hk, wm], fun k hk => by rw [a2 k hk, b2 k hk, wm]⟩

omit [FloorRing K] in
/-- **C52.** With weights that are not negative the stacked value is between the smallest and the largest value. -/
theorem C52_bounds {α : Type} (value weight : α → K) (l : List α) (lo hi : K) (hw : ∀ p ∈ l, 0 ≤ weight p)
    (hl : ∀ p ∈ l, 0 < weight p → lo ≤ value p ∧ value p ≤ hi) (hs : ∃ p ∈ l, 0 < weight p) :
    lo ≤ wmean value weight l ∧ wmean value weight l ≤ hi := by
  have b : ∀ l : List α, (∀ p ∈ l, 0 ≤ weight p) → (∀ p ∈ l, 0 < weight p → lo ≤ value p ∧ value p ≤ hi) →
      lo * (l.map weight).sum ≤ (l.map (fun p => weight p * value p)).sum ∧
      (l.map (fun p => weight p * value p)).sum ≤ hi * (l.map weight).sum ∧ 0 ≤ (l.map weight).sum ∧
      ∀ p ∈ l, weight p ≤ (l.map weight).sum := by
    intro l
    induction l with
    | nil => simp
    | cons q l ih =>
      intro h1 h2
      obtain ⟨i1, i2, i3, i4⟩ := ih (fun p hp => h1 p (List.mem_cons_of_mem _ hp)) (fun p hp => h2 p (List.mem_cons_of_mem _ hp))
      have hq := h1 q List.mem_cons_self
      have hq2 : lo * weight q ≤ weight q * value q ∧ weight q * value q ≤ hi * weight q := by
        rcases hq.eq_or_lt with h0 | h0
        · rw [← h0]; simp
        · obtain ⟨c1, c2⟩ := h2 q List.mem_cons_self h0
          constructor <;> nlinarith
      simp only [List.map_cons, List.sum_cons, mul_add]
      refine ⟨by linarith [hq2.1], by linarith [hq2.2], by linarith, ?_⟩
      intro p hp
      rcases List.mem_cons.mp hp with rfl | hp
      · linarith
      · have := i4 p hp; linarith
  obtain ⟨b1, b2, b3, b4⟩ := b l hw hl
  obtain ⟨p, hp, hpos⟩ := hs
  have hS : 0 < (l.map weight).sum := lt_of_lt_of_le hpos (b4 p hp)
  unfold wmean
  rw [if_pos hS, le_div_iff₀ hS, div_le_iff₀ hS]
  exact ⟨b1, b2⟩

/-- A quasar at redshift 2 with four forest pixels and continuum 2. -/
def c52Spec : Spectrum ℚ :=
  { blank 2 1 [] [] [] [] with
    fwave := [("B", [3300, 3305, 3312]), ("R", [3320])], fflux := [("B", [1, 2, 3]), ("R", [4])],
    fivar := [("B", [1, 1, 0]), ("R", [2])], ivarSm := none, weight := none,
    cont := [("B", [2, 2, 2]), ("R", [2])], valid := true }

example : linGrid (3300 : ℚ) 3332 8 = .ok ⟨3304, 8, 4⟩ ∧ linGrid (1100 : ℚ) 1120 10 = .ok ⟨1105, 10, 2⟩ := by
  decide +kernel

example : AllInForest 3300 3332 1100 1120 [c52Spec] := by
  intro s hs _
  obtain rfl := List.mem_singleton.mp hs
  refine ⟨by decide +kernel, ?_⟩
  decide +kernel

/-- Two ranks with the same spectrum, and one invalid one. -/
example : ((Stacker.calculate id ([[c52Spec], [c52Spec, { c52Spec with valid := false }]].map
    (fun l => (stackSpectra true (Stacker.new (⟨3304, 8, 4⟩ : StackGrid ℚ) ⟨1105, 10, 2⟩).reset l).1))).map
      (fun s => (s.fp, s.fpRf))) =
    [([3 / 4, 0, 2, 0], [11 / 8, 0]), ([3 / 4, 0, 2, 0], [11 / 8, 0])] := by
  decide +kernel

end Verif.Props
