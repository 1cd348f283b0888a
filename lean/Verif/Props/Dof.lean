import Verif.Model.Dof
import Verif.Props.Coadd
import Verif.Proofs.ContFit
import Verif.Proofs.Dict

/-!
# C81: degrees of freedom in the chi square catalog
-/

namespace Verif.Props
open Verif.Model Verif.Spec Verif.Np Verif.Proofs

variable {K : Type} [Field K] [LinearOrder K] [IsStrictOrderedRing K] [FloorRing K]

/-- The number of pixels of a spectrum with positive inverse variance. -/
def goodPixels (s : Spectrum K) : Nat := ((s.fivar.flatMap Prod.snd).filter (fun v => decide (0 < v))).length

/-- The number of pixels with positive inverse variance in a list of pixels. -/
def goodIn (l : List (Pix K)) : Nat := (l.filter (fun p => decide (0 < p.ivar))).length

omit [IsStrictOrderedRing K] [FloorRing K] in
theorem realSize_eq (s : Spectrum K) : s.realSize = goodPixels s := by
  unfold Spectrum.realSize goodPixels
  rw [List.filter_flatMap, List.length_flatMap]
  congr 1
  refine List.map_congr_left fun x _ => ?_
  unfold numGood
  rw [List.countP_eq_length_filter]

/-- Counting per class: if every element that counts is in exactly one class, the number of classes with such an element is
at most the number of elements, with equality if and only if no class has two. -/
theorem classes_count {α : Type} (L : List α) (good : α → Bool) (cls : Nat → α → Bool) (n : Nat)
    (h : ∀ p ∈ L, good p = true → ∃ k, k < n ∧ ∀ j, cls j p = true ↔ j = k) :
    ((List.range n).filter (fun k => decide (0 < (L.filter (fun p => cls k p && good p)).length))).length ≤
      (L.filter good).length ∧
    (((List.range n).filter (fun k => decide (0 < (L.filter (fun p => cls k p && good p)).length))).length =
      (L.filter good).length ↔ ∀ k, (L.filter (fun p => cls k p && good p)).length ≤ 1) := by
  have key : (L.filter good).length =
      ((List.range n).map (fun k => (L.filter (fun p => cls k p && good p)).length)).sum := by
    induction L with
    | nil => simp
    | cons p L ih =>
      have ih := ih (fun q hq => h q (List.mem_cons_of_mem _ hq))
      by_cases hg : good p = true
      · obtain ⟨k, hk, hj⟩ := h p List.mem_cons_self hg
        rw [List.filter_cons_of_pos hg, List.length_cons, ih]
        have e : ∀ j, ((p :: L).filter (fun p => cls j p && good p)).length =
            (L.filter (fun p => cls j p && good p)).length + if j = k then 1 else 0 := by
          intro j
          by_cases hjk : j = k
          · rw [List.filter_cons_of_pos (by simp [hg, (hj j).mpr hjk]), if_pos hjk]; rfl
          · have : cls j p = false := by
              rw [Bool.eq_false_iff]; exact fun hc => hjk ((hj j).mp hc)
            rw [List.filter_cons_of_neg (by simp [this]), if_neg hjk]; rfl
        simp only [e, List.sum_map_add]
        congr 1
        have : ∀ m, ((List.range m).map (fun j => if j = k then 1 else 0)).sum = if k < m then 1 else 0 := by
          intro m
          induction m with
          | zero => simp
          | succ m im =>
            rw [List.range_succ, List.map_append, List.sum_append, im]
            simp only [List.map_cons, List.map_nil, List.sum_cons, List.sum_nil]
            split_ifs <;> omega
        rw [this, if_pos hk]
      · rw [List.filter_cons_of_neg hg, ih]
        congr 1
        refine List.map_congr_left fun j _ => ?_
        rw [List.filter_cons_of_neg (by simp [hg])]
  have out : ∀ k, n ≤ k → (L.filter (fun p => cls k p && good p)).length = 0 := by
    intro k hk
    rw [List.length_eq_zero_iff, List.filter_eq_nil_iff]
    intro p hp hc
    simp only [Bool.and_eq_true] at hc
    obtain ⟨j, hj, hi⟩ := h p hp hc.2
    have := (hi k).mp hc.1
    omega
  have gen : ∀ (c : Nat → Nat) (m : Nat),
      ((List.range m).filter (fun k => decide (0 < c k))).length ≤ ((List.range m).map c).sum ∧
      (((List.range m).filter (fun k => decide (0 < c k))).length = ((List.range m).map c).sum ↔
        ∀ k, k < m → c k ≤ 1) := by
    intro c m
    induction m with
    | zero => simp
    | succ m im =>
      obtain ⟨i1, i2⟩ := im
      rw [List.range_succ, List.filter_append, List.length_append, List.map_append, List.sum_append]
      have e : ((List.filter (fun k => decide (0 < c k)) [m]).length : Nat) = if 0 < c m then 1 else 0 := by
        by_cases hm : 0 < c m <;> simp [hm]
      rw [e]
      simp only [List.map_cons, List.map_nil, List.sum_cons, List.sum_nil, Nat.add_zero]
      constructor
      · split_ifs <;> omega
      · constructor
        · intro he k hk
          have h1 : ∀ k, k < m → c k ≤ 1 := i2.mp (by split_ifs at he <;> omega)
          have h2 : c m ≤ 1 := by split_ifs at he <;> omega
          rcases Nat.lt_succ_iff_lt_or_eq.mp hk with hk | rfl
          · exact h1 k hk
          · exact h2
        · intro hk
          rw [i2.mpr fun k h => hk k (by omega)]
          have := hk m (by omega)
          split_ifs <;> omega
  obtain ⟨g1, g2⟩ := gen (fun k => (L.filter (fun p => cls k p && good p)).length) n
  rw [key]
  refine ⟨g1, g2.trans ⟨fun hk k => ?_, fun hk k _ => hk k⟩⟩
  by_cases hn : k < n
  · exact hk k hn
  · rw [out k (by omega)]; omega

omit [FloorRing K] [IsStrictOrderedRing K] in
/-- **C81.** No continuum model changes the number of good pixels. -/
theorem C81_fit (log meancont meanflux varlss eta interp : K → K) (rfwave0 denom : K) (result : Bool × List K)
    (s : Spectrum K) :
    goodPixels (s.piccaFit log meancont meanflux varlss eta rfwave0 denom result) = goodPixels s ∧
    goodPixels (s.inputFit interp meanflux varlss eta) = goodPixels s ∧
    goodPixels (s.trueFit interp meanflux varlss) = goodPixels s := by
  have hs : ∀ (c : Bool × Dict (List K)), (s.setCont c).fivar = s.fivar := fun c => rfl
  have he : ∀ t : Spectrum K, (t.endFit varlss eta).fivar = t.fivar := by
    intro t
    unfold Spectrum.endFit
    dsimp only
    split
    · rw [(chi2_same _).2.2.2.2.1, (sfw_same varlss eta t).2.2.2.2.1]
    · change (t.setForestWeight varlss eta).calcContinuumChi2.fivar = _
      rw [(chi2_same _).2.2.2.2.1, (sfw_same varlss eta t).2.2.2.2.1]
  unfold goodPixels
  refine ⟨?_, ?_, ?_⟩
  · unfold Spectrum.piccaFit
    rw [he]
    split <;> rw [hs]
  · unfold Spectrum.inputFit
    split
    · rw [he, hs]
    · rfl
  · unfold Spectrum.trueFit
    rw [(chi2_same _).2.2.2.2.1, (sfw_same _ _ _).2.2.2.2.1, hs]

omit [Field K] [LinearOrder K] [FloorRing K] [IsStrictOrderedRing K] in
theorem pixelsOf_ivar {wave weight flux ivar : List K} (h1 : weight.length = wave.length)
    (h2 : flux.length = wave.length) (h3 : ivar.length = wave.length) :
    (pixelsOf wave weight flux ivar).map (fun p => p.ivar) = ivar := by
  unfold pixelsOf
  apply List.ext_getElem
  · simp [h1, h2, h3]
  · intro i _ _
    simp

omit [IsStrictOrderedRing K] in
theorem goodPixels_eq {s : Spectrum K} (h : ForestOk s) (hk : s.fivar.keys = s.fwave.keys) :
    goodPixels s = goodIn (s.fwave.map (fun x => s.forestPix x.1)).flatten := by
  have hn : s.fivar.keys.Nodup := hk ▸ h.nodup
  have e1 : s.fivar.flatMap Prod.snd = s.fivar.keys.flatMap (fun a => s.fivar.arr a) := by
    unfold Dict.keys
    rw [List.flatMap_map]
    refine List.flatMap_congr fun x hx => ?_
    exact (arr_of_lookup (lookup_of_mem hn hx)).symm
  have e2 : (s.fwave.map (fun x => s.forestPix x.1)).flatten.map (fun p => p.ivar) =
      s.fwave.flatMap (fun x => s.fivar.arr x.1) := by
    rw [List.map_flatten, List.map_map, ← List.flatMap_def]
    refine List.flatMap_congr fun x hx => ?_
    have hl : s.fwave.arr x.1 = x.2 := arr_of_lookup (lookup_of_mem h.nodup hx)
    change (s.forestPix x.1).map _ = _
    unfold Spectrum.forestPix
    rw [hl]
    exact pixelsOf_ivar (h.weight x hx) (h.flux x hx) (h.ivar x hx)
  unfold goodPixels goodIn
  rw [e1, hk]
  unfold Dict.keys
  rw [List.flatMap_map, ← e2, List.filter_map, List.length_map]
  rfl

/-- **C81.** Arms are coadded after the fit: the number of good pixels of the result is the number of cells with a good
pixel. The degrees of freedom, which are those of the spectrum before, belong to the coadded spectrum if and only if no
cell has good pixels of two arms; otherwise they are too large. -/
theorem C81_coadd_partial {s : Spectrum K} (h : ForestOk s) (hk : s.fivar.keys = s.fwave.keys)
    (hpos : ∀ x ∈ s.fwave, ∀ p ∈ s.forestPix x.1, 0 < p.ivar → 0 < p.weight) {lo hi : K}
    (hlo : IsLeast (allWaves s.fwave) lo) (hhi : IsGreatest (allWaves s.fwave) hi) {n : Nat}
    (hn : InCell lo s.dwave n hi) (h1 : OnePerCell lo s.dwave (s.fwave.map (fun x => s.forestPix x.1)))
    (T : TailFns K) (varlss eta : K → K) (nparam : Nat) :
    let C := cell lo s.dwave (s.fwave.map (fun x => s.forestPix x.1))
    ∃ t, tailCoaddOne T varlss eta s = .ok t ∧
      goodPixels t = ((List.range (n + 1)).filter (fun k => decide (0 < goodIn (C k)))).length ∧
      (goodPixels t : Int) - nparam ≤ s.initDof nparam ∧
      (s.initDof nparam = (goodPixels t : Int) - nparam ↔ ∀ k, goodIn (C k) ≤ 1) := by
  intro C
  obtain ⟨t, ht, -, -, hi', -⟩ := C26_coadd_arms h hlo hhi hn h1 T.sqrt T.smooth T.junk T.nan T.eps varlss eta
  have hp : ∀ p ∈ (s.fwave.map (fun x => s.forestPix x.1)).flatten, 0 ≤ p.weight ∧ (0 < p.weight ↔ 0 < p.ivar) := by
    intro p hp
    obtain ⟨l, hl, hpl⟩ := List.mem_flatten.mp hp
    obtain ⟨x, hx, rfl⟩ := List.mem_map.mp hl
    exact ⟨(h.nonneg x hx p hpl).1, (h.nonneg x hx p hpl).2, hpos x hx p hpl⟩
  have hw : ∀ p ∈ (s.fwave.map (fun x => s.forestPix x.1)).flatten, lo ≤ p.wave ∧ p.wave ≤ hi := by
    intro p hp
    obtain ⟨l, hl, hpl⟩ := List.mem_flatten.mp hp
    obtain ⟨x, hx, rfl⟩ := List.mem_map.mp hl
    have : p.wave ∈ x.2 := by
      rw [← forestPix_wave h hx]; exact List.mem_map.mpr ⟨p, hpl, rfl⟩
    exact ⟨hlo.2 ⟨x, hx, this⟩, hhi.2 ⟨x, hx, this⟩⟩
  have hg : goodPixels t.calcContinuumChi2 =
      ((List.range (n + 1)).filter (fun k => decide (0 < goodIn (C k)))).length := by
    unfold goodPixels
    rw [(chi2_same t).2.2.2.2.1, hi']
    simp only [List.flatMap_cons, List.flatMap_nil, List.append_nil]
    rw [List.filter_map, List.length_map]
    congr 1
    refine List.filter_congr fun k _ => ?_
    have hC : ∀ p ∈ C k, 0 ≤ p.weight ∧ (0 < p.weight ↔ 0 < p.ivar) :=
      fun p hpc => hp p (List.mem_of_mem_filter hpc)
    rw [Function.comp_apply, decide_eq_decide]
    by_cases hs : 0 < sumWeight (C k)
    · rw [if_pos hs]
      have v := var_sum_pos (fun p hpc => (hC p hpc).1) (fun p hpc => (hC p hpc).2.mp) hs
      refine ⟨fun _ => ?_, fun _ => ?_⟩
      · unfold goodIn
        by_contra hz
        rw [List.length_pos_iff.not, not_not] at hz
        rw [hz] at v
        simp at v
      · unfold meanVar
        positivity
    · rw [if_neg hs]
      refine ⟨fun hf => absurd hf (lt_irrefl _), fun hg => ?_⟩
      obtain ⟨p, hpf⟩ := List.exists_mem_of_length_pos hg
      obtain ⟨hpc, hpi⟩ := List.mem_filter.mp hpf
      have z := sum_eq_zero_weights (fun p hpc => (hC p hpc).1) hs p hpc
      have := (hC p hpc).2.mpr (by simpa using hpi)
      rw [z] at this
      exact absurd this (lt_irrefl _)
  refine ⟨t.calcContinuumChi2, ?_, hg, ?_⟩
  · unfold tailCoaddOne
    rw [ht]
    rfl
  · have hc := classes_count (s.fwave.map (fun x => s.forestPix x.1)).flatten (fun p => decide (0 < p.ivar))
      (fun k p => decide (InCell lo s.dwave k p.wave)) (n + 1) (by
        intro p hp' _
        obtain ⟨w1, w2⟩ := hw p hp'
        refine ⟨cellIdx lo s.dwave p.wave, ?_, fun j => ?_⟩
        · have m := coaddIdx_mono h.dwave w1 w2
          rw [coaddIdx_eq_cellIdx h.dwave w1, coaddIdx_eq_cellIdx h.dwave (w1.trans w2),
            (cellIdx_eq_iff h.dwave (w1.trans w2) n).mpr hn] at m
          omega
        · rw [decide_eq_true_iff, ← cellIdx_eq_iff h.dwave w1, eq_comm])
    have e : ∀ k, goodIn (C k) = ((s.fwave.map (fun x => s.forestPix x.1)).flatten.filter
        (fun p => decide (InCell lo s.dwave k p.wave) && decide (0 < p.ivar))).length := by
      intro k
      change (((s.fwave.map (fun x => s.forestPix x.1)).flatten.filter _).filter _).length = _
      rw [List.filter_filter]
      congr 2
      funext p
      rw [Bool.and_comm]
    simp only [← e] at hc
    rw [← hg] at hc
    have hs : (s.realSize : Int) = ((s.fwave.map (fun x => s.forestPix x.1)).flatten.filter
        (fun p => decide (0 < p.ivar))).length := by
      rw [realSize_eq, goodPixels_eq h hk]; rfl
    unfold Spectrum.initDof
    rw [hs]
    obtain ⟨c1, c2⟩ := hc
    refine ⟨by omega, ?_⟩
    rw [← c2]
    omega

/-- **C81.** The arms B and R of this quasar overlap in one pixel. After coadding there are five good pixels, but the degrees
of freedom of a fit with two parameters are four, not three. -/
theorem C81_coadd_refuted :
    (tailCoaddOne ⟨id, fun v _ => v, fun _ => -1, -5, 1 / 100⟩ (fun _ => 0) (fun _ => 1) c26Spec).toOption.map goodPixels =
      some 5 ∧ goodPixels c26Spec = 6 ∧ c26Spec.initDof 2 = 4 := by
  decide +kernel

/-- The hypotheses of `C81_coadd_partial`. -/
example : ForestOk c26Spec ∧ c26Spec.fivar.keys = c26Spec.fwave.keys ∧
    (∀ x ∈ c26Spec.fwave, ∀ p ∈ c26Spec.forestPix x.1, 0 < p.ivar → 0 < p.weight) ∧
    OnePerCell 100 c26Spec.dwave (c26Spec.fwave.map (fun x => c26Spec.forestPix x.1)) :=
  ⟨c26Spec_ok, by decide +kernel, by decide +kernel, C26_common_grid_one_per_cell (w0 := 100) (j0 := 0)
    c26Spec_ok (by decide +kernel) c26Spec_grid⟩

end Verif.Props
