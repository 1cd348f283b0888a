import Verif.Proofs.VarLss
import Mathlib.Data.Rat.Floor
import Mathlib.Algebra.BigOperators.Group.Finset.Basic

/-!
# C48, C49, C50: variance statistics
-/

namespace Verif.Props
open Verif Verif.Np Verif.Model Verif.Model.VarLss Verif.Spec Verif.Proofs
open scoped BigOperators

variable {K : Type} [Field K] [LinearOrder K] [IsStrictOrderedRing K] [FloorRing K] {n : Nat} {c : VarCfg K}

/-- **C48.** After any calls of `add` on a new object every used bin has counted exactly the pixels whose
wavelength and inverse variance are in the bin, and the spectra that have such a pixel. No call fails. -/
theorem C48_bins (hc : GoodBins c) (h : 0 < n) (rank size : Nat) (ls : List (List (VPix K))) :
    ∃ s, (VarLss.new c h rank size).addList ls = (s, none) ∧
      s.numPixels.length = c.nw * c.nv ∧ s.numQsos.length = c.nw * c.nv ∧
      ∀ iw iv, iw < c.nw → iv < c.nv →
        s.numPixels[iw * c.nv + iv]? = some (inBin c iw iv ls.flatten).length ∧
        s.numQsos[iw * c.nv + iv]? = some (spectraIn c iw iv ls) := by
  obtain ⟨t, h1, h2, h3, -, -⟩ := addList_ok hc.length ls (VarLss.new c h rank size) rfl
  refine ⟨t, h1, valid_length c _, valid_length c _, fun iw iv hw hv => ?_⟩
  unfold numPixels numQsos
  rw [valid_get c _ hw hv, valid_get c _ hw hv, h2, h3]
  constructor
  · congr 1
    simp only [VarLss.new, zero_add, npixOf_bin hc hw hv]
    rw [inBin_flatten, List.length_flatten, List.map_map]
    rfl
  · congr 1
    simp only [VarLss.new, zero_add]
    exact spectraIn_bin hc hw hv ls

/-- **C48.** A pixel is in at most one bin, and in one if its wavelength and its inverse variance are in the
ranges of the bins. -/
theorem C48_one_bin (hc : GoodBins c) (p : VPix K) :
    (∀ iw iv iw' iv', iw < c.nw → iv < c.nv → iw' < c.nw → iv' < c.nv → InBin c iw iv p → InBin c iw' iv' p →
      iw = iw' ∧ iv = iv') ∧
    (∀ lo hi, c.edges[0]? = some lo → c.edges[c.nv]? = some hi → c.w1 ≤ p.wave → p.wave < c.w2 →
      lo < p.ivar → p.ivar ≤ hi → ∃ iw < c.nw, ∃ iv < c.nv, InBin c iw iv p) := by
  constructor
  · rintro iw iv iw' iv' hw hv hw' hv' ⟨a, b⟩ ⟨a', b'⟩
    rw [← waveIdx_eq hc hw] at a
    rw [← waveIdx_eq hc hw'] at a'
    rw [← ivarIdx_eq hc hv] at b
    rw [← ivarIdx_eq hc hv'] at b'
    omega
  · intro lo hi e0 e1 hw1 hw2 hl hh
    have hnw : (0 : K) < c.nw := by exact_mod_cast hc.nw_pos
    have w1 := (le_waveIdx hc 0 p.wave).mpr ⟨Nat.zero_le _, by simpa using hw1⟩
    have w2 : ¬ c.nw + 1 ≤ c.waveIdx p.wave := by
      rw [le_waveIdx hc]
      rintro ⟨-, hle⟩
      have : (c.nw : K) * ((c.w2 - c.w1) / c.nw) = c.w2 - c.w1 := by field_simp
      rw [this] at hle
      linarith
    have v1 := (lt_searchsorted_iff hc.sorted e0).mpr hl
    have v2 : ¬ c.nv < searchsorted c.edges p.ivar := fun h' =>
      absurd ((lt_searchsorted_iff hc.sorted e1).mp h') (not_lt.mpr hh)
    have hw : c.waveIdx p.wave - 1 < c.nw := by omega
    have hv : c.ivarIdx p.ivar - 1 < c.nv := by unfold VarCfg.ivarIdx; omega
    refine ⟨_, hw, _, hv, (waveIdx_eq hc hw _).mp (by omega), (ivarIdx_eq hc hv _).mp ?_⟩
    unfold VarCfg.ivarIdx; omega

omit [IsStrictOrderedRing K] in
theorem sum_npixOf (hc : c.edges.length = c.nv + 1) (l : List (VPix K)) :
    ∑ k : Fin ((c.nv + 2) * (c.nw + 2)), npixOf c l k = l.length := by
  unfold npixOf
  induction l with
  | nil => simp
  | cons p l ih =>
    simp only [List.countP_cons, Finset.sum_add_distrib, ih, List.length_cons]
    congr 1
    have e : ∀ k : Fin ((c.nv + 2) * (c.nw + 2)),
        (if decide (c.allIdx p.wave p.ivar = (k : Nat)) = true then 1 else 0) =
        (if (⟨c.allIdx p.wave p.ivar, allIdx_lt hc _ _⟩ : Fin _) = k then 1 else 0) := by
      intro k
      simp only [decide_eq_true_eq, Fin.ext_iff]
    rw [Finset.sum_congr rfl fun k _ => e k]
    simp

/-- **C49.** Over all bins, the used ones and those for values outside, every pixel is counted once. -/
theorem C49_total (hc : GoodBins c) (h : 0 < n) (rank size : Nat) (ls : List (List (VPix K))) :
    ∃ s, (VarLss.new c h rank size).addList ls = (s, none) ∧ ∑ k, s.numPix k = ls.flatten.length := by
  obtain ⟨t, h1, h2, -, -, -⟩ := addList_ok hc.length ls (VarLss.new c h rank size) rfl
  refine ⟨t, h1, ?_⟩
  simp only [h2, VarLss.new, zero_add, List.length_flatten]
  clear h1 h2
  induction ls with
  | nil => simp
  | cons l ls ih => simp only [List.map_cons, List.sum_cons, Finset.sum_add_distrib, ih, sum_npixOf hc.length]

/-- The objects of all ranks, each with its own spectra. -/
def rankObjs (c : VarCfg K) (h : 0 < n) (ranks : List (List (List (VPix K)))) : List (VarLss K n c) :=
  ranks.zipIdx.map (fun r => ((VarLss.new c h r.2 ranks.length).addList r.1).1)

omit [LinearOrder K] [IsStrictOrderedRing K] [FloorRing K] in
theorem allreduce_eq (ranks : List (VarLss K n c)) : VarLss.allreduce ranks = ranks.map (fun s => { s with
    sub := { s.sub with
      x := fun i j k => ((ranks.map (·.sub)).map (fun s => s.x i j k)).sum
      w := fun i k => ((ranks.map (·.sub)).map (fun s => s.w i k)).sum }
    numPix := fun k => (ranks.map (fun s => s.numPix k)).sum
    numQso := fun k => (ranks.map (fun s => s.numQso k)).sum }) := by
  unfold VarLss.allreduce Subsample.allreduce
  simp only [List.map_map, List.zipWith_map_right, List.zipWith_self]
  rfl

omit [IsStrictOrderedRing K] [FloorRing K] in
/-- What `finish` does to an object that has not been normalised. -/
theorem finish_fresh (eps : K) (uc : Bool) {s : VarLss K n c} (hs : s.sub.mean = none) :
    ∃ t mean, s.finish eps uc = (t, none) ∧ s.sub.getMean.mean = some mean ∧
      t.numPix = s.numPix ∧ t.numQso = s.numQso ∧ t.sub.mean = some (meanRows s.numPix mean) ∧
      t.calculated = true ∧ t.sub.variance ≠ none := by
  obtain ⟨t, v, h1, h2, h3, -, -, h6⟩ := getMeanNVar_fresh eps hs
  obtain ⟨mean, hmean⟩ : ∃ mean, s.sub.getMean.mean = some mean := ⟨_, rfl⟩
  rw [hmean] at h2
  unfold VarLss.finish
  rw [h1]
  cases uc with
  | false =>
    refine ⟨_, mean, rfl, hmean, rfl, rfl, ?_, rfl, ?_⟩
    · simp [h2]
    · simp
  | true =>
    obtain ⟨xd, hxd⟩ := Option.ne_none_iff_exists'.mp h6
    have hcov : t.getMeanNCov eps (some [0, 1]) (some (c.nv + 2)) false =
        ({ t with covariance := some (fun j => if j ∈ [0, 1] then
          some (Subsample.covEntry xd (some (c.nv + 2)) j) else none) }, none) := by
      unfold Subsample.getMeanNCov
      have e : t.ensureMean eps false = t := by unfold Subsample.ensureMean; rw [h2]
      have e2 : Subsample.checkBlock ((c.nv + 2) * (c.nw + 2)) (some (c.nv + 2)) = .ok () := by
        simp [Subsample.checkBlock]
      simp only [e, e2]
      rw [hxd]
      simp [Subsample.covariances]
    simp only [if_true]
    unfold finishCov
    rw [hcov]
    refine ⟨_, mean, rfl, hmean, rfl, rfl, ?_, rfl, ?_⟩
    · simp [h2]
    · simp [h3]

theorem rankObjs_ok (hc : c.edges.length = c.nv + 1) (h : 0 < n) (l : List (List (List (VPix K)) × Nat)) (size : Nat) :
    (∀ s ∈ l.map (fun r => ((VarLss.new c h r.2 size).addList r.1).1),
      s.sub.mean = none ∧ s.sub.normalized = false ∧ s.calculated = false) ∧
    (∀ k, ((l.map (fun r => ((VarLss.new c h r.2 size).addList r.1).1)).map (fun s => s.numPix k)).sum =
      ((l.map Prod.fst).flatten.map (fun l => npixOf c l k)).sum) ∧
    (∀ k, ((l.map (fun r => ((VarLss.new c h r.2 size).addList r.1).1)).map (fun s => s.numQso k)).sum =
      (l.map Prod.fst).flatten.countP (fun l => decide (0 < npixOf c l k))) ∧
    (l.map (fun r => ((r.2 * n) / size, r.1.map (measOf c)))).mapM
        (fun r => addAll (Subsample.new h r.1 : Subsample K n 4 ((c.nv + 2) * (c.nw + 2))) r.2) =
      .ok ((l.map (fun r => ((VarLss.new c h r.2 size).addList r.1).1)).map (·.sub)) := by
  induction l with
  | nil => exact ⟨by simp, by simp, by simp, rfl⟩
  | cons r l ih =>
    obtain ⟨i1, i2, i3, i4⟩ := ih
    obtain ⟨t, h1, h2, h3, h4, h5⟩ := addList_ok hc r.1 (VarLss.new c h r.2 size) rfl
    have ht : ((VarLss.new c h r.2 size).addList r.1).1 = t := by rw [h1]
    refine ⟨?_, fun k => ?_, fun k => ?_, ?_⟩
    · intro s hs
      rcases List.mem_cons.mp hs with e | hs
      · rw [e.trans ht]
        obtain ⟨t', g1, g2, -⟩ := addAll_ok (r.1.map (measOf c)) (VarLss.new c h r.2 size).sub rfl
        rw [h4] at g1
        cases g1
        exact ⟨addAll_mean _ h4, g2, h5⟩
      · exact i1 s hs
    · simp only [List.map_cons, List.sum_cons, List.flatten_cons, List.map_append, List.sum_append, ht, h2]
      rw [← i2]
      simp [VarLss.new]
    · simp only [List.map_cons, List.sum_cons, List.flatten_cons, List.countP_append, ht, h3]
      rw [← i3]
      simp [VarLss.new]
    · simp only [List.map_cons, List.mapM_cons, ht]
      have : addAll (Subsample.new h ((r.2 * n) / size)) (r.1.map (measOf c)) = .ok t.sub := h4
      rw [this, i4]
      rfl

omit [IsStrictOrderedRing K] in
theorem meas_sums (c : VarCfg K) (ls : List (List (VPix K))) (j : Fin 4) (k : Fin ((c.nv + 2) * (c.nw + 2))) :
    ((ls.map (measOf c)).map (fun p => p.2 k)).sum = ((ls.map (fun l => npixOf c l k)).sum : Nat) ∧
    ((ls.map (measOf c)).map (fun p => p.1 j k)).sum = (ls.map (fun l => xvecOf c l j k)).sum := by
  constructor
  · induction ls with
    | nil => simp
    | cons l ls ih => simp only [List.map_cons, List.sum_cons, ih, Nat.cast_add]; rfl
  · rw [List.map_map]; rfl

/-- The statistics after `calculate_subsampler_stats`, in every bin. -/
theorem calculate_stats (hc : c.edges.length = c.nv + 1) (h : 0 < n) (eps : K) (uc : Bool)
    (ranks : List (List (List (VPix K)))) (r) (hr : r ∈ calculate eps uc (rankObjs c h ranks)) :
    r.2 = none ∧
    (∀ k, r.1.numPix k = (ranks.flatten.map (fun l => npixOf c l k)).sum) ∧
    (∀ k, r.1.numQso k = ranks.flatten.countP (fun l => decide (0 < npixOf c l k))) ∧
    ∃ mean, r.1.sub.mean = some (meanRows r.1.numPix mean) ∧ ∀ j k,
      mean j k * ((ranks.flatten.map (fun l => npixOf c l k)).sum : Nat) =
        (ranks.flatten.map (fun l => xvecOf c l j k)).sum ∧
      ((ranks.flatten.map (fun l => npixOf c l k)).sum = 0 → mean j k = 0) := by
  obtain ⟨o1, o2, o3, o4⟩ := rankObjs_ok hc h ranks.zipIdx ranks.length
  have efst : ranks.zipIdx.map Prod.fst = ranks := by simp
  rw [efst] at o2 o3
  have hcalc : (rankObjs c h ranks : List (VarLss K n c)).head?.any (·.calculated) = false := by
    cases e : (rankObjs c h ranks : List (VarLss K n c)) with
    | nil => rfl
    | cons s l =>
      have : s ∈ (rankObjs c h ranks : List (VarLss K n c)) := by rw [e]; exact List.mem_cons_self
      have := (o1 s this).2.2
      simp [this]
  unfold VarLss.calculate at hr
  rw [if_neg (by rw [hcalc]; simp), allreduce_eq] at hr
  obtain ⟨s', hs', rfl⟩ := List.mem_map.mp hr
  obtain ⟨s, hs, rfl⟩ := List.mem_map.mp hs'
  obtain ⟨t, mean, f1, f2, f3, f4, f5, -, -⟩ := finish_fresh eps uc (s := { s with
    sub := { s.sub with
      x := fun i j k => (((rankObjs c h ranks).map (·.sub)).map (fun s => s.x i j k)).sum
      w := fun i k => (((rankObjs c h ranks).map (·.sub)).map (fun s => s.w i k)).sum }
    numPix := fun k => ((rankObjs c h ranks).map (fun s => s.numPix k)).sum
    numQso := fun k => ((rankObjs c h ranks).map (fun s => s.numQso k)).sum }) (o1 s hs).1
  rw [f1]
  refine ⟨rfl, fun k => ?_, fun k => ?_, mean, ?_, fun j k => ?_⟩
  · rw [f3]; exact o2 k
  · rw [f4]; exact o3 k
  · rw [f5, f3]
  · obtain ⟨objs, g1, g2⟩ := C44_mean (K := K) h
      (ranks.zipIdx.map (fun r => ((r.2 * n) / ranks.length, r.1.map (measOf c)))) (by
        intro r hr p hp
        obtain ⟨r', -, rfl⟩ := List.mem_map.mp hr
        obtain ⟨l, -, rfl⟩ := List.mem_map.mp hp
        exact weighted_measOf c l)
    rw [o4] at g1
    cases g1
    obtain ⟨mean', e1, e2⟩ := g2 _ (List.mem_map.mpr ⟨s.sub, List.mem_map.mpr ⟨s, hs, rfl⟩, rfl⟩)
    have e3 : mean = mean' := by
      have : some mean = some mean' := f2.symm.trans e1
      exact Option.some.inj this
    subst e3
    have e4 : (ranks.zipIdx.map (fun r => ((r.2 * n) / ranks.length, r.1.map (measOf c)))).flatMap Prod.snd =
        ranks.flatten.map (measOf c) := by
      rw [List.flatMap_map]
      conv_rhs => rw [← efst]
      rw [List.map_flatten, List.map_map, List.flatMap]
      rfl
    obtain ⟨e5, e6⟩ := e2 j k
    rw [e4] at e5 e6
    obtain ⟨m1, m2⟩ := meas_sums c ranks.flatten j k
    rw [m1] at e5 e6
    rw [m2] at e5
    exact ⟨e5, fun h0 => e6 (by exact_mod_cast h0)⟩

/-- **C50.** However the spectra are distributed over the ranks: all ranks succeed and have, in every used bin,
the number of all pixels in the bin, the number of all spectra with such a pixel, the mean of delta, the variance
of delta and the mean pipeline variance of all these pixels. -/
theorem C50_statistics (hc : GoodBins c) (h : 0 < n) (eps : K) (uc : Bool)
    (ranks : List (List (List (VPix K)))) (r) (hr : r ∈ calculate eps uc (rankObjs c h ranks))
    (iw iv : Nat) (hw : iw < c.nw) (hv : iv < c.nv) :
    let P := inBin c iw iv ranks.flatten.flatten
    let m1 : K := (P.map (fun p => p.delta)).sum / P.length
    let m2 : K := (P.map (fun p => p.delta ^ 2)).sum / P.length
    let m4 : K := (P.map (fun p => p.delta ^ 4)).sum / P.length
    let at' := fun l : Option (List K) => l.bind (fun l => l[iw * c.nv + iv]?)
    r.2 = none ∧
    r.1.numPixels[iw * c.nv + iv]? = some P.length ∧
    r.1.numQsos[iw * c.nv + iv]? = some (spectraIn c iw iv ranks.flatten) ∧
    at' (r.1.meanRow 0) = some m1 ∧
    at' (r.1.meanRow 1) = some (m2 - m1 ^ 2) ∧
    at' (r.1.meanRow 2) = some ((m4 - (m2 - m1 ^ 2) ^ 2) / P.length) ∧
    at' (r.1.meanRow 3) = some ((P.map (fun p => 1 / p.ivar)).sum / (P.length : K)) := by
  obtain ⟨h1, h2, h3, mean, h4, h5⟩ := calculate_stats hc.length h eps uc ranks r hr
  intro P m1 m2 m4 at'
  have hN : (ranks.flatten.map (fun l => npixOf c l (binIdx c iw iv))).sum = P.length := by
    simp only [npixOf_bin hc hw hv, P]
    rw [inBin_flatten, List.length_flatten, List.map_map]
    rfl
  have hX : ∀ j, (ranks.flatten.map (fun l => xvecOf c l j (binIdx c iw iv))).sum =
      (P.map (fun p => pixRow p j)).sum := by
    intro j
    simp only [xvecOf_bin hc hw hv, P]
    rw [inBin_flatten]
    generalize ranks.flatten = ls
    induction ls with
    | nil => simp
    | cons l ls ih => simp only [List.map_cons, List.sum_cons, List.flatten_cons, List.map_append, List.sum_append, ih]
  have hmean : ∀ j, mean j ⟨binIdx c iw iv, binIdx_lt hw hv⟩ = (P.map (fun p => pixRow p j)).sum / P.length := by
    intro j
    obtain ⟨e1, e2⟩ := h5 j ⟨binIdx c iw iv, binIdx_lt hw hv⟩
    simp only [hN, hX] at e1 e2
    by_cases h0 : P.length = 0
    · rw [e2 h0, h0]; simp
    · rw [eq_div_iff (by exact_mod_cast h0), e1]
  have hpix : r.1.numPix ⟨binIdx c iw iv, binIdx_lt hw hv⟩ = P.length := by rw [h2]; exact hN
  have hget : ∀ j, at' (r.1.meanRow j) = some (meanRows r.1.numPix mean j ⟨binIdx c iw iv, binIdx_lt hw hv⟩) := by
    intro j
    simp only [at', meanRow, h4, Option.map_some, Option.bind_some]
    exact valid_get c _ hw hv
  have q0 : mean 0 ⟨binIdx c iw iv, binIdx_lt hw hv⟩ = m1 := hmean 0
  have q1 : mean 1 ⟨binIdx c iw iv, binIdx_lt hw hv⟩ = m2 := hmean 1
  have q2 : mean 2 ⟨binIdx c iw iv, binIdx_lt hw hv⟩ = m4 := by
    rw [hmean 2]
    have : (fun p : VPix K => pixRow p 2) = fun p => p.delta ^ 4 := by
      funext p
      change (p.delta ^ 2) ^ 2 = p.delta ^ 4
      ring
    rw [this]
  have q3 : mean 3 ⟨binIdx c iw iv, binIdx_lt hw hv⟩ = (P.map (fun p => 1 / p.ivar)).sum / P.length := by
    rw [hmean 3]
    congr 2
    refine List.map_congr_left fun p hp => ?_
    have hb : InBin c iw iv p := by
      classical
      simp only [P, inBin, List.mem_filter, decide_eq_true_eq] at hp
      exact hp.2
    obtain ⟨-, lo, hi, e1, -, e3, -⟩ := hb
    have : 0 < p.ivar := lt_trans (hc.pos lo (List.mem_of_getElem? e1)) e3
    change pixVar p.ivar = _
    unfold pixVar
    rw [if_pos this]
  refine ⟨h1, ?_, ?_, ?_, ?_, ?_, ?_⟩
  · unfold numPixels
    rw [valid_get c _ hw hv, hpix]
  · unfold numQsos
    rw [valid_get c _ hw hv, h3]
    congr 1
    exact spectraIn_bin hc hw hv _
  · rw [hget, ← q0]; rfl
  · rw [hget, ← q0, ← q1]; rfl
  · rw [hget]
    change some (if 0 < r.1.numPix ⟨binIdx c iw iv, binIdx_lt hw hv⟩ then _ else _) = _
    rw [hpix, q0, q1, q2]
    split
    · rfl
    · next h0 =>
      have h0 : P.length = 0 := by omega
      simp [m1, m2, m4, h0]
  · rw [hget, ← q3]; rfl

omit [Field K] [LinearOrder K] [IsStrictOrderedRing K] [FloorRing K] in
theorem valid_ext {α : Type} {a b : Fin ((c.nv + 2) * (c.nw + 2)) → α}
    (h : ∀ iw iv (hw : iw < c.nw) (hv : iv < c.nv),
      a ⟨binIdx c iw iv, binIdx_lt hw hv⟩ = b ⟨binIdx c iw iv, binIdx_lt hw hv⟩) :
    VarLss.valid c a = VarLss.valid c b := by
  refine List.ext_getElem? fun i => ?_
  by_cases hi : i < c.nw * c.nv
  · have hv : 0 < c.nv := Nat.pos_of_ne_zero (fun h0 => by rw [h0] at hi; omega)
    have e : i = (i / c.nv) * c.nv + i % c.nv := by rw [Nat.mul_comm]; exact (Nat.div_add_mod _ _).symm
    have h1 : i / c.nv < c.nw := Nat.div_lt_of_lt_mul (by rw [Nat.mul_comm]; exact hi)
    have h2 := Nat.mod_lt i hv
    rw [e, valid_get c a h1 h2, valid_get c b h1 h2, h _ _ h1 h2]
  · rw [List.getElem?_eq_none (by rw [valid_length]; omega), List.getElem?_eq_none (by rw [valid_length]; omega)]

/-- **C50.** If the same spectra are distributed over other ranks or given in another order then all counts, mean
deltas, variances and mean pipeline variances are the same. -/
theorem C50_distribution (hc : GoodBins c) {n' : Nat} (h : 0 < n) (h' : 0 < n') (eps eps' : K) (uc uc' : Bool)
    {ranks ranks' : List (List (List (VPix K)))} (hp : ranks.flatten.Perm ranks'.flatten) (r r')
    (hr : r ∈ calculate eps uc (rankObjs c h ranks)) (hr' : r' ∈ calculate eps' uc' (rankObjs c h' ranks')) :
    r.1.numPixels = r'.1.numPixels ∧ r.1.numQsos = r'.1.numQsos ∧ ∀ j, r.1.meanRow j = r'.1.meanRow j := by
  obtain ⟨-, h2, h3, mean, h4, h5⟩ := calculate_stats hc.length h eps uc ranks r hr
  obtain ⟨-, h2', h3', mean', h4', h5'⟩ := calculate_stats hc.length h' eps' uc' ranks' r' hr'
  have e2 : r.1.numPix = r'.1.numPix := by
    funext k
    rw [h2, h2']
    exact (hp.map _).sum_eq
  have e3 : r.1.numQso = r'.1.numQso := by
    funext k
    rw [h3, h3']
    exact hp.countP_eq _
  have e4 : mean = mean' := by
    funext j k
    obtain ⟨a1, a2⟩ := h5 j k
    obtain ⟨b1, b2⟩ := h5' j k
    rw [← (hp.map (fun l => xvecOf c l j k)).sum_eq, ← (hp.map (fun l => npixOf c l k)).sum_eq] at b1
    rw [← (hp.map (fun l => npixOf c l k)).sum_eq] at b2
    by_cases h0 : (ranks.flatten.map (fun l => npixOf c l k)).sum = 0
    · rw [a2 h0, b2 h0]
    · have : (((ranks.flatten.map (fun l => npixOf c l k)).sum : Nat) : K) ≠ 0 := by exact_mod_cast h0
      exact mul_right_cancel₀ this (a1.trans b1.symm)
  refine ⟨by unfold numPixels; rw [e2], by unfold numQsos; rw [e3], fun j => ?_⟩
  unfold meanRow
  rw [h4, h4', e2, e4]

/-- The subsampler columns that a bin uses. -/
def SameColumn {m d : Nat} (k : Fin d) (s t : Subsample K n m d) : Prop :=
  s.isample = t.isample ∧ s.normalized = t.normalized ∧ (∀ i j, s.x i j k = t.x i j k) ∧ ∀ i, s.w i k = t.w i k

omit [IsStrictOrderedRing K] [FloorRing K] [LinearOrder K] in
theorem addAll_column [LinearOrder K] {m d : Nat} (k : Fin d) {l l' : List (Measurement K m d)}
    (hl : List.Forall₂ (fun p p' => (∀ j, p.1 j k = p'.1 j k) ∧ p.2 k = p'.2 k) l l') {s s' t t' : Subsample K n m d}
    (hs : SameColumn k s s') (h : addAll s l = .ok t) (h' : addAll s' l' = .ok t') : SameColumn k t t' := by
  induction hl generalizing s s' with
  | nil => cases h; cases h'; exact hs
  | @cons p p' l l' hp _ ih =>
    unfold addAll at h h'
    rw [List.foldlM_cons] at h h'
    obtain ⟨a, b, x, w⟩ := hs
    unfold Subsample.add at h h'
    by_cases hn : s.normalized = true
    · rw [if_pos hn] at h; cases h
    · rw [if_neg hn] at h
      rw [if_neg (by rw [← b]; exact hn)] at h'
      refine ih ?_ h h'
      refine ⟨by simp only [a], b, fun i j => ?_, fun i => ?_⟩
      · simp only [a]
        by_cases hi : i = s'.isample
        · subst hi; rw [Function.update_self, Function.update_self, x, hp.1]
        · rw [Function.update_of_ne hi, Function.update_of_ne hi, x]
      · simp only [a]
        by_cases hi : i = s'.isample
        · subst hi; rw [Function.update_self, Function.update_self, w, hp.2]
        · rw [Function.update_of_ne hi, Function.update_of_ne hi, w]

omit [IsStrictOrderedRing K] [FloorRing K] in
/-- The statistics of a bin depend on the columns of the bin only. -/
theorem finish_column (eps : K) (uc : Bool) {s s' : VarLss K n c} (k : Fin ((c.nv + 2) * (c.nw + 2)))
    (hm : s.sub.mean = none) (hm' : s'.sub.mean = none) (hs : SameColumn k s.sub s'.sub)
    (hp : s.numPix k = s'.numPix k) (j : Fin 4) :
    (s.finish eps uc).1.sub.mean.map (fun m => m j k) = (s'.finish eps uc).1.sub.mean.map (fun m => m j k) ∧
    (s.finish eps uc).1.sub.variance.map (fun m => m j k) =
      (s'.finish eps uc).1.sub.variance.map (fun m => m j k) := by
  obtain ⟨a, b, x, w⟩ := hs
  unfold VarLss.finish Subsample.getMeanNVar Subsample.ensureMean
  rw [hm, hm']
  by_cases hn : s.sub.normalized = true
  · have hn' : s'.sub.normalized = true := by rw [← b]; exact hn
    cases uc <;>
    simp [Subsample.getMean, Subsample.normalized', hn, hn', finishVar, finishCov, Subsample.getMeanNCov,
      Subsample.ensureMean, Subsample.checkBlock, Subsample.covariances, meanRows, varRows, Subsample.meanOf,
      Subsample.xdiffOf, Subsample.varOf, Subsample.jackMean, Subsample.jackOf, x, w, hp]
  · have hn' : ¬ s'.sub.normalized = true := by rw [← b]; exact hn
    cases uc <;>
    simp [Subsample.getMean, Subsample.normalized', hn, hn', finishVar, finishCov, Subsample.getMeanNCov,
      Subsample.ensureMean, Subsample.checkBlock, Subsample.covariances, meanRows, varRows, Subsample.meanOf,
      Subsample.xdiffOf, Subsample.varOf, Subsample.jackMean, Subsample.jackOf, Subsample.normalize, x, w, hp]

omit [FloorRing K] [IsStrictOrderedRing K] in
theorem inBin_good (hc : GoodBins c) (iw iv : Nat) (l : List (VPix K)) :
    inBin c iw iv (l.filter (fun p => decide (0 < p.ivar))) = inBin c iw iv l := by
  classical
  unfold inBin
  rw [List.filter_filter]
  refine List.filter_congr fun p _ => ?_
  rw [Bool.eq_iff_iff, Bool.and_eq_true, decide_eq_true_iff, decide_eq_true_iff]
  refine ⟨fun h => h.1, fun h => ⟨h, ?_⟩⟩
  obtain ⟨-, lo, hi, e1, -, e3, -⟩ := h
  exact lt_trans (hc.pos lo (List.mem_of_getElem? e1)) e3

/-- Objects with the same content in the used bins. -/
def SameBins (s s' : VarLss K n c) : Prop :=
  s.sub.mean = none ∧ s'.sub.mean = none ∧ ∀ iw iv (hw : iw < c.nw) (hv : iv < c.nv),
    SameColumn ⟨binIdx c iw iv, binIdx_lt hw hv⟩ s.sub s'.sub ∧
    s.numPix ⟨binIdx c iw iv, binIdx_lt hw hv⟩ = s'.numPix ⟨binIdx c iw iv, binIdx_lt hw hv⟩ ∧
    s.numQso ⟨binIdx c iw iv, binIdx_lt hw hv⟩ = s'.numQso ⟨binIdx c iw iv, binIdx_lt hw hv⟩

theorem addList_masked (hc : GoodBins c) (h : 0 < n) (rank size : Nat) (ls : List (List (VPix K))) :
    SameBins ((VarLss.new c h rank size).addList (ls.map (fun l => l.filter (fun p => decide (0 < p.ivar))))).1
      ((VarLss.new c h rank size).addList ls).1 := by
  obtain ⟨t, h1, h2, h3, h4, -⟩ := addList_ok hc.length
    (ls.map (fun l => l.filter (fun p => decide (0 < p.ivar)))) (VarLss.new c h rank size : VarLss K n c) rfl
  obtain ⟨t', h1', h2', h3', h4', -⟩ := addList_ok hc.length ls (VarLss.new c h rank size : VarLss K n c) rfl
  rw [h1, h1']
  refine ⟨(addAll_mean _ h4).trans rfl, (addAll_mean _ h4').trans rfl, fun iw iv hw hv => ⟨?_, ?_, ?_⟩⟩
  · refine addAll_column _ ?_ ⟨rfl, rfl, fun _ _ => rfl, fun _ => rfl⟩ h4 h4'
    rw [List.map_map, List.forall₂_map_left_iff, List.forall₂_map_right_iff]
    refine List.forall₂_same.mpr fun l _ => ⟨fun j => ?_, ?_⟩
    · change xvecOf c _ j (binIdx c iw iv) = xvecOf c _ j (binIdx c iw iv)
      rw [xvecOf_bin hc hw hv, xvecOf_bin hc hw hv, inBin_good hc]
    · change (npixOf c _ (binIdx c iw iv) : K) = (npixOf c _ (binIdx c iw iv) : K)
      rw [npixOf_bin hc hw hv, npixOf_bin hc hw hv, inBin_good hc]
  · rw [h2, h2', List.map_map]
    congr 2
    refine List.map_congr_left fun l _ => ?_
    change npixOf c _ (binIdx c iw iv) = npixOf c _ (binIdx c iw iv)
    rw [npixOf_bin hc hw hv, npixOf_bin hc hw hv, inBin_good hc]
  · rw [h3, h3', List.countP_map]
    congr 1
    refine List.countP_congr fun l _ => ?_
    change decide (0 < npixOf c _ (binIdx c iw iv)) = true ↔ decide (0 < npixOf c _ (binIdx c iw iv)) = true
    rw [npixOf_bin hc hw hv, npixOf_bin hc hw hv, inBin_good hc]

omit [Field K] [LinearOrder K] [IsStrictOrderedRing K] [FloorRing K] in
theorem map_valid {a b : Option (Fin 4 → Fin ((c.nv + 2) * (c.nw + 2)) → K)} {j : Fin 4} (ha : a ≠ none)
    (hb : b ≠ none) (h : ∀ iw iv (hw : iw < c.nw) (hv : iv < c.nv),
      a.map (fun m => m j ⟨binIdx c iw iv, binIdx_lt hw hv⟩) = b.map (fun m => m j ⟨binIdx c iw iv, binIdx_lt hw hv⟩)) :
    a.map (fun m => VarLss.valid c (m j)) = b.map (fun m => VarLss.valid c (m j)) := by
  obtain ⟨a, rfl⟩ := Option.ne_none_iff_exists'.mp ha
  obtain ⟨b, rfl⟩ := Option.ne_none_iff_exists'.mp hb
  simp only [Option.map_some, Option.some.injEq] at h ⊢
  exact valid_ext h

omit [Field K] [LinearOrder K] [IsStrictOrderedRing K] [FloorRing K] in
theorem sum_forall₂ {α M : Type} [AddCommMonoid M] {R : α → α → Prop} {l l' : List α} (h : List.Forall₂ R l l')
    {f : α → M} (hf : ∀ a b, R a b → f a = f b) : (l.map f).sum = (l'.map f).sum := by
  induction h with
  | nil => rfl
  | cons hab _ ih => rw [List.map_cons, List.map_cons, List.sum_cons, List.sum_cons, hf _ _ hab, ih]

/-- **C49.** Masked pixels, those with inverse variance zero, do not contribute: without them every rank has the
same counts, statistics and errors. -/
theorem C49_masked (hc : GoodBins c) (h : 0 < n) (eps : K) (uc : Bool) (ranks : List (List (List (VPix K)))) :
    List.Forall₂ (fun r r' : VarLss K n c × Option Err =>
        r.1.numPixels = r'.1.numPixels ∧ r.1.numQsos = r'.1.numQsos ∧
        (∀ j, r.1.meanRow j = r'.1.meanRow j) ∧ ∀ j, r.1.errRow j = r'.1.errRow j)
      (calculate eps uc (rankObjs c h
        (ranks.map (fun ls => ls.map (fun l => l.filter (fun p => decide (0 < p.ivar)))))))
      (calculate eps uc (rankObjs c h ranks)) := by
  have key : List.Forall₂ (fun s s' : VarLss K n c => SameBins s s' ∧ s.calculated = false ∧ s'.calculated = false)
      (rankObjs c h (ranks.map (fun ls => ls.map (fun l => l.filter (fun p => decide (0 < p.ivar))))))
      (rankObjs c h ranks) := by
    unfold rankObjs
    rw [List.zipIdx_map, List.map_map, List.length_map, List.forall₂_map_left_iff, List.forall₂_map_right_iff]
    refine List.forall₂_same.mpr fun r _ => ⟨addList_masked hc h r.2 ranks.length r.1, ?_, ?_⟩
    · obtain ⟨t, h1, -, -, -, h5⟩ := addList_ok hc.length
        (r.1.map (fun l => l.filter (fun p => decide (0 < p.ivar)))) (VarLss.new c h r.2 ranks.length : VarLss K n c) rfl
      change ((VarLss.new c h r.2 ranks.length : VarLss K n c).addList
        (r.1.map (fun l => l.filter (fun p => decide (0 < p.ivar))))).1.calculated = false
      rw [h1]; exact h5
    · obtain ⟨t, h1, -, -, -, h5⟩ := addList_ok hc.length r.1 (VarLss.new c h r.2 ranks.length : VarLss K n c) rfl
      rw [h1]; exact h5
  generalize (rankObjs c h (ranks.map (fun ls => ls.map (fun l => l.filter (fun p => decide (0 < p.ivar))))) :
    List (VarLss K n c)) = objs at key
  generalize (rankObjs c h ranks : List (VarLss K n c)) = objs' at key
  have c1 : objs.head?.any (·.calculated) = false ∧ objs'.head?.any (·.calculated) = false := by
    cases key with
    | nil => exact ⟨rfl, rfl⟩
    | cons hab _ => simp [hab.2.1, hab.2.2]
  unfold VarLss.calculate
  rw [if_neg (by rw [c1.1]; simp), if_neg (by rw [c1.2]; simp), allreduce_eq, allreduce_eq]
  rw [List.map_map, List.map_map, List.forall₂_map_left_iff, List.forall₂_map_right_iff]
  refine key.imp fun s s' hss => ?_
  simp only [Function.comp_apply]
  obtain ⟨⟨m1, m2, hcol⟩, -, -⟩ := hss
  have hx : ∀ iw iv (hw : iw < c.nw) (hv : iv < c.nv), ∀ i j,
      ((objs.map (·.sub)).map (fun s => s.x i j ⟨binIdx c iw iv, binIdx_lt hw hv⟩)).sum =
      ((objs'.map (·.sub)).map (fun s => s.x i j ⟨binIdx c iw iv, binIdx_lt hw hv⟩)).sum := by
    intro iw iv hw hv i j
    rw [List.map_map, List.map_map]
    exact sum_forall₂ key fun a b hab => (hab.1.2.2 iw iv hw hv).1.2.2.1 i j
  have hwt : ∀ iw iv (hw : iw < c.nw) (hv : iv < c.nv), ∀ i,
      ((objs.map (·.sub)).map (fun s => s.w i ⟨binIdx c iw iv, binIdx_lt hw hv⟩)).sum =
      ((objs'.map (·.sub)).map (fun s => s.w i ⟨binIdx c iw iv, binIdx_lt hw hv⟩)).sum := by
    intro iw iv hw hv i
    rw [List.map_map, List.map_map]
    exact sum_forall₂ key fun a b hab => (hab.1.2.2 iw iv hw hv).1.2.2.2 i
  have hpix : ∀ iw iv (hw : iw < c.nw) (hv : iv < c.nv),
      (objs.map (fun s => s.numPix ⟨binIdx c iw iv, binIdx_lt hw hv⟩)).sum =
      (objs'.map (fun s => s.numPix ⟨binIdx c iw iv, binIdx_lt hw hv⟩)).sum :=
    fun iw iv hw hv => sum_forall₂ key fun a b hab => (hab.1.2.2 iw iv hw hv).2.1
  have hqso : ∀ iw iv (hw : iw < c.nw) (hv : iv < c.nv),
      (objs.map (fun s => s.numQso ⟨binIdx c iw iv, binIdx_lt hw hv⟩)).sum =
      (objs'.map (fun s => s.numQso ⟨binIdx c iw iv, binIdx_lt hw hv⟩)).sum :=
    fun iw iv hw hv => sum_forall₂ key fun a b hab => (hab.1.2.2 iw iv hw hv).2.2
  obtain ⟨S, hS⟩ : ∃ S : VarLss K n c, S = { s with
    sub := { s.sub with
      x := fun i j k => ((objs.map (·.sub)).map (fun s => s.x i j k)).sum
      w := fun i k => ((objs.map (·.sub)).map (fun s => s.w i k)).sum }
    numPix := fun k => (objs.map (fun s => s.numPix k)).sum
    numQso := fun k => (objs.map (fun s => s.numQso k)).sum } := ⟨_, rfl⟩
  obtain ⟨S', hS'⟩ : ∃ S' : VarLss K n c, S' = { s' with
    sub := { s'.sub with
      x := fun i j k => ((objs'.map (·.sub)).map (fun s => s.x i j k)).sum
      w := fun i k => ((objs'.map (·.sub)).map (fun s => s.w i k)).sum }
    numPix := fun k => (objs'.map (fun s => s.numPix k)).sum
    numQso := fun k => (objs'.map (fun s => s.numQso k)).sum } := ⟨_, rfl⟩
  rw [← hS, ← hS']
  have M : S.sub.mean = none := by rw [hS]; exact m1
  have M' : S'.sub.mean = none := by rw [hS']; exact m2
  have P : ∀ iw iv (hw : iw < c.nw) (hv : iv < c.nv),
      S.numPix ⟨binIdx c iw iv, binIdx_lt hw hv⟩ = S'.numPix ⟨binIdx c iw iv, binIdx_lt hw hv⟩ := by
    intro iw iv hw hv; rw [hS, hS']; exact hpix iw iv hw hv
  have Q : ∀ iw iv (hw : iw < c.nw) (hv : iv < c.nv),
      S.numQso ⟨binIdx c iw iv, binIdx_lt hw hv⟩ = S'.numQso ⟨binIdx c iw iv, binIdx_lt hw hv⟩ := by
    intro iw iv hw hv; rw [hS, hS']; exact hqso iw iv hw hv
  have C : ∀ iw iv (hw : iw < c.nw) (hv : iv < c.nv),
      SameColumn ⟨binIdx c iw iv, binIdx_lt hw hv⟩ S.sub S'.sub := by
    intro iw iv hw hv
    rw [hS, hS']
    exact ⟨(hcol iw iv hw hv).1.1, (hcol iw iv hw hv).1.2.1, hx iw iv hw hv, hwt iw iv hw hv⟩
  obtain ⟨t, mean, f1, -, f3, f4, f5, -, f6⟩ := finish_fresh eps uc M
  obtain ⟨t', mean', f1', -, f3', f4', f5', -, f6'⟩ := finish_fresh eps uc M'
  refine ⟨?_, ?_, fun j => ?_, fun j => ?_⟩
  · unfold numPixels
    rw [f1, f1', f3, f3']
    exact valid_ext P
  · unfold numQsos
    rw [f1, f1', f4, f4']
    exact valid_ext Q
  · refine map_valid (by rw [f1, f5]; simp) (by rw [f1', f5']; simp) fun iw iv hw hv => ?_
    exact (finish_column eps uc _ M M' (C iw iv hw hv) (P iw iv hw hv) j).1
  · refine map_valid (by rw [f1]; exact f6) (by rw [f1']; exact f6') fun iw iv hw hv => ?_
    exact (finish_column eps uc _ M M' (C iw iv hw hv) (P iw iv hw hv) j).2

omit [IsStrictOrderedRing K] in
/-- **C49.** After the statistics are calculated `add` is refused, but the pixels of the refused spectrum are
counted nevertheless. -/
theorem C49_refused_add (hc : GoodBins c) {s : VarLss K n c} (hs : s.sub.normalized = true) (l : List (VPix K)) :
    (s.add l).2 = some .runtimeError ∧ (s.add l).1.sub = s.sub ∧ (s.add l).1.numQso = s.numQso ∧
      ∑ k, (s.add l).1.numPix k = ∑ k, s.numPix k + l.length := by
  have hall : l.all (fun p => decide (c.allIdx p.wave p.ivar < c.minlength)) = true := by
    rw [List.all_eq_true]
    intro p _
    exact decide_eq_true (allIdx_lt hc.length _ _)
  have e : s.add l = ({ s with numPix := fun k => s.numPix k + npixOf c l k }, some .runtimeError) := by
    unfold VarLss.add
    rw [if_pos hall]
    unfold Subsample.add
    rw [if_pos hs]
  rw [e]
  refine ⟨rfl, rfl, rfl, ?_⟩
  simp only [Finset.sum_add_distrib, sum_npixOf hc.length]

/-- Two wavelength bins and two variance bins. -/
def c48Cfg : VarCfg ℚ := { w1 := 3600, w2 := 3840, nw := 2, nv := 2, edges := [1 / 2, 1, 4] }

example : GoodBins c48Cfg :=
  ⟨by decide +kernel, by decide, by decide, by decide +kernel, by decide +kernel⟩

/-- Two spectra on the first rank, one on the second. -/
def c48Ranks : List (List (List (VPix ℚ))) :=
  [[[⟨3600, 1, 1⟩, ⟨3719, 3, 2⟩, ⟨3720, 5, 2⟩], [⟨3650, 2, 0⟩, ⟨3650, 7, 3 / 4⟩]],
   [[⟨3839, -1, 4⟩, ⟨3840, 9, 4⟩, ⟨3700, 4, 1⟩]]]

/-- The pixels with ivar 0 and at 3840 are in no used bin. -/
example : (calculate 0 false (rankObjs c48Cfg (n := 2) (by decide) c48Ranks)).map
    (fun r => (r.1.numPixels, r.1.numQsos, r.1.meanRow 0)) =
    [([3, 1, 0, 2], [3, 1, 0, 2], some [4, 3, 0, 2]), ([3, 1, 0, 2], [3, 1, 0, 2], some [4, 3, 0, 2])] := by
  decide +kernel

end Verif.Props
