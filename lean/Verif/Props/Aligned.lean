import Verif.Proofs.Snr
import Verif.Props.Spectrum
import Verif.Props.Masks
import Mathlib.Algebra.BigOperators.Ring.List
import Mathlib.Tactic.NormNum
import Mathlib.Tactic.Positivity

/-!
# C23, C68, C69: usable arms, forest signal-to-noise
-/

namespace Verif.Props
open Verif.Np Verif.Model Verif.Proofs Verif.Spec List Spectrum

variable {K : Type} [Field K] [LinearOrder K] [FloorRing K]

/-! ### C23 -/

/-- **C23.** After any sequence of forest operations (setting the region, dropping short arms or an arm,
applying masks, smoothing, removing the pixels outside the forest) on a new spectrum, all arrays of an arm of the forest
have the length of its wavelengths, no dictionary has other arms, the wavelengths increase, and every arm
has a good pixel. -/
theorem C23_usable_arms [IsStrictOrderedRing K] (sqrt : K → K) (eps : K) (sm : List K → K → List K)
    (hsm : ∀ v x, (sm v x).length = v.length) (dlaFlux : K → K → K → K) {z dwave : K} (hz : 0 < 1 + z) {wave flux ivar : Dict (List K)}
    {reso : Dict (List (List K))} (hs : DataOk (blank z dwave wave flux ivar reso))
    (ops : List (ForestOp K)) :
    let t := ops.foldl (ForestOp.run sqrt eps sm dlaFlux) (blank z dwave wave flux ivar reso)
    Aligned t ∧ ∀ arm ∈ t.fivar.keys, HasGood (t.fivar.arr arm) := by
  have h0 : Inv (blank z dwave wave flux ivar reso) := by
    refine ⟨hs, ⟨List.nodup_nil, rfl, rfl, rfl, rfl, by simp [blank], ?_, ?_, ?_, ?_, ?_, ?_⟩,
      by simp [blank], Or.inr (Or.inr rfl), hz⟩ <;>
    · intro arm w hw
      simp [blank] at hw
  have h : ∀ s : Spectrum K, Inv s → Inv (ops.foldl (ForestOp.run sqrt eps sm dlaFlux) s) := by
    induction ops with
    | nil => exact fun s hs => hs
    | cons op ops ih => exact fun s hs => ih _ (run_inv sqrt eps sm hsm dlaFlux hs op)
  exact ⟨(h _ h0).aligned, (h _ h0).good⟩

/-- A spectrum through a region, a cut, smoothing and another region. -/
def c23Ops : List (ForestOp ℚ) :=
  [.region 3101 3104 1000 1200, .dropShort 1000 1001 (1 / 2), .smooth 2, .region 3100 3103 1000 1200,
   .masks ⟨1, [], [], [], []⟩ [.sky [⟨3099, 3101, "OBS"⟩]], .removeNonforest]

example : DataOk c22Spec ∧
    (c23Ops.foldl (ForestOp.run id (1 / 1000000) (fun v _ => v) (fun _ _ _ => 1)) c22Spec).fwave =
      [("b", [3100, 3101, 3102])] ∧
    (c23Ops.foldl (ForestOp.run id (1 / 1000000) (fun v _ => v) (fun _ _ _ => 1)) c22Spec).fivar =
      [("b", [0, 0, 3])] :=
  ⟨c22Spec_ok.1, by decide +kernel⟩

/-- **C22, what does not hold for a second call.** `set_forest_region` on a spectrum that already has a
forest leaves an arm without good pixel in the new region as it is: the forest then has pixels outside
the region. -/
theorem C22_second_call_stale :
    let t := c22Spec.setForestRegion id (1 / 1000000) 3101 3104 1000 1200
    let u := t.setForestRegion id (1 / 1000000) 9000 9002 1000 4000
    DataOk t ∧ u.fwave = [("b", [3101, 3102, 3103]), ("r", [3102, 3103]), ("z", [9000, 9001])] ∧
    ¬ InForest t.z 9000 9002 1000 4000 (3101 : ℚ) := by
  refine ⟨dataOk_congr (setForestRegion_sameData _ _ _ _ _ _ _) c22Spec_ok.1, by decide +kernel,
    by decide +kernel⟩

/-- **C38.** After masking, every arm left in the forest has a good pixel; an arm whose pixels are all
masked is gone. -/
theorem C38_no_empty_arm [IsStrictOrderedRing K] {s : Spectrum K} (hs : Aligned s) (hz : 0 < 1 + s.z)
    (dlaFlux : K → K → K → K) (row : MaskRow K) {l : List (Masker K)} (hl : l ≠ []) :
    let t := l.foldl (fun t m => m.apply dlaFlux row t) s
    let u := applyMasks dlaFlux row l s
    ∀ arm, arm ∈ u.fwave.keys ↔ arm ∈ s.fwave.keys ∧ HasGood (t.fivar.arr arm) := by
  intro t u arm
  have hA : Aligned t := by
    have e : t = _ := maskers_foldl_eq dlaFlux row l hs hz
    rw [e]
    exact aligned_updAll hs (fun _ _ h => length_scaled _ h) (fun _ _ h => length_scaled _ h)
  have hk : t.fwave.keys = s.fwave.keys := by
    have e : t = _ := maskers_foldl_eq dlaFlux row l hs hz
    rw [e]
    rfl
  have hn : t.fivar.keys.Nodup := by rw [hA.ivarKeys]; exact hA.nodup
  have hu : u = t.dropShortArms 0 0 0 := by
    cases l with
    | nil => exact absurd rfl hl
    | cons m l => rfl
  have hAu : Aligned u := by rw [hu]; exact dropArms_aligned _ hA
  have h := C24_drop_empty_arms hn arm
  rw [← hu, hAu.ivarKeys, hA.ivarKeys, hk] at h
  constructor
  · intro ha
    have hs' : arm ∈ s.fwave.keys := by
      rw [hu] at ha
      obtain ⟨h1, -⟩ := foldl_dropArm (shortArms t 0 0 0) t
      have ha' : arm ∈ ((shortArms t 0 0 0).foldl dropArm t).fwave.keys := ha
      rw [h1, keys_foldl_pop, List.mem_filter, hk] at ha'
      exact ha'.1
    exact ⟨hs', (h hs').mp ha⟩
  · rintro ⟨h1, h2⟩
    exact (h h1).mpr h2

/-- The mask covers the second arm. -/
example : (applyMasks (fun _ _ _ => 1) ⟨1, [], [], [], []⟩ [.sky [⟨8000, 9500, "OBS"⟩]]
    (c22Spec.setForestRegion id (1 / 1000000) 3101 9100 1000 4000)).fwave.keys = ["b", "r"] := by
  decide +kernel

/-! ### C68 -/

/-- **C68.** After `set_forest_region` there is a mean signal-to-noise for exactly the arms of the forest,
in their order, and it is the mean of `sqrt(ivar) * flux` over the good pixels of the arm. -/
theorem C68_mean_snr [IsStrictOrderedRing K] (sqrt : K → K) (h0 : ∀ v, v ≤ 0 → sqrt v = 0) (eps : K) (sm : List K → K → List K)
    (hsm : ∀ v x, (sm v x).length = v.length) (dlaFlux : K → K → K → K) {z dwave : K} (hz : 0 < 1 + z) {wave flux ivar : Dict (List K)}
    {reso : Dict (List (List K))} (hs : DataOk (blank z dwave wave flux ivar reso))
    (ops : List (ForestOp K)) (w1 w2 lya1 lya2 : K) :
    let t := (ops.foldl (ForestOp.run sqrt eps sm dlaFlux) (blank z dwave wave flux ivar reso)).setForestRegion
      sqrt eps w1 w2 lya1 lya2
    t.meanSnr.keys = t.fwave.keys ∧
    ∀ arm ∈ t.fwave.keys,
      t.meanSnr.lookup arm = some (meanSnrOf sqrt (t.fflux.arr arm) (t.fivar.arr arm)) := by
  intro t
  have hinv := C23_usable_arms sqrt eps sm hsm dlaFlux hz hs (ops ++ [.region w1 w2 lya1 lya2])
  rw [List.foldl_append] at hinv
  have hA : Aligned t := hinv.1
  have hn : t.fivar.keys.Nodup := by rw [hA.ivarKeys]; exact hA.nodup
  have hm : t.meanSnr = t.fivar.mapVals (fun arm v => snrOf sqrt (t.fflux.arr arm) v) :=
    (related_eq sqrt eps _ hn).2
  refine ⟨by rw [hm, keys_mapVals, hA.ivarKeys], fun arm ha => ?_⟩
  rw [hm, lookup_mapVals, lookup_eq_arr (by rw [hA.ivarKeys]; exact ha)]
  simp only [Option.map_some, snrOf_eq sqrt h0]

/-- **C68.** The initial amplitude is not negative, not above the largest flux, and positive as soon as a
good pixel has positive flux. -/
theorem C68_initial_amplitude [IsStrictOrderedRing K] (sqrt : K → K) {eps : K} (he : 0 < eps)
    {s : Spectrum K} (hA : Aligned s) (hv : ∀ arm ∈ s.fivar.keys, ∀ v ∈ s.fivar.arr arm, 0 ≤ v) {B : K}
    (hB0 : 0 ≤ B) (hB : ∀ arm ∈ s.fflux.keys, ∀ f ∈ s.fflux.arr arm, f ≤ B) :
    let x0 := (setForestRelatedParameters sqrt eps s).x0
    0 ≤ x0 ∧ x0 ≤ B ∧ (∀ arm ∈ s.fwave.keys, ∀ (i : Nat) (f v : K),
      (s.fflux.arr arm)[i]? = some f → (s.fivar.arr arm)[i]? = some v → 0 < f → 0 < v → 0 < x0) := by
  intro x0
  have hn : s.fivar.keys.Nodup := by rw [hA.ivarKeys]; exact hA.nodup
  have hx : x0 = _ := (related_eq sqrt eps s hn).1
  have hb : ∀ x ∈ s.fivar, 0 ≤ x0Num (s.fflux.arr x.1) x.2 ∧ 0 ≤ x0Den (s.fflux.arr x.1) x.2 ∧
      x0Num (s.fflux.arr x.1) x.2 ≤ B * x0Den (s.fflux.arr x.1) x.2 ∧
      (∀ (i : Nat) (f v : K), (s.fflux.arr x.1)[i]? = some f → x.2[i]? = some v → 0 < f → 0 < v →
        0 < x0Num (s.fflux.arr x.1) x.2) := by
    intro x hx
    have hk : x.1 ∈ s.fivar.keys := List.mem_map.mpr ⟨x, hx, rfl⟩
    have hl := arr_of_lookup (lookup_of_mem hn (a := x.1) (v := x.2) hx)
    refine x0_bounds ?_ ?_
    · have := hv x.1 hk; rw [hl] at this; exact this
    · exact hB x.1 (by rw [hA.fluxKeys, ← hA.ivarKeys]; exact hk)
  generalize hN : s.fivar.map (fun x => x0Num (s.fflux.arr x.1) x.2) = N at hx
  generalize hD : s.fivar.map (fun x => x0Den (s.fflux.arr x.1) x.2) = D at hx
  have hNn : 0 ≤ N.sum := by
    refine List.sum_nonneg fun y hy => ?_
    rw [← hN] at hy
    obtain ⟨x, hx, rfl⟩ := List.mem_map.mp hy
    exact (hb x hx).1
  have hDn : 0 ≤ D.sum := by
    refine List.sum_nonneg fun y hy => ?_
    rw [← hD] at hy
    obtain ⟨x, hx, rfl⟩ := List.mem_map.mp hy
    exact (hb x hx).2.1
  have hle : N.sum ≤ B * D.sum := by
    rw [← hN, ← hD, ← List.sum_map_mul_left]
    exact List.sum_le_sum (fun x hx => (hb x hx).2.2.1)
  have hpos : 0 < eps + D.sum := by linarith
  rw [hx]
  refine ⟨div_nonneg hNn hpos.le, ?_, ?_⟩
  · rw [div_le_iff₀ hpos]
    nlinarith [mul_nonneg hB0 he.le]
  · intro arm ha i f v hf hv' hf0 hv0
    have hk : arm ∈ s.fivar.keys := by rw [hA.ivarKeys]; exact ha
    have hm := mem_of_lookup (lookup_eq_arr hk)
    have h1 := (hb _ hm).2.2.2 i f v hf hv' hf0 hv0
    refine div_pos (lt_of_lt_of_le h1 ?_) hpos
    rw [← hN]
    refine List.single_le_sum (fun y hy => ?_) _ (List.mem_map.mpr ⟨_, hm, rfl⟩)
    obtain ⟨x, hx, rfl⟩ := List.mem_map.mp hy
    exact (hb x hx).1

/-- **C68.** Flux in masked pixels has no influence on signal-to-noise and initial amplitude: two
spectra with the same ivar whose flux agrees in the good pixels have the same. -/
theorem C68_masked_flux [IsStrictOrderedRing K] (sqrt : K → K) (h0 : ∀ v, v ≤ 0 → sqrt v = 0) (eps : K)
    {s t : Spectrum K} (hA : Aligned s) (hv : ∀ arm ∈ s.fivar.keys, ∀ v ∈ s.fivar.arr arm, 0 ≤ v)
    (hi : t.fivar = s.fivar)
    (hf : ∀ arm ∈ s.fwave.keys, AgreeGood (s.fivar.arr arm) (s.fflux.arr arm) (t.fflux.arr arm)) :
    (setForestRelatedParameters sqrt eps t).x0 = (setForestRelatedParameters sqrt eps s).x0 ∧
    (setForestRelatedParameters sqrt eps t).meanSnr = (setForestRelatedParameters sqrt eps s).meanSnr := by
  have hn : s.fivar.keys.Nodup := by rw [hA.ivarKeys]; exact hA.nodup
  have hs := related_eq sqrt eps s hn
  have ht := related_eq sqrt eps t (by rw [hi]; exact hn)
  rw [hs.1, hs.2, ht.1, ht.2, hi]
  have key : ∀ x ∈ s.fivar,
      x0Num (t.fflux.arr x.1) x.2 = x0Num (s.fflux.arr x.1) x.2 ∧
      x0Den (t.fflux.arr x.1) x.2 = x0Den (s.fflux.arr x.1) x.2 ∧
      snrOf sqrt (t.fflux.arr x.1) x.2 = snrOf sqrt (s.fflux.arr x.1) x.2 := by
    intro x hx
    have hk : x.1 ∈ s.fivar.keys := List.mem_map.mpr ⟨x, hx, rfl⟩
    have hl := arr_of_lookup (lookup_of_mem hn (a := x.1) (v := x.2) hx)
    have hvx := hv x.1 hk
    have hfx := hf x.1 (by rw [← hA.ivarKeys]; exact hk)
    rw [hl] at hvx hfx
    have e := agreeGood_filter hfx
    rw [(x0_good hvx).1, (x0_good hvx).1, (x0_good hvx).2, (x0_good hvx).2, snrOf_eq sqrt h0,
      snrOf_eq sqrt h0]
    unfold meanSnrOf
    rw [e]
    exact ⟨rfl, rfl, rfl⟩
  have e1 : s.fivar.map (fun x => x0Num (t.fflux.arr x.1) x.2) =
      s.fivar.map (fun x => x0Num (s.fflux.arr x.1) x.2) :=
    List.map_congr_left fun x hx => (key x hx).1
  have e2 : s.fivar.map (fun x => x0Den (t.fflux.arr x.1) x.2) =
      s.fivar.map (fun x => x0Den (s.fflux.arr x.1) x.2) :=
    List.map_congr_left fun x hx => (key x hx).2.1
  rw [e1, e2]
  refine ⟨rfl, ?_⟩
  unfold Dict.mapVals
  exact List.map_congr_left fun x hx => by simp only [(key x hx).2.2]

/-- **C68.** The effective signal-to-noise of arms with nonnegative values is nonnegative, at most the
largest, and zero only if all are. -/
theorem C68_effective_snr [IsStrictOrderedRing K] {eps : K} (he : 0 < eps) {s : Spectrum K} {m : K}
    (hm0 : 0 ≤ m) (h : ∀ x ∈ s.meanSnr, 0 ≤ x.2 ∧ x.2 ≤ m) :
    0 ≤ s.effectiveMeansnr eps ∧ s.effectiveMeansnr eps ≤ m ∧
    (s.effectiveMeansnr eps = 0 ↔ ∀ x ∈ s.meanSnr, x.2 = 0) := by
  unfold effectiveMeansnr
  have h2 : 0 ≤ (s.meanSnr.map (fun x => x.2 ^ 2)).sum := by
    refine List.sum_nonneg fun y hy => ?_
    obtain ⟨x, _, rfl⟩ := List.mem_map.mp hy
    positivity
  have h3 : ∀ y ∈ s.meanSnr.map (fun x => x.2 ^ 3), 0 ≤ y := by
    intro y hy
    obtain ⟨x, hx, rfl⟩ := List.mem_map.mp hy
    exact pow_nonneg (h x hx).1 3
  have hpos : 0 < eps + (s.meanSnr.map (fun x => x.2 ^ 2)).sum := by linarith
  refine ⟨div_nonneg (List.sum_nonneg h3) hpos.le, ?_, ?_⟩
  · rw [div_le_iff₀ hpos]
    have : (s.meanSnr.map (fun x => x.2 ^ 3)).sum ≤ m * (s.meanSnr.map (fun x => x.2 ^ 2)).sum := by
      rw [← List.sum_map_mul_left]
      refine List.sum_le_sum fun x hx => ?_
      have := (h x hx).2
      rw [pow_succ, mul_comm]
      exact mul_le_mul_of_nonneg_right this (by positivity)
    nlinarith [mul_nonneg hm0 he.le]
  · rw [div_eq_zero_iff]
    constructor
    · rintro (h0 | h0)
      · intro x hx
        have hle := List.single_le_sum h3 _ (List.mem_map.mpr ⟨x, hx, rfl⟩)
        rw [h0] at hle
        have := le_antisymm hle (pow_nonneg (h x hx).1 3)
        exact pow_eq_zero_iff (by norm_num) |>.mp this
      · exact absurd h0 hpos.ne'
    · intro h0
      left
      have : s.meanSnr.map (fun x => x.2 ^ 3) = s.meanSnr.map (fun _ => (0 : K)) :=
        List.map_congr_left fun x hx => by rw [h0 x hx]; ring
      rw [this]
      simp

/-- Mean signal-to-noise 2 and 5/2, initial amplitude and effective value. -/
example : let t := c22Spec.setForestRegion (fun v => if v ≤ 0 then 0 else v) (1 / 1000000) 3101 3104 1000 1200
    t.meanSnr = [("b", (3 * 3 + 1 * 4) / 2), ("r", 6)] ∧
    t.x0 = (3 * 3 + 4 + 6) / (1 / 1000000 + 5) ∧ 6 ≤ t.effectiveMeansnr (1 / 100000000) := by
  decide +kernel

/-! ### C69 -/

/-- **C69, partial.** The signal-to-noise that the cut uses is that of the region when it was set: as long
as only the region is set and nothing is masked or dropped afterwards it is that of the forest (this is
`C68_mean_snr`). Missing: pixels masked and arms dropped later still count, see
`C69_masked_still_counts_refuted`. -/
theorem C69_snr_of_region_partial [IsStrictOrderedRing K] (sqrt : K → K) (h0 : ∀ v, v ≤ 0 → sqrt v = 0) (eps eps' : K) {z dwave : K} (hz : 0 < 1 + z)
    {wave flux ivar : Dict (List K)} {reso : Dict (List (List K))}
    (hs : DataOk (blank z dwave wave flux ivar reso)) (w1 w2 lya1 lya2 : K) :
    let t := ((blank z dwave wave flux ivar reso).setForestRegion sqrt eps w1 w2 lya1
      lya2).removeNonforestPixels
    t.effectiveMeansnr eps' =
      (t.fwave.keys.map (fun a => meanSnrOf sqrt (t.fflux.arr a) (t.fivar.arr a) ^ 3)).sum /
      (eps' + (t.fwave.keys.map (fun a => meanSnrOf sqrt (t.fflux.arr a) (t.fivar.arr a) ^ 2)).sum) := by
  intro t
  have h := C68_mean_snr sqrt h0 eps (fun v _ => v) (fun _ _ => rfl) (fun _ _ _ => 1) hz hs [] w1 w2 lya1 lya2
  have hA := (C23_usable_arms sqrt eps (fun v _ => v) (fun _ _ => rfl) (fun _ _ _ => 1) hz hs [.region w1 w2 lya1 lya2]).1
  dsimp only [List.foldl_nil, List.foldl_cons, ForestOp.run] at h hA
  have e : t.meanSnr = t.fwave.keys.map (fun a => (a, meanSnrOf sqrt (t.fflux.arr a) (t.fivar.arr a))) := by
    have hkm : t.meanSnr.keys = t.fwave.keys := h.1
    refine eq_of_keys_of_lookup (by rw [hkm]; exact hA.nodup) ?_ ?_
    · rw [hkm]
      unfold Dict.keys
      rw [List.map_map]
      exact (List.map_id _).symm
    · intro a ha
      rw [hkm] at ha
      have h2 : t.meanSnr.lookup a = some (meanSnrOf sqrt (t.fflux.arr a) (t.fivar.arr a)) := h.2 a ha
      rw [h2]
      symm
      refine lookup_of_mem ?_ (List.mem_map.mpr ⟨a, ha, rfl⟩)
      unfold Dict.keys
      rw [List.map_map]
      have : ((Prod.fst : String × K → String) ∘ fun a => (a, meanSnrOf sqrt (t.fflux.arr a) (t.fivar.arr a)))
          = id := rfl
      rw [this, List.map_id]
      exact hA.nodup
  unfold effectiveMeansnr
  rw [e, List.map_map, List.map_map]
  rfl

/-- **C69, refuted.** The signal-to-noise cut of the pipeline uses pixels that are no longer there: an arm
dropped because it is short still counts, and the spectrum passes a cut that its remaining forest does not
reach. -/
theorem C69_masked_still_counts_refuted : ∃ s : Spectrum ℚ, DataOk s ∧ Fresh s ∧
    (let t := (s.setForestRegion (fun v => if v ≤ 0 then 0 else v) (1 / 1000000) 3101 3104 1000
      1200).dropShortArms 1000 1001 (1 / 2)
    t.fwave.keys = ["b"] ∧ meanSnrOf (fun v => if v ≤ 0 then 0 else v) (t.fflux.arr "b")
      (t.fivar.arr "b") = 1 ∧ 5 < t.effectiveMeansnr (1 / 100000000)) := by
  refine ⟨blank 2 1 [("b", [3101, 3102]), ("r", [3102, 3103])] [("b", [1, 1]), ("r", [6, 6])]
    [("b", [1, 1]), ("r", [0, 1])] [], ⟨by decide, ?_, ?_, ?_, ?_⟩, ⟨rfl, rfl, rfl, rfl⟩, by decide +kernel⟩
  all_goals
    intro arm w hw
    have hm := mem_of_lookup hw
    simp only [blank, List.mem_cons, Prod.mk.injEq, List.not_mem_nil, or_false] at hm
    rcases hm with ⟨rfl, rfl⟩ | ⟨rfl, rfl⟩ <;> decide

/-! ### C70 -/

omit [FloorRing K] in
theorem drop_searchsorted {α : Type} {wave : List K} (h : wave.Pairwise (· < ·)) (l : K) {y : List α}
    (hy : y.length = wave.length) :
    y.drop (searchsorted wave l) = pixelsWhere (fun w => l ≤ w) wave y := by
  induction wave generalizing y with
  | nil => simp at hy; simp [hy, pixelsWhere_nil]
  | cons w ws ih =>
    obtain ⟨a, y', rfl⟩ : ∃ a y', y = a :: y' := by
      cases y with
      | nil => simp at hy
      | cons a y' => exact ⟨a, y', rfl⟩
    rw [List.pairwise_cons] at h
    have hy' : y'.length = ws.length := by simpa using hy
    rw [searchsorted_cons, pixelsWhere_cons]
    by_cases hl : l ≤ w
    · rw [if_pos hl, if_pos hl, List.drop_zero, ← ih h.2 hy']
      have : searchsorted ws l = 0 := by
        cases ws with
        | nil => rfl
        | cons v vs =>
          rw [searchsorted_cons, if_pos (hl.trans (h.1 v List.mem_cons_self).le)]
      rw [this, List.drop_zero]
    · rw [if_neg hl, if_neg hl, List.drop_succ_cons, ih h.2 hy']

omit [FloorRing K] in
/-- **C70.** The signal-to-noise of the red side is the mean of `sqrt(ivar) * flux` over the pixels at or
above the Lyman alpha line of the quasar with positive ivar, of all arms; nothing below the line counts. -/
theorem C70_rsnr (sqrt : K → K) (hs : ∀ v, 0 < sqrt v ↔ 0 < v) (h0 : ∀ v, ¬ 0 < v → sqrt v = 0)
    (eps lya z : K) {wave flux ivar : Dict (List K)}
    (hw : ∀ x ∈ wave, x.2.Pairwise (· < ·) ∧ (flux.arr x.1).length = x.2.length ∧
      (ivar.arr x.1).length = x.2.length) :
    rsnr sqrt eps lya z wave flux ivar =
      (wave.map (fun x => (((flux.arr x.1).zip (ivar.arr x.1)).zip x.2 |>.filter
        (fun p => decide ((1 + z) * lya ≤ p.2 ∧ 0 < p.1.2)) |>.map
        (fun p => p.1.1 * sqrt p.1.2)).sum)).sum /
      (eps + (((wave.map (fun x => ((ivar.arr x.1).zip x.2).countP
        (fun p => decide ((1 + z) * lya ≤ p.2 ∧ 0 < p.1)))).sum : Nat) : K)) := by
  have key : ∀ x ∈ wave, rsnrArm sqrt ((1 + z) * lya) x.2 (flux.arr x.1) (ivar.arr x.1) =
      ((((flux.arr x.1).zip (ivar.arr x.1)).zip x.2 |>.filter
        (fun p => decide ((1 + z) * lya ≤ p.2 ∧ 0 < p.1.2)) |>.map (fun p => p.1.1 * sqrt p.1.2)).sum,
        ((ivar.arr x.1).zip x.2).countP (fun p => decide ((1 + z) * lya ≤ p.2 ∧ 0 < p.1))) := by
    intro x hx
    obtain ⟨h1, h2, h3⟩ := hw x hx
    unfold rsnrArm
    dsimp only
    rw [drop_searchsorted h1 _ h2, drop_searchsorted h1 _ h3]
    generalize flux.arr x.1 = f at h2 ⊢
    generalize ivar.arr x.1 = v at h3 ⊢
    generalize x.2 = w at h1 h2 h3 ⊢
    clear h1
    induction w generalizing f v with
    | nil =>
      simp at h2 h3
      simp [h2, h3, pixelsWhere_nil, dot, numGood]
    | cons a w ih =>
      cases f with
      | nil => simp at h2
      | cons b f =>
        cases v with
        | nil => simp at h3
        | cons c v =>
          have := ih (f := f) (v := v) (by simpa using h2) (by simpa using h3)
          rw [Prod.mk.injEq] at this ⊢
          obtain ⟨e1, e2⟩ := this
          rw [pixelsWhere_cons, pixelsWhere_cons, List.zip_cons_cons, List.zip_cons_cons,
            List.filter_cons, List.zip_cons_cons, List.countP_cons]
          by_cases ha : (1 + z) * lya ≤ a
          · simp only [ha, if_true, true_and, decide_eq_true_eq]
            unfold dot numGood at *
            rw [List.map_cons, List.zipWith_cons_cons, List.sum_cons, List.countP_cons, e1, e2]
            by_cases hc : 0 < c
            · simp [hc, ha, (hs c).mpr hc]
            · have hs0 := h0 c hc
              simp [hc, ha, hs0]
          · simp only [ha, if_false, false_and, decide_false, Bool.false_eq_true]
            exact ⟨e1, e2⟩
  unfold rsnr
  dsimp only
  rw [List.map_map, List.map_map]
  congr 1
  · congr 1
    exact List.map_congr_left fun x hx => congrArg Prod.fst (key x hx)
  · congr 3
    exact List.map_congr_left fun x hx => congrArg Prod.snd (key x hx)

/-- Two pixels above 3000 (redshift 2, line at 1000), one of them masked. -/
example : rsnr (fun v : ℚ => if 0 < v then v else 0) (1 / 2) 1000 2 [("b", [2999, 3000, 3001]), ("r", [3001])]
    [("b", [7, 4, 5]), ("r", [3])] [("b", [1, 2, 0]), ("r", [1])] = (4 * 2 + 3) / (1 / 2 + 2) := by
  decide +kernel

end Verif.Props
