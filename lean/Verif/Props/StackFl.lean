import Verif.Proofs.StackFl
import Verif.Props.ContFit

/-!
# C125: special values in the stacks
-/

namespace Verif.Props
open Verif Verif.Np Verif.Model Verif.Model.Spectrum Verif.Spec Verif.Proofs

section
variable {K : Type} [Field K] [LinearOrder K] [IsStrictOrderedRing K] [FloorRing K]

omit [LinearOrder K] [IsStrictOrderedRing K] [FloorRing K] in
theorem flPixels_flSpec (ranks : List (List (NSpec K))) :
    flPixels (ranks.map (fun l => l.map flSpec)).flatten = (numPixels ranks.flatten).map (fun p => (p.1, p.2.fl)) := by
  rw [← List.map_flatten]
  unfold flPixels numPixels
  rw [List.flatMap_map, List.map_flatMap]
  refine List.flatMap_congr fun s _ => ?_
  unfold flSpec
  dsimp only
  rw [← List.map_flatten, List.map_map, List.map_map]
  rfl

omit [FloorRing K] in
/-- The pixel of numbers as the code sees it. -/
theorem fl_values {varlss eta : K → K} {p : NPix K} (hi : 0 ≤ p.ivar) (hc : p.cont ≠ 0) (he : 0 < eta p.wave)
    (hv : 0 ≤ varlss p.wave) (residual : Bool) :
    p.fl.weight varlss eta = .fin (p.w varlss eta) ∧
    p.fl.wflux varlss eta = .fin (p.w varlss eta * (p.flux / p.cont)) ∧
    p.fl.wcont residual varlss eta = .fin (p.w varlss eta * (if residual then p.flux / p.cont else p.cont)) := by
  have hd : eta p.wave + p.ivar * (varlss p.wave * (p.cont * p.cont)) ≠ 0 :=
    (add_pos_of_pos_of_nonneg he (mul_nonneg hi (mul_nonneg hv (mul_self_nonneg _)))).ne'
  have h1 : p.fl.weight varlss eta = .fin (p.w varlss eta) := by
    unfold FlPix.weight FlPix.wt NPix.fl NPix.w
    simp only [Fl.mul, Fl.add, Fl.div]
    rw [if_neg hd]
    simp only [pow_two]
  have h2 : p.fl.wflux varlss eta = .fin (p.w varlss eta * (p.flux / p.cont)) := by
    unfold FlPix.wflux
    rw [h1]
    simp only [NPix.fl, Fl.mul, Fl.div]
    rw [if_neg hc, mul_div_assoc]
  refine ⟨h1, h2, ?_⟩
  unfold FlPix.wcont
  cases residual
  · rw [if_neg (by simp), if_neg (by simp), h1]
    rfl
  · rw [if_pos rfl, if_pos rfl, h2]

omit [IsStrictOrderedRing K] in
theorem ratio_fin (f e : K) : ratio (.fin f) (.fin e) = .fin (if 0 < e then f / e else 0) := by
  unfold ratio
  by_cases h : 0 < e
  · rw [if_pos (by simpa [Fl.lt] using h), if_pos h]
    simp only [Fl.div]
    rw [if_neg h.ne']
  · rw [if_neg (by simpa [Fl.lt] using h), if_neg h]

/-- **C125, part.** When flux, inverse variance and continuum are numbers, the continuum is not zero and the variance is
positive, no NaN and no infinity appears: the stacks are the weighted means over the pixels of all ranks in each bin, and the
error is the inverse root of the sum of the weights. Missing: other values (`C125_zero_continuum_refuted`,
`C125_infinite_ivar_refuted`). -/
theorem C125_partial {w1 w2 dw r1 r2 dr : K} (C : FlStackCfg K) (ho : linGrid w1 w2 dw = .ok C.obs) (hw : w1 < w2)
    (hr : linGrid r1 r2 dr = .ok C.rf) (hrw : r1 < r2) (sqrt : K → K) (hs : ∀ e, 0 < e → sqrt e ≠ 0)
    (ranks : List (List (NSpec K)))
    (hp : ∀ p ∈ numPixels ranks.flatten, w1 ≤ p.2.wave ∧ r1 ≤ p.2.wave / (1 + p.1) ∧ 0 ≤ p.2.ivar ∧ p.2.cont ≠ 0 ∧
      0 < C.eta p.2.wave ∧ 0 ≤ C.varlss p.2.wave) :
    let st := C.calculate sqrt ((ranks.map (fun l => l.map flSpec)).map C.stack)
    (∀ k < C.obs.n, st.fp[k]? = some (.fin (wmean (fun p => p.2.flux / p.2.cont) (fun p => p.2.w C.varlss C.eta)
      ((numPixels ranks.flatten).filter (fun p => decide (InStackCell w1 w2 C.obs.n k p.2.wave)))))) ∧
    ∀ k < C.rf.n, st.fpRf[k]? = some (.fin (wmean (fun p => if C.residual then p.2.flux / p.2.cont else p.2.cont)
        (fun p => p.2.w C.varlss C.eta)
        ((numPixels ranks.flatten).filter (fun p => decide (InStackCell r1 r2 C.rf.n k (p.2.wave / (1 + p.1))))))) ∧
      st.epRf[k]? = some (.fin (
        let e := (((numPixels ranks.flatten).filter
          (fun p => decide (InStackCell r1 r2 C.rf.n k (p.2.wave / (1 + p.1))))).map (fun p => p.2.w C.varlss C.eta)).sum
        if 0 < e then 1 / sqrt e else e)) := by
  intro st
  have hv := fun p hp' => fl_values (varlss := C.varlss) (eta := C.eta) (hp p hp').2.2.1 (hp p hp').2.2.2.1
    (hp p hp').2.2.2.2.1 (hp p hp').2.2.2.2.2 C.residual
  have eo : ∀ k, inObs C k (ranks.map (fun l => l.map flSpec)).flatten = ((numPixels ranks.flatten).filter
      (fun p => decide (InStackCell w1 w2 C.obs.n k p.2.wave))).map (fun p => (p.1, p.2.fl)) := by
    intro k
    unfold inObs
    rw [flPixels_flSpec, List.filter_map]
    congr 1
    refine List.filter_congr fun p hp' => ?_
    exact decide_eq_decide.mpr (idx_eq ho hw (hp p hp').1 k)
  have er : ∀ k, inRf C k (ranks.map (fun l => l.map flSpec)).flatten = ((numPixels ranks.flatten).filter
      (fun p => decide (InStackCell r1 r2 C.rf.n k (p.2.wave / (1 + p.1))))).map (fun p => (p.1, p.2.fl)) := by
    intro k
    unfold inRf
    rw [flPixels_flSpec, List.filter_map]
    congr 1
    refine List.filter_congr fun p hp' => ?_
    exact decide_eq_decide.mpr (idx_eq hr hrw (hp p hp').2.1 k)
  have sums : ∀ (P : K × NPix K → Bool) (h : K × FlPix K → Fl K) (g : K × NPix K → K),
      (∀ p ∈ numPixels ranks.flatten, h (p.1, p.2.fl) = .fin (g p)) →
      Fl.sum ((((numPixels ranks.flatten).filter P).map (fun p => (p.1, p.2.fl))).map h) =
        .fin (((numPixels ranks.flatten).filter P).map g).sum := by
    intro P h g hg
    rw [List.map_map, ← Fl.sum_fin]
    exact congrArg Fl.sum (List.map_congr_left fun p hp' => hg p (List.mem_filter.mp hp').1)
  constructor
  · intro k hk
    rw [show st.fp[k]? = _ from calc_fp C sqrt _ hk, eo, sums _ _ _ (fun p hp' => (hv p hp').2.1),
      sums _ _ _ (fun p hp' => (hv p hp').1), ratio_fin]
    rfl
  · intro k hk
    obtain ⟨h1, h2⟩ := calc_fpRf C sqrt (ranks.map (fun l => l.map flSpec)) hk
    rw [er, sums _ _ _ (fun p hp' => (hv p hp').1)] at h2
    rw [er, sums _ _ _ (fun p hp' => (hv p hp').2.2), sums _ _ _ (fun p hp' => (hv p hp').1), ratio_fin] at h1
    refine ⟨h1, h2.trans ?_⟩
    dsimp only
    congr 1
    split
    · next h =>
      have h0 := of_decide_eq_true h
      rw [if_pos h0]
      simp only [Fl.sqrtOf, Fl.div]
      rw [if_neg (hs _ h0)]
    · next h => rw [if_neg (fun h0 => h (decide_eq_true h0))]

omit [FloorRing K] in
/-- A pixel with continuum zero has weight zero and flux / continuum NaN. -/
theorem zero_cont {varlss eta : K → K} {p : FlPix K} {f v : K} (hf : p.flux = .fin f) (hi : p.ivar = .fin v)
    (hc : p.cont = .fin 0) (he : eta p.wave ≠ 0) : p.wflux varlss eta = .nan := by
  unfold FlPix.wflux FlPix.weight FlPix.wt
  rw [hf, hi, hc]
  simp only [Fl.mul, Fl.add, Fl.div, mul_zero, add_zero, zero_mul]
  rw [if_neg he]
  simp [Fl.mul, Fl.infMul]

/-- **C125.** It fails for a continuum that is zero in one pixel of one quasar: the stacked flux of the bin of that pixel is
NaN, whatever the other quasars on all ranks are, unless the bin has no weight. For residuals so is that of the rest frame,
and then the input of the spline for the mean continuum is NaN there and in every bin without weight. -/
theorem C125_zero_continuum_refuted {w1 w2 dw r1 r2 dr : K} (C : FlStackCfg K) (ho : linGrid w1 w2 dw = .ok C.obs)
    (hw : w1 < w2) (hr : linGrid r1 r2 dr = .ok C.rf) (hrw : r1 < r2) (sqrt : K → K) (ranks : List (List (FlSpec K)))
    {z : K} {p : FlPix K} (hp : (z, p) ∈ flPixels ranks.flatten) {f v : K} (hf : p.flux = .fin f) (hi : p.ivar = .fin v)
    (hc : p.cont = .fin 0) (he : C.eta p.wave ≠ 0) (h1 : w1 ≤ p.wave) (h2 : r1 ≤ p.wave / (1 + z)) :
    let st := C.calculate sqrt (ranks.map C.stack)
    (∀ k < C.obs.n, InStackCell w1 w2 C.obs.n k p.wave → ∀ e, st.ep[k]? = some e → Fl.lt (.fin 0) e = true →
      st.fp[k]? = some .nan) ∧
    ∀ k < C.rf.n, C.residual = true → InStackCell r1 r2 C.rf.n k (p.wave / (1 + z)) → ∀ e, st.epRf[k]? = some e →
      Fl.lt (.fin 0) e = true → st.fpRf[k]? = some .nan ∧ (flNormFlux st)[k]? = some .nan ∧
        ∀ (j : Nat) (s y : Fl K), st.epRf[j]? = some s → st.fpRf[j]? = some y → Fl.lt (.fin 0) s = false →
          (flNormFlux st)[j]? = some .nan := by
  intro st
  have hnan := zero_cont (varlss := C.varlss) hf hi hc he
  have hdiv : ∀ e : Fl K, Fl.div .nan e = .nan := fun e => by cases e <;> rfl
  constructor
  · intro k hk hin e he1 he2
    have hm : (z, p) ∈ inObs C k ranks.flatten :=
      List.mem_filter.mpr ⟨hp, decide_eq_true ((idx_eq ho hw h1 k).mpr hin)⟩
    have hep := ranksGet C FlStack.ep (fun _ p => C.obs.idx p.wave) (FlPix.weight C.varlss C.eta) _ rfl
      (fun _ _ _ => rfl) hk ranks
    rw [show st.fp[k]? = _ from calc_fp C sqrt _ hk]
    have e2 : e = _ := Option.some.inj (he1.symm.trans (show st.ep[k]? = _ from hep))
    subst e2
    unfold ratio
    rw [if_pos (show Fl.lt (.fin 0) (Fl.sum ((inObs C k ranks.flatten).map (fun p => p.2.weight C.varlss C.eta))) = true
      from he2), Fl.sum_nan (List.mem_map.mpr ⟨_, hm, hnan⟩), hdiv]
  · intro k hk hres hin e he1 he2
    have hm : (z, p) ∈ inRf C k ranks.flatten :=
      List.mem_filter.mpr ⟨hp, decide_eq_true ((idx_eq hr hrw h2 k).mpr hin)⟩
    obtain ⟨c1, c2⟩ := calc_fpRf C sqrt ranks hk
    have e2 := Option.some.inj (he1.symm.trans (show st.epRf[k]? = _ from c2))
    dsimp only at e2
    have hpos : Fl.lt (.fin 0) (Fl.sum ((inRf C k ranks.flatten).map (fun p => p.2.weight C.varlss C.eta))) = true := by
      by_contra hn
      rw [if_neg hn] at e2
      exact hn (e2 ▸ he2)
    have hfp : st.fpRf[k]? = some .nan := by
      rw [show st.fpRf[k]? = _ from c1]
      unfold ratio
      rw [if_pos hpos, Fl.sum_nan (List.mem_map.mpr ⟨_, hm, by simp only [FlPix.wcont, hres, if_true]; exact hnan⟩), hdiv]
    have hmean : flMeanWhere st.epRf st.fpRf = .nan := by
      unfold flMeanWhere
      dsimp only
      rw [Fl.sum_nan, hdiv]
      refine List.mem_map.mpr ⟨(e, .nan), List.mem_filter.mpr ⟨?_, he2⟩, rfl⟩
      exact List.mem_of_getElem? (i := k) (by rw [List.getElem?_zip_eq_some]; exact ⟨he1, hfp⟩)
    refine ⟨hfp, ?_, fun j s y hs hy hj => ?_⟩
    · unfold flNormFlux
      rw [List.getElem?_zipWith, he1, hfp]
      dsimp only
      rw [if_pos he2]
    · unfold flNormFlux
      rw [List.getElem?_zipWith, hs, hy]
      dsimp only
      rw [if_neg (by rw [hj]; simp), hmean]

/-- **C125.** It fails for an inverse variance that is infinite in one pixel (not masked, see C21): with `varlss > 0` the
weight of the pixel is NaN, and its bins are reported as empty for all quasars, with stacked flux zero. -/
theorem C125_infinite_ivar_refuted {w1 w2 dw r1 r2 dr : K} (C : FlStackCfg K) (ho : linGrid w1 w2 dw = .ok C.obs)
    (hw : w1 < w2) (hr : linGrid r1 r2 dr = .ok C.rf) (hrw : r1 < r2) (sqrt : K → K) (ranks : List (List (FlSpec K)))
    {z : K} {p : FlPix K} (hp : (z, p) ∈ flPixels ranks.flatten) {c : K} (hi : p.ivar = .pinf)
    (hc : p.cont = .fin c) (hc0 : c ≠ 0) (hv : 0 < C.varlss p.wave) (h1 : w1 ≤ p.wave) (h2 : r1 ≤ p.wave / (1 + z)) :
    let st := C.calculate sqrt (ranks.map C.stack)
    (∀ k < C.obs.n, InStackCell w1 w2 C.obs.n k p.wave → st.ep[k]? = some .nan ∧ st.fp[k]? = some (.fin 0)) ∧
    ∀ k < C.rf.n, InStackCell r1 r2 C.rf.n k (p.wave / (1 + z)) → st.epRf[k]? = some .nan ∧ st.fpRf[k]? = some (.fin 0) := by
  intro st
  have hnan : p.weight C.varlss C.eta = .nan := by
    have : 0 < C.varlss p.wave * (c * c) := mul_pos hv (mul_self_pos.mpr hc0)
    unfold FlPix.weight FlPix.wt
    rw [hi, hc]
    simp only [Fl.mul, Fl.infMul]
    rw [if_pos this]
    rfl
  constructor
  · intro k hk hin
    have hm : (z, p) ∈ inObs C k ranks.flatten :=
      List.mem_filter.mpr ⟨hp, decide_eq_true ((idx_eq ho hw h1 k).mpr hin)⟩
    have hs := Fl.sum_nan (List.mem_map.mpr ⟨_, hm, hnan⟩ :
      Fl.nan ∈ (inObs C k ranks.flatten).map (fun p => p.2.weight C.varlss C.eta))
    have hep := ranksGet C FlStack.ep (fun _ p => C.obs.idx p.wave) (FlPix.weight C.varlss C.eta) _ rfl
      (fun _ _ _ => rfl) hk ranks
    refine ⟨(show st.ep[k]? = _ from hep).trans (congrArg some hs), ?_⟩
    rw [show st.fp[k]? = _ from calc_fp C sqrt _ hk, hs]
    rfl
  · intro k hk hin
    have hm : (z, p) ∈ inRf C k ranks.flatten :=
      List.mem_filter.mpr ⟨hp, decide_eq_true ((idx_eq hr hrw h2 k).mpr hin)⟩
    have hs := Fl.sum_nan (List.mem_map.mpr ⟨_, hm, hnan⟩ :
      Fl.nan ∈ (inRf C k ranks.flatten).map (fun p => p.2.weight C.varlss C.eta))
    obtain ⟨c1, c2⟩ := calc_fpRf C sqrt ranks hk
    rw [hs] at c1 c2
    exact ⟨c2, c1⟩

end

theorem piccaFit_keeps {K : Type} [Field K] [LinearOrder K] (log meancont meanflux varlss eta : K → K) (rfwave0 denom : K)
    (result : Bool × List K) (s : Spectrum K) :
    (piccaFit log meancont meanflux varlss eta rfwave0 denom result s).fwave = s.fwave ∧
    (piccaFit log meancont meanflux varlss eta rfwave0 denom result s).fflux = s.fflux ∧
    (piccaFit log meancont meanflux varlss eta rfwave0 denom result s).fivarSm = s.fivarSm ∧
    (piccaFit log meancont meanflux varlss eta rfwave0 denom result s).z = s.z := by
  have h1 : ∀ t : Spectrum K, (endFit varlss eta t).fwave = t.fwave ∧ (endFit varlss eta t).fflux = t.fflux ∧
      (endFit varlss eta t).fivarSm = t.fivarSm ∧ (endFit varlss eta t).z = t.z := by
    intro t
    unfold endFit setForestWeight calcContinuumChi2
    dsimp only
    repeat' split
    all_goals exact ⟨rfl, rfl, rfl, rfl⟩
  unfold piccaFit
  split
  · exact h1 _
  · exact h1 _

/-- **C125.** Such a quasar gets to the stack: if the flux of a quasar is zero, the fit with zero coefficients, which are the
exact minimum of the cost (`C53_picca_refuted`), is valid, and afterwards the stacked flux in all bins of its pixels is NaN,
whatever the other quasars on all ranks are, unless the bin has no weight. -/
theorem C125_zero_flux_refuted {w1 w2 dw r1 r2 dr : ℝ} (C : FlStackCfg ℝ) (ho : linGrid w1 w2 dw = .ok C.obs)
    (hw : w1 < w2) (hr : linGrid r1 r2 dr = .ok C.rf) (hrw : r1 < r2) {meancont meanflux : ℝ → ℝ} {rfwave0 denom : ℝ}
    {s : Spectrum ℝ} (hn : s.fwave.keys.Nodup) (hf : ∀ arm, ∀ f ∈ s.fflux.arr arm, f = 0)
    (hi : ∀ arm, ∀ v ∈ s.fivarSm.arr arm, 0 ≤ v) (hv : ∀ w, 0 ≤ C.varlss w) (he : ∀ w, 0 < C.eta w) (n : Nat)
    (ranks : List (List (FlSpec ℝ)))
    (hs : FlSpec.ofSpectrum (piccaFit Real.log meancont meanflux C.varlss C.eta rfwave0 denom (true, List.replicate n 0) s) ∈
      ranks.flatten)
    {arm : String} {wave : List ℝ} (ha : s.fwave.lookup arm = some wave) (hlf : (s.fflux.arr arm).length = wave.length)
    (hli : (s.fivarSm.arr arm).length = wave.length) {w : ℝ} (hwv : w ∈ wave) (h1 : w1 ≤ w) (h2 : r1 ≤ w / (1 + s.z)) :
    let st := C.calculate Real.sqrt (ranks.map C.stack)
    (piccaFit Real.log meancont meanflux C.varlss C.eta rfwave0 denom (true, List.replicate n 0) s).valid = true ∧
    ∀ k < C.obs.n, InStackCell w1 w2 C.obs.n k w → ∀ e, st.ep[k]? = some e → Fl.lt (.fin 0) e = true →
      st.fp[k]? = some .nan := by
  intro st
  obtain ⟨-, hval, hcont⟩ := C53_picca_refuted (meancont := meancont) (meanflux := meanflux) (rfwave0 := rfwave0)
    (denom := denom) hn hf hi hv he n
  refine ⟨hval, fun k hk hin e he1 he2 => ?_⟩
  obtain ⟨i, hi1, rfl⟩ := List.getElem_of_mem hwv
  have hif : i < (s.fflux.arr arm).length := hlf ▸ hi1
  have hii : i < (s.fivarSm.arr arm).length := hli ▸ hi1
  obtain ⟨k1, k2, k3, k4⟩ := piccaFit_keeps Real.log meancont meanflux C.varlss C.eta rfwave0 denom
    (true, List.replicate n 0) s
  have hc := hcont arm wave ha
  generalize piccaFit Real.log meancont meanflux C.varlss C.eta rfwave0 denom (true, List.replicate n 0) s = t at *
  have hp : (s.z, FlPix.mk wave[i] (.fin ((s.fflux.arr arm)[i])) (.fin ((s.fivarSm.arr arm)[i])) (.fin 0)) ∈
      flPixels ranks.flatten := by
    unfold flPixels
    refine List.mem_flatMap.mpr ⟨_, hs, List.mem_map.mpr ⟨_, List.mem_flatten.mpr ⟨_, List.mem_map.mpr
      ⟨(arm, wave), k1 ▸ mem_of_lookup ha, rfl⟩, ?_⟩, by rw [← k4]; rfl⟩⟩
    refine List.mem_map.mpr ⟨((wave[i], (s.fflux.arr arm)[i]), ((s.fivarSm.arr arm)[i], 0)), ?_, rfl⟩
    have hca : t.cont.arr arm = List.replicate wave.length 0 := by unfold Dict.arr; rw [hc]; rfl
    dsimp only
    rw [hca, k2, k3]
    refine List.mem_of_getElem? (i := i) ?_
    rw [List.getElem?_zip_eq_some]
    constructor
    · rw [List.getElem?_zip_eq_some]
      exact ⟨List.getElem?_eq_getElem hi1, List.getElem?_eq_getElem hif⟩
    · rw [List.getElem?_zip_eq_some]
      exact ⟨List.getElem?_eq_getElem hii, List.getElem?_replicate_of_lt hi1⟩
  exact (C125_zero_continuum_refuted C ho hw hr hrw Real.sqrt ranks hp rfl rfl rfl (he _).ne' h1 h2).1 k hk hin e he1 he2

/-- Bins from 3300 to 3332 in the observed frame and from 1100 to 1120 in the rest frame. -/
def c125Cfg : FlStackCfg ℚ :=
  { obs := ⟨3304, 8, 4⟩, rf := ⟨1105, 10, 2⟩, residual := true, varlss := fun _ => 1, eta := fun _ => 1 }

/-- Two arms of a quasar at redshift 2. -/
def c125Good : NSpec ℚ := (2, [[⟨3303, 2, 1, 1⟩, ⟨3312, 6, 1, 2⟩], [⟨3329, 4, 3, 1⟩]])

/-- A quasar with continuum zero in a pixel, and one with infinite inverse variance there. -/
def c125Zero : FlSpec ℚ := { z := 2, arms := [[⟨3302, .fin 1, .fin 1, .fin 0⟩, ⟨3314, .fin 1, .fin 1, .fin 1⟩]] }

/-- See `c125Zero`. -/
def c125Inf : FlSpec ℚ := { z := 2, arms := [[⟨3302, .fin 1, .pinf, .fin 1⟩]] }

example : linGrid (3300 : ℚ) 3332 8 = .ok c125Cfg.obs ∧ linGrid (1100 : ℚ) 1120 10 = .ok c125Cfg.rf := by decide +kernel

example : ∀ p ∈ numPixels [[c125Good], [c125Good]].flatten, 3300 ≤ p.2.wave ∧ 1100 ≤ p.2.wave / (1 + p.1) ∧
    0 ≤ p.2.ivar ∧ p.2.cont ≠ 0 ∧ 0 < c125Cfg.eta p.2.wave ∧ 0 ≤ c125Cfg.varlss p.2.wave := by
  decide +kernel

/-- Numbers, then with a zero continuum on the other rank, then with an infinite inverse variance. -/
example :
    (c125Cfg.calculate id ([[flSpec c125Good], []].map c125Cfg.stack)).fp = [.fin 2, .fin 3, .fin 0, .fin 4] ∧
    (c125Cfg.calculate id ([[flSpec c125Good], [c125Zero]].map c125Cfg.stack)).fp =
      [.nan, .fin (29 / 13), .fin 0, .fin 4] ∧
    flNormFlux (c125Cfg.calculate id ([[flSpec c125Good], [c125Zero]].map c125Cfg.stack)) = [.nan, .nan] ∧
    (c125Cfg.calculate id ([[flSpec c125Good], [c125Inf]].map c125Cfg.stack)).fp =
      [.fin 0, .fin 3, .fin 0, .fin 4] := by
  decide +kernel

example : (2, ⟨3302, .fin 1, .fin 1, .fin 0⟩) ∈ flPixels [[flSpec c125Good], [c125Zero]].flatten ∧
    (2, ⟨3302, .fin 1, .pinf, .fin 1⟩) ∈ flPixels [[flSpec c125Good], [c125Inf]].flatten ∧
    InStackCell 3300 3332 4 0 (3302 : ℚ) ∧ (c125Cfg.calculate id
      ([[flSpec c125Good], [c125Zero]].map c125Cfg.stack)).ep[0]? = some (.fin (1 / 2)) :=
  ⟨by simp [flPixels, c125Zero], by simp [flPixels, c125Inf], by decide +kernel, by decide +kernel⟩

/-- A quasar with flux zero. -/
noncomputable def c125Flat : Spectrum ℝ :=
  { blank 2 1 [] [] [] [] with fwave := [("B", [3303])], fflux := [("B", [0])], ivarSm := some [("B", [1])], valid := true }

example : c125Flat.fwave.keys.Nodup ∧ (∀ arm, ∀ f ∈ c125Flat.fflux.arr arm, f = 0) ∧
    (∀ arm, ∀ v ∈ c125Flat.fivarSm.arr arm, 0 ≤ v) ∧ c125Flat.fwave.lookup "B" = some [3303] ∧
    (c125Flat.fflux.arr "B").length = 1 ∧ (c125Flat.fivarSm.arr "B").length = 1 ∧
    (1100 : ℝ) ≤ 3303 / (1 + c125Flat.z) := by
  have h : ∀ (v : ℝ) (arm : String), ∀ f ∈ Dict.arr [("B", [v])] arm, f = v := by
    intro v arm f hf
    unfold Dict.arr at hf
    by_cases ha : arm = "B"
    · subst ha; simpa using hf
    · simp [List.lookup, beq_eq_false_iff_ne.mpr ha] at hf
  refine ⟨by simp [c125Flat, Dict.keys], fun arm f hf => h 0 arm f hf, fun arm v hv => ?_, rfl, rfl, rfl, ?_⟩
  · rw [h 1 arm v hv]; exact zero_le_one
  · norm_num [c125Flat, blank]

end Verif.Props
