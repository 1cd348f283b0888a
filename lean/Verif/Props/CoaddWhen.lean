import Verif.Proofs.CoaddWhen

/-!
# C122: coadding the arms before or after the continuum fit
-/

namespace Verif.Props
open Verif.Np Verif.Model Verif.Spec Verif.Proofs Spectrum

variable {K : Type} [Field K] [LinearOrder K] [IsStrictOrderedRing K] [FloorRing K]

/-- **C122.** The arms lie on one grid and the inverse variance is not smoothed. Coadded before the fit, the spectrum has
the same cost function as the arms, for every value of the coefficients, up to one number: where good pixels of two arms
overlap the variance of large-scale structure must be zero. Without overlap the number is zero. The starting point of the
minimizer is the same in any case. -/
theorem C122_cost {u : Spectrum K} (h : BeforeFit u) {lo hi : K} {n : Nat} (hg : OnCommonGrid u lo hi n)
    (sqrt : K → K) (smooth : List K → K → List K) (junk : Nat → K) (nan eps : K) (vl0 eta0 : K → K) :
    ∃ t, u.coaddArmsForest sqrt smooth junk nan eps vl0 eta0 = .ok t ∧ startA0 t = startA0 u ∧
      ∀ (log meancont meanflux varlss eta : K → K) (rfwave0 denom : K), OverlapOk u lo hi n varlss →
        ∃ D, ((∀ k ≤ n, goodInCell u lo k ≤ 1) → D = 0) ∧ ∀ x,
          t.piccaCost log meancont meanflux varlss eta rfwave0 denom x =
            u.piccaCost log meancont meanflux varlss eta rfwave0 denom x + D := by
  obtain ⟨t, ht, -⟩ := C26_coadd_arms h.ok hg.least hg.greatest hg.last hg.one sqrt smooth junk nan eps vl0 eta0
  exact ⟨t, ht, start_coadd h hg ht, fun log mc mf vl eta r d ho => cost_coadd h hg ho ht log mc mf eta r d⟩

/-- What has to be compared: `t` is the fit of the coadded spectrum, `f` the fit of the arms. If the first is valid, so is
the second; coadding `f` gives the wavelengths, fluxes, inverse variances and weights of `t`, and its continuum in every
cell with a pixel of an arm (`has`). -/
def SameAfterFit (coadd : Spectrum K → Except Err (Spectrum K)) (t f : Spectrum K) (has : Nat → Prop) : Prop :=
  t.valid = true → f.valid = true ∧ ∃ s, coadd f = .ok s ∧ s.valid = true ∧ s.fwave = t.fwave ∧ s.fflux = t.fflux ∧
    s.fivar = t.fivar ∧ s.fweight = t.fweight ∧
    ∀ k, has k → (s.cont.arr "brz")[k]? = (t.cont.arr "brz")[k]?

theorem sameAfterFit_of {u : Spectrum K} (h : BeforeFit u) {lo hi : K} {n : Nat} (hg : OnCommonGrid u lo hi n)
    (C : FullCfg K) (g : FullState K) (hvl : ∀ w, 0 ≤ g.varlss w) (heta : ∀ w, 0 < g.eta w)
    (ho : OverlapOk u lo hi n g.varlss) {sqrt : K → K} {smooth : List K → K → List K} {junk : Nat → K} {nan eps : K}
    {vl0 eta0 : K → K} {t : Spectrum K} (ht : u.coaddArmsForest sqrt smooth junk nan eps vl0 eta0 = .ok t)
    (hm : C.minimize (piccaCost C.log (C.meancont g) C.meanflux g.varlss g.eta (C.rfwave.getD 0 0) C.denom t)
        (startA0 t :: List.replicate C.order 0) =
      C.minimize (piccaCost C.log (C.meancont g) C.meanflux g.varlss g.eta (C.rfwave.getD 0 0) C.denom u)
        (startA0 u :: List.replicate C.order 0)) :
    SameAfterFit (fun s => s.coaddArmsForest sqrt smooth junk nan eps g.varlss g.eta)
      (C.fitOne g t) (C.fitOne g u) (fun k => k ≤ n ∧ armsCell u lo k ≠ []) ∧
    ((C.fitOne g u).valid = true → (∀ k ≤ n, armsCell u lo k ≠ []) → (C.fitOne g t).valid = true) := by
  unfold FullCfg.fitOne
  rw [hm]
  constructor
  · intro hv
    obtain ⟨h1, s, h2, h3, h4, h5, h6, h7, h8⟩ := fit_coadd h hg hvl heta ho ht (C.rfwave.getD 0 0) C.denom _ hv
    exact ⟨h1, s, h2, h3, h4, h5, h6, h7, fun k hk => h8 k hk.1 hk.2⟩
  · intro hv hall
    obtain ⟨tw, -, -, -, tz⟩ := coadd_before h hg _ _ _ _ _ _ _ ht
    generalize C.minimize (piccaCost C.log (C.meancont g) C.meanflux g.varlss g.eta (C.rfwave.getD 0 0) C.denom u)
      (startA0 u :: List.replicate C.order 0) = x at hv
    obtain ⟨v1, v2⟩ := (C53_picca_values C.log (C.meancont g) C.meanflux g.varlss g.eta (C.rfwave.getD 0 0) C.denom
      x.1 x.2 h.ok.nodup).1.mp hv
    refine (C53_picca_values C.log (C.meancont g) C.meanflux g.varlss g.eta (C.rfwave.getD 0 0) C.denom
      x.1 x.2 (by rw [tw]; simp [Dict.keys])).1.mpr ⟨v1, ?_⟩
    rw [tw, tz]
    intro a ha w hw
    obtain rfl := List.mem_singleton.mp ha
    obtain ⟨k, hk, rfl⟩ := List.mem_map.mp hw
    have hk : k ≤ n := by have := List.mem_range.mp hk; omega
    obtain ⟨p, hp⟩ := List.exists_mem_of_ne_nil _ (hall k hk)
    obtain ⟨-, -, e⟩ := cell_pix h hg k p hp
    obtain ⟨b, hb, hwb⟩ := (before_pix h p (List.mem_filter.mp hp).1).2.2
    rw [← e]
    exact v2 b hb _ hwb

/-- **C122.** No cell has good pixels of two arms. Then coadding before the fit and coadding after the fit give the same
spectra, for every minimizer and all variance functions. (If the arms leave a gap, the fit of the coadded spectrum can
be rejected for a negative continuum in the gap; otherwise both fits are valid or none.) -/
theorem C122_disjoint {u : Spectrum K} (h : BeforeFit u) {lo hi : K} {n : Nat} (hg : OnCommonGrid u lo hi n)
    (hd : ∀ k ≤ n, goodInCell u lo k ≤ 1) (C : FullCfg K) (g : FullState K) (hvl : ∀ w, 0 ≤ g.varlss w)
    (heta : ∀ w, 0 < g.eta w) (sqrt : K → K) (smooth : List K → K → List K) (junk : Nat → K) (nan eps : K)
    (vl0 eta0 : K → K) :
    ∃ t, u.coaddArmsForest sqrt smooth junk nan eps vl0 eta0 = .ok t ∧
      SameAfterFit (fun s => s.coaddArmsForest sqrt smooth junk nan eps g.varlss g.eta)
        (C.fitOne g t) (C.fitOne g u) (fun k => k ≤ n ∧ armsCell u lo k ≠ []) ∧
      ((C.fitOne g u).valid = true → (∀ k ≤ n, armsCell u lo k ≠ []) → (C.fitOne g t).valid = true) := by
  obtain ⟨t, ht, hs, hc⟩ := C122_cost h hg sqrt smooth junk nan eps vl0 eta0
  have ho : OverlapOk u lo hi n g.varlss := fun k hk => Or.inl (hd k hk)
  refine ⟨t, ht, sameAfterFit_of h hg C g hvl heta ho ht ?_⟩
  obtain ⟨D, hD, hx⟩ := hc C.log (C.meancont g) C.meanflux g.varlss g.eta (C.rfwave.getD 0 0) C.denom ho
  rw [hs, funext hx, hD hd]
  simp only [add_zero]

/-- **C122, part.** Arms that overlap: the same, where the variance of large-scale structure is zero in the overlap, for
minimizers that do not see a number added to the cost function. Missing: other variance functions (false,
`C122_refuted`) and smoothed inverse variances. -/
theorem C122_partial {u : Spectrum K} (h : BeforeFit u) {lo hi : K} {n : Nat} (hg : OnCommonGrid u lo hi n)
    (C : FullCfg K) (hmin : ∀ f D x, C.minimize (fun a => f a + D) x = C.minimize f x) (g : FullState K)
    (hvl : ∀ w, 0 ≤ g.varlss w) (heta : ∀ w, 0 < g.eta w) (ho : OverlapOk u lo hi n g.varlss)
    (sqrt : K → K) (smooth : List K → K → List K) (junk : Nat → K) (nan eps : K) (vl0 eta0 : K → K) :
    ∃ t, u.coaddArmsForest sqrt smooth junk nan eps vl0 eta0 = .ok t ∧
      SameAfterFit (fun s => s.coaddArmsForest sqrt smooth junk nan eps g.varlss g.eta)
        (C.fitOne g t) (C.fitOne g u) (fun k => k ≤ n ∧ armsCell u lo k ≠ []) ∧
      ((C.fitOne g u).valid = true → (∀ k ≤ n, armsCell u lo k ≠ []) → (C.fitOne g t).valid = true) := by
  obtain ⟨t, ht, hs, hc⟩ := C122_cost h hg sqrt smooth junk nan eps vl0 eta0
  refine ⟨t, ht, sameAfterFit_of h hg C g hvl heta ho ht ?_⟩
  obtain ⟨D, -, hx⟩ := hc C.log (C.meancont g) C.meanflux g.varlss g.eta (C.rfwave.getD 0 0) C.denom ho
  rw [hs, funext hx, hmin]

/-- Arms whose wavelengths are `lo + j * dwave` lie on one grid. -/
theorem C122_grid {u : Spectrum K} (h : ForestOk u) {lo : K} {n : Nat}
    (hlo : lo ∈ allWaves u.fwave) (hhi : lo + (n : K) * u.dwave ∈ allWaves u.fwave)
    (hj : ∀ w ∈ allWaves u.fwave, ∃ j : Nat, j ≤ n ∧ w = lo + (j : K) * u.dwave) :
    OnCommonGrid u lo (lo + (n : K) * u.dwave) n := by
  have hd := h.dwave
  have cellEq : ∀ j k : Nat, InCell lo u.dwave k (lo + (j : K) * u.dwave) ↔ j = k := by
    intro j k
    unfold InCell
    rw [add_le_add_iff_left, add_lt_add_iff_left, mul_le_mul_iff_left₀ hd, mul_lt_mul_iff_left₀ hd]
    constructor
    · rintro ⟨h1, h2⟩
      have a : (k : K) < (j : K) + 1 := by linarith
      have b : (j : K) < (k : K) + 1 := by linarith
      have a' : k < j + 1 := by exact_mod_cast a
      have b' : j < k + 1 := by exact_mod_cast b
      omega
    · rintro rfl
      constructor <;> linarith
  refine ⟨⟨hlo, fun w hw => ?_⟩, ⟨hhi, fun w hw => ?_⟩, (cellEq n n).mpr rfl, ?_, fun w hw k hk => ?_⟩
  · obtain ⟨j, -, rfl⟩ := hj w hw
    have : 0 ≤ (j : K) * u.dwave := by positivity
    linarith
  · obtain ⟨j, hjn, rfl⟩ := hj w hw
    have : (j : K) ≤ (n : K) := by exact_mod_cast hjn
    have := mul_le_mul_of_nonneg_right this hd.le
    linarith
  · intro a ha
    obtain ⟨x, hx, rfl⟩ := List.mem_map.mp ha
    have hs := (h.sorted x hx).2
    rw [← forestPix_wave h hx, List.pairwise_map] at hs
    refine hs.imp_of_mem ?_
    intro p q hp hq hlt k h1 h2
    have hw : ∀ r ∈ u.forestPix x.1, r.wave ∈ allWaves u.fwave := by
      intro r hr
      refine ⟨x, hx, ?_⟩
      rw [← forestPix_wave h hx]
      exact List.mem_map.mpr ⟨r, hr, rfl⟩
    obtain ⟨i, -, ei⟩ := hj _ (hw p hp)
    obtain ⟨j, -, ej⟩ := hj _ (hw q hq)
    rw [ei, cellEq] at h1
    rw [ej, cellEq] at h2
    rw [ei, ej, h1, h2] at hlt
    exact absurd hlt (lt_irrefl _)
  · obtain ⟨j, hjn, rfl⟩ := hj w hw
    obtain rfl := (cellEq j k).mp hk
    unfold gridWave
    rcases Nat.eq_zero_or_pos n with rfl | hn
    · obtain rfl : j = 0 := by omega
      simp
    · have : (n : K) ≠ 0 := by positivity
      rw [add_sub_cancel_left, mul_div_cancel_left₀ _ this]

/-! ### A quasar with overlapping arms -/

deriving instance DecidableEq for Pix

/-- The arms B and R share the pixel at 101, with different noise. -/
def c122Spec : Spectrum ℚ :=
  { z := 0, dwave := 1, wave := [], flux := [], ivar := [], reso := []
    fwave := [("B", [100, 101]), ("R", [101, 102])], fflux := [("B", [1, 1]), ("R", [2, 1])]
    fivar := [("B", [1, 1]), ("R", [3, 1])], freso := [], ivarSm := none, weight := none, smoothing := 0
    meanSnr := [], cont := [], valid := false, chi2 := -1, x0 := 0 }

theorem c122_before : BeforeFit c122Spec := by
  refine ⟨?_, ?_, rfl, rfl, le_refl _, rfl⟩
  · constructor
    case resoArm => intro r hr; cases hr
    case resoParity => intro r hr; cases hr
    all_goals decide +kernel
  · have all : ∀ x ∈ c122Spec.fwave, x.2.Pairwise (· < ·) ∧ (c122Spec.fflux.arr x.1).length = x.2.length ∧
        (c122Spec.fivar.arr x.1).length = x.2.length ∧ (c122Spec.fivarSm.arr x.1).length = x.2.length ∧
        (c122Spec.fweight.arr x.1).length = x.2.length ∧ ∀ r ∈ c122Spec.freso.arr x.1, r.length = x.2.length := by
      decide +kernel
    have all' := fun arm w (hw : c122Spec.fwave.lookup arm = some w) => all (arm, w) (mem_of_lookup hw)
    exact ⟨by decide +kernel, rfl, rfl, rfl, rfl, fun a ha => (by cases ha), fun a w hw => (all' a w hw).1,
      fun a w hw => (all' a w hw).2.1, fun a w hw => (all' a w hw).2.2.1, fun a w hw => (all' a w hw).2.2.2.1,
      fun a w hw => (all' a w hw).2.2.2.2.1, fun a w hw => (all' a w hw).2.2.2.2.2⟩

theorem c122_grid : OnCommonGrid c122Spec 100 102 2 := by
  have h := C122_grid c122_before.ok (lo := 100) (n := 2)
    ⟨("B", [100, 101]), by decide +kernel, by decide +kernel⟩ ⟨("R", [101, 102]), by decide +kernel, by decide +kernel⟩
    (by
      rintro w ⟨x, hx, hw⟩
      have : ∀ x ∈ c122Spec.fwave, ∀ w ∈ x.2, w = 100 ∨ w = 101 ∨ w = 102 := by decide +kernel
      rcases this x hx w hw with rfl | rfl | rfl
      · exact ⟨0, by decide +kernel⟩
      · exact ⟨1, by decide +kernel⟩
      · exact ⟨2, by decide +kernel⟩)
  have e : (100 : ℚ) + ((2 : Nat) : ℚ) * c122Spec.dwave = 102 := by decide +kernel
  rwa [e] at h

/-- **C122.** It is false with a variance of large-scale structure in the overlap. The pixel at 101 is in both arms. With
`eta` and `var_lss` equal to one and any coefficients that give a valid fit with continuum other than zero at 101, the
coadded flux at 101 depends on the order: before the fit the weights are the inverse variances, after the fit they are
smaller for the pixel with less noise. -/
theorem C122_refuted : ∃ (u : Spectrum ℚ) (lo hi : ℚ) (n : Nat), BeforeFit u ∧ OnCommonGrid u lo hi n ∧
    ∀ (log meancont meanflux : ℚ → ℚ) (rfwave0 denom : ℚ) (x : List ℚ),
      (u.piccaFit log meancont meanflux (fun _ => 1) (fun _ => 1) rfwave0 denom (true, x)).valid = true →
      piccaModel log meancont rfwave0 denom x (101 / (1 + u.z)) * meanflux 101 ≠ 0 →
      ∀ (sqrt : ℚ → ℚ) (smooth : List ℚ → ℚ → List ℚ) (junk : Nat → ℚ) (nan eps : ℚ) (t s : Spectrum ℚ),
        u.coaddArmsForest sqrt smooth junk nan eps (fun _ => 1) (fun _ => 1) = .ok t →
        (u.piccaFit log meancont meanflux (fun _ => 1) (fun _ => 1) rfwave0 denom (true, x)).coaddArmsForest
          sqrt smooth junk nan eps (fun _ => 1) (fun _ => 1) = .ok s →
        s.fflux ≠ (t.piccaFit log meancont meanflux (fun _ => 1) (fun _ => 1) rfwave0 denom (true, x)).fflux := by
  refine ⟨c122Spec, 100, 102, 2, c122_before, c122_grid, ?_⟩
  intro log mc mf r d x hv hne sqrt smooth junk nan eps t s ht hs hf
  obtain ⟨-, tf, -⟩ := coadd_before c122_before c122_grid _ _ _ _ _ _ _ ht
  obtain ⟨c, chi2, hc0, hc, eu⟩ := piccaFit_valid c122_before.ok.nodup (by decide +kernel) hv
  obtain ⟨ok, hcell⟩ := fitWeight_ok c122_before (fun _ => zero_le_one) (fun _ => zero_lt_one) hc eu
  obtain ⟨hcell, hone⟩ := hcell 100
  set u' := c122Spec.piccaFit log mc mf (fun _ => 1) (fun _ => 1) r d (true, x) with hu'
  have uf : u'.fwave = c122Spec.fwave := by rw [eu]
  have ud : u'.dwave = c122Spec.dwave := by rw [eu]
  obtain ⟨s', hs', -, sf, -⟩ := C26_coadd_arms (s := u') ok (uf.symm ▸ c122_grid.least) (uf.symm ▸ c122_grid.greatest)
    (ud.symm ▸ c122_grid.last) (hone c122_grid.one) sqrt smooth junk nan eps (fun _ => 1) (fun _ => 1)
  rw [hs] at hs'
  cases hs'
  have tf' : (t.piccaFit log mc mf (fun _ => 1) (fun _ => 1) r d (true, x)).fflux = t.fflux := by
    unfold piccaFit
    rw [(endFit_same _ _ _).2.1]
    rw [if_pos rfl]
    rfl
  rw [tf', sf, tf] at hf
  have hf := congrArg (fun l : Dict (List ℚ) => (l.arr "brz")[1]?) hf
  rw [arr_brz, arr_brz, List.getElem?_map, List.getElem?_map, List.getElem?_range (by decide)] at hf
  have hf := Option.some.inj hf
  change (if 0 < sumWeight (armsCell u' 100 1) then meanFlux (armsCell u' 100 1) else 0) =
    if 0 < sumWeight (armsCell c122Spec 100 1) then meanFlux (armsCell c122Spec 100 1) else 0 at hf
  rw [hcell 1] at hf
  have e : armsCell c122Spec 100 1 = [⟨101, 1, 1, 1⟩, ⟨101, 3, 2, 3⟩] := by decide +kernel
  rw [e] at hf
  generalize hC : piccaModel log mc r d x (101 / (1 + c122Spec.z)) * mf 101 = y at hne
  simp only [List.map_cons, List.map_nil, fitted, meanFlux, sumWeight, List.sum_cons, List.sum_nil, add_zero, hC,
    pixelWeight] at hf
  have y2 : 0 < y ^ 2 := by positivity
  rw [if_pos (by positivity), if_pos (by norm_num)] at hf
  rw [div_eq_div_iff (by positivity) (by norm_num)] at hf
  field_simp at hf
  nlinarith

/-- A configuration with a minimizer that stays where it starts. -/
def c122Cfg : FullCfg ℚ :=
  { log := fun x => x - 1, sqrt := id, smooth := fun f _ => f, junk := fun _ => 0, minimize := fun _ x => (true, x)
    order := 0, residual := true, meanflux := fun _ => 1, obs := ⟨100, 1, 3⟩, rf := ⟨100, 1, 3⟩
    normalize := false, etaCalib := false }

/-- No variance of large-scale structure. -/
def c122State : FullState ℚ :=
  { cont := [1, 1, 1], contErr := [0, 0, 0], stack := Stacker.new c122Cfg.obs c122Cfg.rf, varlss := fun _ => 0
    eta := fun _ => 1 }

/-- The hypotheses of `C122_partial`; the fit of the coadded spectrum is valid. -/
example : BeforeFit c122Spec ∧ OnCommonGrid c122Spec 100 102 2 ∧
    (∀ f D x, c122Cfg.minimize (fun a => f a + D) x = c122Cfg.minimize f x) ∧
    (∀ w, 0 ≤ c122State.varlss w) ∧ (∀ w, 0 < c122State.eta w) ∧ OverlapOk c122Spec 100 102 2 c122State.varlss ∧
    (c122Spec.coaddArmsForest id (fun v _ => v) (fun _ => 0) 0 0 c122State.varlss c122State.eta).toOption.map
      (fun t => ((c122Cfg.fitOne c122State t).valid, (c122Cfg.fitOne c122State t).fflux)) =
        some (true, [("brz", [1, 7 / 4, 1])]) :=
  ⟨c122_before, c122_grid, fun _ _ _ => rfl, fun _ => le_refl _, fun _ => one_pos, fun _ _ => Or.inr rfl,
    by decide +kernel⟩

/-- Without the second pixel of the overlap: the hypotheses of `C122_disjoint`. -/
example : ∀ k ≤ 2, goodInCell { c122Spec with fivar := [("B", [1, 0]), ("R", [3, 1])] } 100 k ≤ 1 := by decide +kernel

/-- A valid fit of the arms with a continuum other than zero, for `C122_refuted`. -/
example : (c122Spec.piccaFit (fun x => x - 1) (fun _ => 1) (fun _ => 1) (fun _ => 1) (fun _ => 1) 100 1 (true, [1])).valid =
      true ∧ piccaModel (fun x : ℚ => x - 1) (fun _ => 1) 100 1 [1] (101 / (1 + c122Spec.z)) * 1 ≠ 0 := by decide +kernel

example : BeforeFit c122Spec ∧ OnCommonGrid c122Spec 100 102 2 ∧ OverlapOk c122Spec 100 102 2 (fun _ => 0) ∧
    ¬ goodInCell c122Spec 100 1 ≤ 1 ∧ (∀ k ≤ 2, armsCell c122Spec 100 k ≠ []) :=
  ⟨c122_before, c122_grid, fun _ _ => Or.inr rfl, by decide +kernel, by decide +kernel⟩

end Verif.Props
