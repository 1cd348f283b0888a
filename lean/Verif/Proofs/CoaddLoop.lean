import Verif.Props.CoaddWhen
import Verif.Proofs.ArmOrderFit
import Verif.Proofs.Units
import Verif.Proofs.FixedRun
import Verif.Spec.CoaddLoop

/-! Lemmas on the whole fit with and without coadded arms. -/

namespace Verif.Proofs
open Verif.Np Verif.Model Verif.Spec Verif.Props List Spectrum

variable {K : Type} [Field K] [LinearOrder K]

/-! ### Lists -/

/-- One more element in one of the classes. -/
theorem flatMap_insert {α : Type} (f f' : Nat → List α) (p : α) {k n : Nat} (hk : k < n) (h : f' k = p :: f k)
    (h' : ∀ j, j ≠ k → f' j = f j) : ((List.range n).flatMap f').Perm (p :: (List.range n).flatMap f) := by
  induction n with
  | zero => omega
  | succ n ih =>
    simp only [List.range_succ, List.flatMap_append, List.flatMap_cons, List.flatMap_nil, List.append_nil]
    by_cases hkn : k = n
    · subst hkn
      have e : (List.range k).flatMap f' = (List.range k).flatMap f := by
        refine List.flatMap_congr ?_
        intro j hj
        exact h' j (by have := List.mem_range.mp hj; omega)
      rw [e, h]
      exact List.perm_middle
    · rw [h' n (Ne.symm hkn)]
      exact (ih (by omega)).append_right _

/-- A list, class by class. -/
theorem perm_classes {α : Type} (L : List α) (cls : Nat → α → Bool) (n : Nat)
    (h : ∀ p ∈ L, ∃ k, k < n ∧ ∀ j, cls j p = true ↔ j = k) :
    ((List.range n).flatMap (fun k => L.filter (cls k))).Perm L := by
  induction L with
  | nil => simp
  | cons p L ih =>
    obtain ⟨k, hk, hj⟩ := h p List.mem_cons_self
    refine (flatMap_insert (fun k => L.filter (cls k)) _ p hk ?_ ?_).trans
      ((ih fun q hq => h q (List.mem_cons_of_mem _ hq)).cons p)
    · exact List.filter_cons_of_pos ((hj k).mpr rfl)
    · intro j hjk
      exact List.filter_cons_of_neg fun hc => hjk ((hj j).mp hc)

/-! ### The fit starts from the data -/

/-- The fit does not depend on the fit before. -/
theorem fitOne_again [FloorRing K] (C : FullCfg K) (g g' : FullState K) (s : Spectrum K) :
    C.fitOne g (C.fitOne g' s) = C.fitOne g s := by
  have key : ∀ (v : Bool) (c : Dict (List K)) (w : Option (Dict (List K))) (x : K),
      C.fitOne g { s with valid := v, cont := c, weight := w, chi2 := x } = C.fitOne g s := by
    intro v c w x
    change piccaFit C.log (C.meancont g) C.meanflux g.varlss g.eta (C.rfwave.getD 0 0) C.denom
      (C.minimize (piccaCost C.log (C.meancont g) C.meanflux g.varlss g.eta (C.rfwave.getD 0 0) C.denom s)
        (startA0 s :: List.replicate C.order 0)) _ = C.fitOne g s
    unfold FullCfg.fitOne
    generalize C.minimize (piccaCost C.log (C.meancont g) C.meanflux g.varlss g.eta (C.rfwave.getD 0 0) C.denom s)
        (startA0 s :: List.replicate C.order 0) = r
    unfold piccaFit
    by_cases hr : r.1 = true
    · rw [if_pos hr, if_pos hr]
      unfold endFit setForestWeight calcContinuumChi2 setCont
      dsimp only
      split <;> rfl
    · rw [if_neg hr, if_neg hr]
      unfold endFit setForestWeight calcContinuumChi2 setCont clearCont
      dsimp only
      simp
  have hfit : ∃ v c w x, C.fitOne g' s = { s with valid := v, cont := c, weight := w, chi2 := x } := by
    unfold FullCfg.fitOne piccaFit
    have key2 : ∀ t : Spectrum K, ∃ v c w x, t.endFit g'.varlss g'.eta =
        { t with valid := v, cont := c, weight := w, chi2 := x } := by
      intro t
      unfold endFit setForestWeight calcContinuumChi2 clearCont
      dsimp only
      split <;> dsimp only <;> split <;> exact ⟨_, _, _, _, rfl⟩
    split
    · obtain ⟨v, c, w, x, e⟩ := key2 (s.setCont (contLoop piccaRejects _ (mulFlux C.meanflux) s.fwave []))
      exact ⟨v, c, w, x, e⟩
    · obtain ⟨v, c, w, x, e⟩ := key2 (s.setCont (false, s.cont))
      exact ⟨v, c, w, x, e⟩
  obtain ⟨v, c, w, x, e⟩ := hfit
  rw [e]
  exact key v c w x

/-! ### The pixels of a fit -/

section spectra
variable [FloorRing K] [IsStrictOrderedRing K]

/-- A pixel after the fit with the continuum `C`. -/
def pixFit (vl eta C : K → K) (p : Pix K) : PixData K :=
  ⟨p.wave, p.flux, p.ivar, pixelWeight (vl p.wave) (eta p.wave) (C p.wave) p.ivar, C p.wave⟩

omit [LinearOrder K] [FloorRing K] [IsStrictOrderedRing K] in
theorem armData_fit {u : Spectrum K} (hn : u.fwave.keys.Nodup) (hsm : u.ivarSm = none)
    (h1 : ∀ x ∈ u.fwave, (u.fflux.arr x.1).length = x.2.length)
    (h2 : ∀ x ∈ u.fwave, (u.fivar.arr x.1).length = x.2.length)
    (h3 : ∀ x ∈ u.fwave, (u.fweight.arr x.1).length = x.2.length)
    {vl eta C : K → K} {c : Dict (List K)} {chi2 : K}
    (hc : ∀ arm w, u.fwave.lookup arm = some w → c.arr arm = w.map C)
    {u' : Spectrum K} (hu : u' = { u with valid := true, cont := c, chi2 := chi2
                                          weight := some (u.fwave.mapVals (fun arm wave =>
                                            armWeight vl eta wave (c.arr arm) (u.fivarSm.arr arm))) }) :
    u'.fwave.flatMap (armData u') = (armsPix u).map (pixFit vl eta C) := by
  have hf : u'.fwave = u.fwave := by rw [hu]
  unfold armsPix
  rw [hf, List.map_flatten, List.map_map, List.flatMap_def]
  refine congrArg List.flatten (List.map_congr_left fun x hx => ?_)
  have hl := lookup_of_mem hn hx
  have hk : x.1 ∈ u.fwave.keys := List.mem_map.mpr ⟨x, hx, rfl⟩
  have hw : u'.fweight.arr x.1 = armWeight vl eta x.2 (x.2.map C) (u.fivar.arr x.1) := by
    rw [hu]
    change (u.fwave.mapVals (fun arm wave => armWeight vl eta wave (c.arr arm) (u.fivarSm.arr arm))).arr x.1 = _
    rw [arr_mapVals hk, arr_of_lookup hl, hc _ _ hl, fivarSm_before hsm]
  have hcc : u'.cont.arr x.1 = x.2.map C := by rw [hu]; exact hc _ _ hl
  have hff : u'.fflux = u.fflux := by rw [hu]
  have hiv : u'.fivar = u.fivar := by rw [hu]
  unfold armData
  rw [hw, hcc, hff, hiv]
  simp only [Function.comp_apply]
  unfold forestPix pixelsOf armWeight
  rw [arr_of_lookup hl]
  have a1 := h1 x hx
  have a2 := h2 x hx
  have a3 := h3 x hx
  apply List.ext_getElem
  · simp [a1, a2, a3]
  · intro i _ _
    simp [pixFit]

/-- A spectrum and the spectrum with coadded arms. -/
structure CoaddPair (C : FullCfg K) (u t : Spectrum K) : Prop where
  arms : DisjointArms C u
  coadd : IsCoaddOf u t

omit [IsStrictOrderedRing K] in
theorem pairs_of {C : FullCfg K} {l l' : List (Spectrum K)} (h : ∀ u ∈ l, DisjointArms C u)
    (h' : List.Forall₂ IsCoaddOf l l') : List.Forall₂ (CoaddPair C) l l' := by
  induction h' with
  | nil => exact .nil
  | cons hab _ ih =>
    exact .cons ⟨h _ List.mem_cons_self, hab⟩ (ih fun u hu => h u (List.mem_cons_of_mem _ hu))

/-- The coadded pixel of a cell with at most one good pixel. -/
theorem cell_good {l : List (Pix K)} (h0 : ∀ p ∈ l, 0 ≤ p.ivar) (hw : ∀ p ∈ l, p.weight = p.ivar) {w : K}
    (hwave : ∀ p ∈ l, p.wave = w) (h : goodIn l ≤ 1) (vl eta C : K → K) :
    ([pixFit vl eta C ⟨w, 0, if 0 < sumWeight l then meanFlux l else 0, if 0 < sumWeight l then 1 / meanVar l else 0⟩]).filter
        (fun p => decide (0 < p.ivar)) =
      (l.filter (fun p => decide (0 < p.ivar))).map (pixFit vl eta C) := by
  have eV : sumWeight l = ((l.filter (fun p => decide (0 < p.ivar))).map (fun p => p.ivar)).sum := by
    unfold sumWeight
    rw [List.map_congr_left hw]
    exact sum_good_pix fun p hp hn => le_antisymm (not_lt.mp hn) (h0 p hp)
  have eF : (l.map (fun p => p.weight * p.flux)).sum =
      ((l.filter (fun p => decide (0 < p.ivar))).map (fun p => p.ivar * p.flux)).sum := by
    rw [List.map_congr_left (g := fun p => p.ivar * p.flux) (fun p hp => by rw [hw p hp])]
    exact sum_good_pix fun p hp hn => by rw [le_antisymm (not_lt.mp hn) (h0 p hp), zero_mul]
  by_cases hs : 0 < sumWeight l
  · have e := C26_ivar_adds h0 hw hs
    rw [if_pos hs, if_pos hs, e]
    have e2 : (l.map (fun p => p.ivar)).sum = ((l.filter (fun p => decide (0 < p.ivar))).map (fun p => p.ivar)).sum :=
      sum_good_pix fun p hp hn => le_antisymm (not_lt.mp hn) (h0 p hp)
    unfold meanFlux
    rw [eF, eV, e2]
    rw [eV] at hs
    have hm : ∀ p ∈ l.filter (fun p => decide (0 < p.ivar)), p.wave = w := fun p hp => hwave p (List.mem_filter.mp hp).1
    unfold goodIn at h
    generalize l.filter (fun p => decide (0 < p.ivar)) = g at h hs hm
    match g, h, hs, hm with
    | [], _, hs, _ => simp at hs
    | [p], _, hs, hm =>
      simp only [List.map_cons, List.map_nil, List.sum_cons, List.sum_nil, add_zero] at hs ⊢
      rw [mul_div_cancel_left₀ _ hs.ne', ← hm p (by simp)]
      unfold pixFit
      simp [hs]
    | _ :: _ :: _, h, _, _ => simp at h
  · rw [if_neg hs, if_neg hs]
    have z := sum_eq_zero_weights (fun p hp => (hw p hp) ▸ h0 p hp) hs
    have : l.filter (fun p => decide (0 < p.ivar)) = [] := by
      rw [List.filter_eq_nil_iff]
      intro p hp
      rw [← hw p hp, z p hp]
      simp
    rw [this]
    simp [pixFit]

omit [IsStrictOrderedRing K] in
/-- What coadding leaves as it is. -/
theorem coadd_start {sqrt : K → K} {smooth : List K → K → List K} {junk : Nat → K} {nan eps : K}
    {s t : Spectrum K} {varlss eta : K → K} (hs : s.smoothing ≤ 0) (hc : s.cont = [])
    (h : s.coaddArmsForest sqrt smooth junk nan eps varlss eta = .ok t) : t.valid = s.valid ∧ t.cont = [] := by
  unfold coaddArmsForest at h
  obtain ⟨g, hg, h⟩ := except_bind_eq_ok.mp h
  obtain ⟨fi, hfi, h⟩ := except_bind_eq_ok.mp h
  obtain ⟨c, hcc, h⟩ := except_bind_eq_ok.mp h
  obtain ⟨r, hr, h⟩ := except_bind_eq_ok.mp h
  have hc' : c = [] := by
    unfold newCont at hcc
    rw [if_pos hc] at hcc
    cases hcc
    rfl
  subst hc'
  rw [except_pure] at h
  cases h
  rw [smooth_weight_none _ hs _ _ (u := s.replaceForest (linspace g.1 g.2.1 g.2.2) fi.1 fi.2 [] r) rfl]
  exact ⟨rfl, rfl⟩

/-- What the stacks and the calibrations need of a spectrum. -/
structure OneSide (C : FullCfg K) (s : Spectrum K) : Prop where
  nodup : s.fwave.keys.Nodup
  bins : InBins C s
  ivar : ∀ x ∈ s.fwave, (s.fivar.arr x.1).length = x.2.length
  masked : ∀ p ∈ s.fwave.flatMap (armData s), 0 ≤ p.ivar ∧ (p.ivar = 0 → p.weight = 0)
  weighted : (∀ x ∈ s.fwave, s.cont.arr x.1 = []) ∨ s.weight ≠ none

omit [Field K] [LinearOrder K] [FloorRing K] [IsStrictOrderedRing K] in
theorem armData_none {s : Spectrum K} (h : s.cont = []) : s.fwave.flatMap (armData s) = [] := by
  rw [List.flatMap_eq_nil_iff]
  intro x _
  unfold armData
  rw [h]
  simp [Dict.arr]

/-- The pixels of the coadded spectrum. -/
theorem coadd_pix {u : Spectrum K} (h : BeforeFit u) {lo hi : K} {n : Nat} (hg : OnCommonGrid u lo hi n)
    {sqrt : K → K} {smooth : List K → K → List K} {junk : Nat → K} {nan eps : K} {vl eta : K → K} {t : Spectrum K}
    (ht : u.coaddArmsForest sqrt smooth junk nan eps vl eta = .ok t) :
    armsPix t = (List.range (n + 1)).map (fun k => ⟨gridWave lo hi n k,
      if 0 < sumWeight (armsCell u lo k) then 1 / meanVar (armsCell u lo k) else 0,
      if 0 < sumWeight (armsCell u lo k) then meanFlux (armsCell u lo k) else 0,
      if 0 < sumWeight (armsCell u lo k) then 1 / meanVar (armsCell u lo k) else 0⟩) := by
  obtain ⟨tw, tf, tv, ts, tz⟩ := coadd_before h hg _ _ _ _ _ _ _ ht
  obtain ⟨_, _, -, -, -, -, hwt, -, -⟩ := coaddArmsForest_inv h.smoothing h.cont ht
  have e : t.fweight = t.fivar := by
    unfold fweight
    rw [hwt]
    exact fivarSm_before ts
  unfold armsPix forestPix pixelsOf
  rw [e, tw, tf, tv]
  simp only [List.map_cons, List.map_nil, List.flatten_cons, List.flatten_nil, List.append_nil, Dict.arr, List.lookup_cons,
    beq_self_eq_true, Option.getD_some]
  apply List.ext_getElem
  · simp
  · intro i _ _
    simp

omit [IsStrictOrderedRing K] in
theorem fitOne_weighted (C : FullCfg K) (g : FullState K) (s : Spectrum K) :
    (∀ x ∈ (C.fitOne g s).fwave, (C.fitOne g s).cont.arr x.1 = []) ∨ (C.fitOne g s).weight ≠ none := by
  unfold FullCfg.fitOne piccaFit
  generalize (if (C.minimize (piccaCost C.log (C.meancont g) C.meanflux g.varlss g.eta (C.rfwave.getD 0 0) C.denom s)
      (startA0 s :: List.replicate C.order 0)).1 = true then _ else _ : Spectrum K) = t
  unfold endFit setForestWeight calcContinuumChi2 clearCont
  by_cases h : t.valid = false ∨ t.cont = []
  · left
    rw [if_pos h]
    dsimp only
    rw [if_pos h]
    split
    next hv =>
      have hc : t.cont = [] := h.resolve_left (by rw [show t.valid = true from hv]; simp)
      intro x _
      change t.cont.arr x.1 = []
      rw [hc]
      rfl
    · exact fun x _ => rfl
  · right
    rw [if_neg h]
    dsimp only
    rw [if_neg h]
    split <;> simp

omit [IsStrictOrderedRing K] in
/-- Fields which the fit does not change. -/
theorem fitOne_keeps (C : FullCfg K) (g : FullState K) (s : Spectrum K) : (C.fitOne g s).fwave = s.fwave ∧
    (C.fitOne g s).fivar = s.fivar ∧ (C.fitOne g s).z = s.z ∧
    ((C.fitOne g s).valid = false → (C.fitOne g s).cont = []) := by
  refine ⟨?_, ?_, (fitOne_sub C g s).2, ?_⟩
  · unfold FullCfg.fitOne piccaFit
    rw [(endFit_same _ _ _).1]
    split <;> rfl
  · unfold FullCfg.fitOne piccaFit
    rw [(endFit_same _ _ _).2.2.1]
    split <;> rfl
  · unfold FullCfg.fitOne piccaFit
    intro h
    rw [(endFit_cases _ _ _).1] at h
    exact ((endFit_cases _ _ _).2.2 h).1

/-- The fit of the arms and the fit of the coadded arms. -/
theorem pair_fit {C : FullCfg K} {u t : Spectrum K} (hp : CoaddPair C u t) {g : FullState K} (hg : GoodVar g) :
    SamePixels (C.fitOne g u) (C.fitOne g t) ∧ OneSide C (C.fitOne g u) ∧ OneSide C (C.fitOne g t) := by
  obtain ⟨⟨hb, hbins, lo, hi, n, hgr, hk⟩, sqrt, smooth, junk, nan, eps, vl0, eta0, ht⟩ := hp
  obtain ⟨t', ht', hst, hc⟩ := C122_cost hb hgr sqrt smooth junk nan eps vl0 eta0
  rw [ht] at ht'
  cases ht'
  have ho : OverlapOk u lo hi n g.varlss := fun k hk' => Or.inl (hk k hk').2
  have hm : C.minimize (piccaCost C.log (C.meancont g) C.meanflux g.varlss g.eta (C.rfwave.getD 0 0) C.denom t)
        (startA0 t :: List.replicate C.order 0) =
      C.minimize (piccaCost C.log (C.meancont g) C.meanflux g.varlss g.eta (C.rfwave.getD 0 0) C.denom u)
        (startA0 u :: List.replicate C.order 0) := by
    obtain ⟨D, hD, hx⟩ := hc C.log (C.meancont g) C.meanflux g.varlss g.eta (C.rfwave.getD 0 0) C.denom ho
    rw [hst, funext hx, hD fun k hk' => (hk k hk').2]
    simp only [add_zero]
  obtain ⟨hsame, hback⟩ := sameAfterFit_of hb hgr C g (fun w => (hg w).1) (fun w => (hg w).2) ho ht hm
  have hval : (C.fitOne g u).valid = (C.fitOne g t).valid := by
    rw [Bool.eq_iff_iff]
    exact ⟨fun h => hback h fun k hk' => (hk k hk').1, fun h => (hsame h).1⟩
  obtain ⟨tw, tf, tv, ts, tz⟩ := coadd_before hb hgr _ _ _ _ _ _ _ ht
  obtain ⟨_, _, -, -, -, -, twt, -, -⟩ := coaddArmsForest_inv hb.smoothing hb.cont ht
  have tweq : t.fweight = t.fivar := by
    unfold fweight
    rw [twt]
    exact fivarSm_before ts
  have hne : u.fwave ≠ [] := by
    obtain ⟨a, ha, -⟩ := hgr.least.1
    exact List.ne_nil_of_mem ha
  have htn : t.fwave.keys.Nodup := by rw [tw]; simp [Dict.keys]
  have tbins : InBins C t := by
    rw [InBins, tw, tz]
    intro a ha
    obtain rfl := List.mem_singleton.mp ha
    have key : ∀ w ∈ (List.range (n + 1)).map (gridWave lo hi n), ∃ b ∈ u.fwave, w ∈ b.2 := by
      intro w hw
      obtain ⟨k, hk', rfl⟩ := List.mem_map.mp hw
      obtain ⟨p, hpp⟩ := List.exists_mem_of_ne_nil _ (hk k (by have := List.mem_range.mp hk'; omega)).1
      obtain ⟨-, -, e⟩ := cell_pix hb hgr k p hpp
      obtain ⟨b, hb', hwb⟩ := (before_pix hb p (List.mem_filter.mp hpp).1).2.2
      exact ⟨b, hb', e ▸ hwb⟩
    unfold Stacker.fits
    simp only [List.all_eq_true]
    constructor
    · intro w hw
      obtain ⟨b, hb', hwb⟩ := key w hw
      have := (hbins b hb').1
      unfold Stacker.fits at this
      exact List.all_eq_true.mp this w hwb
    · intro v hv
      obtain ⟨w, hw, rfl⟩ := List.mem_map.mp hv
      obtain ⟨b, hb', hwb⟩ := key w hw
      have := (hbins b hb').2
      unfold Stacker.fits at this
      exact List.all_eq_true.mp this _ (List.mem_map.mpr ⟨w, hwb, rfl⟩)
  have tiv : ∀ x ∈ t.fwave, (t.fivar.arr x.1).length = x.2.length := by
    rw [tw, tv]
    intro x hx
    obtain rfl := List.mem_singleton.mp hx
    rw [arr_brz]
    simp
  have tfl : ∀ x ∈ t.fwave, (t.fflux.arr x.1).length = x.2.length := by
    rw [tw, tf]
    intro x hx
    obtain rfl := List.mem_singleton.mp hx
    rw [arr_brz]
    simp
  -- fields which the fit does not change
  have fitF := fitOne_keeps C g
  have hz : (C.fitOne g u).z = (C.fitOne g t).z := by rw [(fitF u).2.2.1, (fitF t).2.2.1, tz]
  have ubins' : InBins C (C.fitOne g u) := InBins.mono hbins (fitOne_sub C g u)
  have tbins' : InBins C (C.fitOne g t) := tbins.mono (fitOne_sub C g t)
  have side : ∀ s : Spectrum K, s.fwave.keys.Nodup → InBins C s →
      (∀ x ∈ s.fwave, (s.fivar.arr x.1).length = x.2.length) →
      (∀ p ∈ (C.fitOne g s).fwave.flatMap (armData (C.fitOne g s)), 0 ≤ p.ivar ∧ (p.ivar = 0 → p.weight = 0)) →
      OneSide C (C.fitOne g s) := by
    intro s h1 h2 h3 h4
    refine ⟨?_, h2.mono (fitOne_sub C g s), ?_, h4, fitOne_weighted C g s⟩
    · rw [(fitF s).1]; exact h1
    · rw [(fitF s).1, (fitF s).2.1]; exact h3
  by_cases hv : (C.fitOne g u).valid = true
  · have hvt : (C.fitOne g t).valid = true := hval ▸ hv
    have hmu := hm
    unfold FullCfg.fitOne at hv hvt
    rw [hm] at hvt
    obtain ⟨c, chi2, -, hc', eu⟩ := piccaFit_valid hb.ok.nodup hne hv
    obtain ⟨ct, chi2t, -, hct, et⟩ := piccaFit_valid htn (by rw [tw]; simp) hvt
    rw [tz] at hct
    have du := armData_fit hb.ok.nodup hb.ivarSm hb.ok.flux hb.ok.ivar hb.ok.weight
      (C := fun v => piccaModel C.log (C.meancont g) (C.rfwave.getD 0 0) C.denom (C.minimize (piccaCost C.log (C.meancont g)
        C.meanflux g.varlss g.eta (C.rfwave.getD 0 0) C.denom u) (startA0 u :: List.replicate C.order 0)).2
        (v / (1 + u.z)) * C.meanflux v) hc' eu
    have dt := armData_fit htn ts tfl tiv (by rw [tweq]; exact tiv)
      (C := fun v => piccaModel C.log (C.meancont g) (C.rfwave.getD 0 0) C.denom (C.minimize (piccaCost C.log (C.meancont g)
        C.meanflux g.varlss g.eta (C.rfwave.getD 0 0) C.denom u) (startA0 u :: List.replicate C.order 0)).2
        (v / (1 + u.z)) * C.meanflux v) hct et
    rw [← hm] at dt
    change (C.fitOne g t).fwave.flatMap (armData (C.fitOne g t)) = _ at dt
    rw [hm] at dt
    change (C.fitOne g u).fwave.flatMap (armData (C.fitOne g u)) = _ at du
    generalize (fun v => piccaModel C.log (C.meancont g) (C.rfwave.getD 0 0) C.denom (C.minimize (piccaCost C.log
        (C.meancont g) C.meanflux g.varlss g.eta (C.rfwave.getD 0 0) C.denom u) (startA0 u :: List.replicate C.order 0)).2
        (v / (1 + u.z)) * C.meanflux v) = F at du dt
    rw [coadd_pix hb hgr ht, List.map_map] at dt
    refine ⟨⟨hz, hval, fun _ => ?_⟩, side u hb.ok.nodup hbins hb.ok.ivar ?_, side t htn tbins tiv ?_⟩
    · unfold goodData
      rw [du, dt]
      have e : ((List.range (n + 1)).map (pixFit g.varlss g.eta F ∘ fun k => ⟨gridWave lo hi n k,
            if 0 < sumWeight (armsCell u lo k) then 1 / meanVar (armsCell u lo k) else 0,
            if 0 < sumWeight (armsCell u lo k) then meanFlux (armsCell u lo k) else 0,
            if 0 < sumWeight (armsCell u lo k) then 1 / meanVar (armsCell u lo k) else 0⟩)).filter
              (fun p => decide (0 < p.ivar)) =
          (List.range (n + 1)).flatMap (fun k =>
            (((armsPix u).filter (fun p => decide (0 < p.ivar))).filter
              (fun p : Pix K => decide (InCell lo u.dwave k p.wave))).map (pixFit g.varlss g.eta F)) := by
        rw [List.map_eq_flatMap, List.filter_flatMap]
        refine List.flatMap_congr ?_
        intro k hk'
        have hk' : k ≤ n := by have := List.mem_range.mp hk'; omega
        rw [List.filter_comm]
        exact cell_good (fun p hp => (cell_pix hb hgr k p hp).1) (fun p hp => (cell_pix hb hgr k p hp).2.1)
          (fun p hp => (cell_pix hb hgr k p hp).2.2) (hk k hk').2 g.varlss g.eta F
      rw [e, ← List.map_flatMap, List.filter_map]
      refine List.Perm.map _ (List.Perm.symm ?_)
      refine perm_classes _ (fun k (p : Pix K) => decide (InCell lo u.dwave k p.wave)) (n + 1) ?_
      intro p hpp
      exact pix_cell hb hgr p (List.mem_filter.mp hpp).1
    · rw [du]
      intro p hpp
      obtain ⟨q, hq, rfl⟩ := List.mem_map.mp hpp
      refine ⟨(before_pix hb q hq).1, fun h0 => ?_⟩
      change pixelWeight _ _ _ q.ivar = 0
      rw [show q.ivar = 0 from h0, pixelWeight_masked]
    · rw [dt]
      intro p hpp
      obtain ⟨k, hk', rfl⟩ := List.mem_map.mp hpp
      refine ⟨?_, fun h0 => ?_⟩
      · change 0 ≤ if 0 < sumWeight (armsCell u lo k) then 1 / meanVar (armsCell u lo k) else 0
        split
        next hs =>
          rw [C26_ivar_adds (fun p hp => (cell_pix hb hgr k p hp).1) (fun p hp => (cell_pix hb hgr k p hp).2.1) hs]
          refine List.sum_nonneg ?_
          intro y hy
          obtain ⟨p, hp, rfl⟩ := List.mem_map.mp hy
          exact (cell_pix hb hgr k p hp).1
        · exact le_refl _
      · change pixelWeight _ _ _ (if 0 < sumWeight (armsCell u lo k) then 1 / meanVar (armsCell u lo k) else 0) = 0
        rw [show (if 0 < sumWeight (armsCell u lo k) then 1 / meanVar (armsCell u lo k) else 0) = 0 from h0,
          pixelWeight_masked]
  · have hv' : (C.fitOne g u).valid = false := by simpa using hv
    refine ⟨⟨hz, hval, fun h => absurd h hv⟩, side u hb.ok.nodup hbins hb.ok.ivar ?_, side t htn tbins tiv ?_⟩
    · rw [armData_none ((fitF u).2.2.2 hv')]
      intro p hp
      cases hp
    · rw [armData_none ((fitF t).2.2.2 (hval ▸ hv'))]
      intro p hp
      cases hp

/-- The two spectra in the fit and after it. -/
structure BothSides (C : FullCfg K) (u t : Spectrum K) : Prop where
  same : SamePixels u t
  left : OneSide C u
  right : OneSide C t

omit [IsStrictOrderedRing K] in
/-- Before the first fit. -/
theorem pair_start {C : FullCfg K} {u t : Spectrum K} (hp : CoaddPair C u t) : SamePixels u t := by
  obtain ⟨⟨hb, hbins, lo, hi, n, hgr, hk⟩, sqrt, smooth, junk, nan, eps, vl0, eta0, ht⟩ := hp
  obtain ⟨h1, h2⟩ := coadd_start hb.smoothing hb.cont ht
  obtain ⟨_, _, -, -, -, -, -, hz, -⟩ := coaddArmsForest_inv hb.smoothing hb.cont ht
  refine ⟨hz.symm, h1.symm, fun _ => ?_⟩
  unfold goodData
  rw [armData_none hb.cont, armData_none h2]

/-! ### The stacks -/

omit [LinearOrder K] [FloorRing K] [IsStrictOrderedRing K] in
theorem binAdd_zero (a : List K) (i : Int) : binAdd a [i] [0] = a := by
  refine List.ext_getElem? fun k => ?_
  have := binAdd_get a [()] (fun _ => i) (fun _ => (0 : K)) k
  rw [List.map_cons, List.map_nil, List.map_cons, List.map_nil] at this
  rw [this]
  have e : ((([()] : List Unit).filter (fun _ => decide (i = (k : Int)))).map (fun _ => (0 : K))).sum = 0 := by
    by_cases h : i = (k : Int) <;> simp [h]
  rw [e]
  simp

omit [IsStrictOrderedRing K] in
theorem stackAll_masked (st : Stacker K) {p : SPix K} (h1 : p.wflux = 0) (h2 : p.wcont = 0) (h3 : p.weight = 0) :
    stackAll st [p] = st := by
  unfold stackAll Stacker.addObs Stacker.addRf
  simp only [List.map_cons, List.map_nil, h1, h2, h3, binAdd_zero]

/-- What is added to the stacks for a pixel. -/
def toStack (r : Bool) (z : K) (p : PixData K) : SPix K := stackPix r z p.wave p.flux p.weight p.cont

omit [IsStrictOrderedRing K] in
theorem stackAll_good (r : Bool) (z : K) (st : Stacker K) {l : List (PixData K)}
    (h : ∀ p ∈ l, 0 ≤ p.ivar ∧ (p.ivar = 0 → p.weight = 0)) :
    stackAll st (l.map (toStack r z)) = stackAll st ((l.filter (fun p => decide (0 < p.ivar))).map (toStack r z)) := by
  induction l generalizing st with
  | nil => rfl
  | cons p l ih =>
    have ih := fun st => ih st fun q hq => h q (List.mem_cons_of_mem _ hq)
    rw [List.map_cons, ← List.singleton_append, ← stackAll_append]
    by_cases hp : 0 < p.ivar
    · rw [List.filter_cons_of_pos (by simpa using hp), List.map_cons, ← List.singleton_append (l := List.map _ _),
        ← stackAll_append, ih]
    · rw [List.filter_cons_of_neg (by simpa using hp)]
      obtain ⟨h1, h2⟩ := h p List.mem_cons_self
      have hw := h2 (le_antisymm (not_lt.mp hp) h1)
      rw [stackAll_masked, ih]
      · change p.weight * p.cont ^ 2 * p.flux / p.cont = 0
        rw [hw]; simp
      · change (if r = true then p.weight * p.cont ^ 2 * p.flux / p.cont else p.weight * p.cont ^ 2 * p.cont) = 0
        rw [hw]; simp
      · change p.weight * p.cont ^ 2 = 0
        rw [hw]; simp

omit [IsStrictOrderedRing K] in
theorem stackArm_data {C : FullCfg K} {s : Spectrum K} (h : OneSide C s) (r : Bool) :
    (s.fwave.map (stackArm r s)).flatten = (s.fwave.flatMap (armData s)).map (toStack r s.z) := by
  rw [List.map_flatMap, List.flatMap_def]
  refine congrArg List.flatten (List.map_congr_left fun x hx => ?_)
  have a := h.ivar x hx
  unfold stackArm armData
  rw [List.map_map]
  apply List.ext_getElem
  · simp [a]
    omega
  · intro i _ _
    simp [toStack]

omit [IsStrictOrderedRing K] in
theorem stackAll_same {C : FullCfg K} {u t : Spectrum K} (h : BothSides C u t) (hv : u.valid = true) (r : Bool)
    (st : Stacker K) : stackAll st (u.fwave.map (stackArm r u)).flatten = stackAll st (t.fwave.map (stackArm r t)).flatten := by
  rw [stackArm_data h.left, stackArm_data h.right, stackAll_good r u.z st h.left.masked,
    stackAll_good r t.z st h.right.masked, ← h.same.1]
  exact stackAll_perm st ((h.same.2.2 hv).map _)

omit [IsStrictOrderedRing K] in
theorem stackRank_same {C : FullCfg K} {l l' : List (Spectrum K)} (h : List.Forall₂ (BothSides C) l l') :
    C.stackRank l = C.stackRank l' := by
  have hf : List.Forall₂ (BothSides C) (l.filter (·.valid)) (l'.filter (·.valid)) :=
    filter_rel (fun a b hab => hab.same.2.1) h
  have hv : ∀ s ∈ l.filter (·.valid), s.valid = true := fun s hs => (List.mem_filter.mp hs).2
  unfold FullCfg.stackRank Spectrum.stackSpectra
  generalize l.filter (·.valid) = m at hf hv
  generalize l'.filter (·.valid) = m' at hf
  have key : ∀ (m : List (Spectrum K)), (∀ s ∈ m, InBins C s) →
      (Stacker.new C.obs C.rf).reset.addList (m.flatMap (fun s => s.fwave.map (stackArm C.residual s))) =
        (stackAll (Stacker.new C.obs C.rf).reset (m.flatMap (fun s => s.fwave.map (stackArm C.residual s))).flatten, none) := by
    intro m hm
    refine addList_all _ fun p hp => ?_
    obtain ⟨s, hs, hp⟩ := List.mem_flatMap.mp hp
    obtain ⟨a, ha, rfl⟩ := List.mem_map.mp hp
    exact stackArm_fits C (hm s hs) ha _
  have hl : (∀ s ∈ m, InBins C s) ∧ ∀ s ∈ m', InBins C s := by
    clear hv key
    induction hf with
    | nil => exact ⟨fun s hs => (by cases hs), fun s hs => (by cases hs)⟩
    | cons hab _ ih =>
      refine ⟨fun s hs => ?_, fun s hs => ?_⟩
      · rcases List.mem_cons.mp hs with rfl | hs
        · exact hab.left.bins
        · exact ih.1 s hs
      · rcases List.mem_cons.mp hs with rfl | hs
        · exact hab.right.bins
        · exact ih.2 s hs
  rw [key m hl.1, key m' hl.2]
  have e : ∀ st : Stacker K, stackAll st (m.flatMap (fun s => s.fwave.map (stackArm C.residual s))).flatten =
      stackAll st (m'.flatMap (fun s => s.fwave.map (stackArm C.residual s))).flatten := by
    clear key hl
    induction hf with
    | nil => exact fun _ => rfl
    | cons hab _ ih =>
      intro st
      rw [List.flatMap_cons, List.flatMap_cons, List.flatten_append, List.flatten_append, ← stackAll_append,
        ← stackAll_append, stackAll_same hab (hv _ List.mem_cons_self),
        ih fun s hs => hv s (List.mem_cons_of_mem _ hs)]
  rw [e]

/-! ### The calibrations after the iterations -/

omit [IsStrictOrderedRing K] in
theorem normSpec_arr (st : Stacker K) {s : Spectrum K} (hn : s.fwave.keys.Nodup) :
    (∀ x ∈ s.fwave, (normSpec st s).cont.arr x.1 = normArm st x.2 (s.cont.arr x.1)) ∧
    normSpec st s = { s with cont := (normSpec st s).cont } := by
  have key : ∀ (l : Dict (List K)) (t : Spectrum K), l.keys.Nodup →
      (∀ x ∈ l, (l.foldl (fun (t : Spectrum K) (a : String × List K) =>
        { t with cont := t.cont.set a.1 (normArm st a.2 (t.cont.arr a.1)) }) t).cont.arr x.1 =
          normArm st x.2 (t.cont.arr x.1)) ∧
      (∀ a, a ∉ l.keys → (l.foldl (fun (t : Spectrum K) (a : String × List K) =>
        { t with cont := t.cont.set a.1 (normArm st a.2 (t.cont.arr a.1)) }) t).cont.arr a = t.cont.arr a) ∧
      ∃ c, l.foldl (fun (t : Spectrum K) (a : String × List K) =>
        { t with cont := t.cont.set a.1 (normArm st a.2 (t.cont.arr a.1)) }) t = { t with cont := c } := by
    intro l
    induction l with
    | nil => exact fun t _ => ⟨fun x hx => (by cases hx), fun _ _ => rfl, t.cont, rfl⟩
    | cons a l ih =>
      intro t hn
      have hn' : a.1 ∉ Dict.keys l ∧ (Dict.keys l).Nodup := List.nodup_cons.mp hn
      obtain ⟨i1, i2, c, i3⟩ := ih { t with cont := t.cont.set a.1 (normArm st a.2 (t.cont.arr a.1)) } hn'.2
      refine ⟨fun x hx => ?_, fun b hb => ?_, c, i3⟩
      · rcases List.mem_cons.mp hx with rfl | hx
        · rw [List.foldl_cons, i2 _ hn'.1]
          dsimp only
          rw [arr_set, if_pos rfl]
        · rw [List.foldl_cons, i1 x hx]
          dsimp only
          rw [arr_set, if_neg]
          rintro he
          exact hn'.1 (he ▸ List.mem_map.mpr ⟨x, hx, rfl⟩)
      · have hb' : b ≠ a.1 ∧ b ∉ Dict.keys l := by
          constructor
          · rintro rfl
            exact hb List.mem_cons_self
          · exact fun h => hb (List.mem_cons_of_mem _ h)
        rw [List.foldl_cons, i2 b hb'.2]
        dsimp only
        rw [arr_set, if_neg hb'.1]
  obtain ⟨k1, -, c, k3⟩ := key s.fwave s hn
  refine ⟨k1, ?_⟩
  unfold normSpec
  rw [k3]

omit [LinearOrder K] [FloorRing K] [IsStrictOrderedRing K] in
theorem etaCalib_arr (eta : K → K) {s : Spectrum K} (hn : s.fwave.keys.Nodup) :
    (∀ x ∈ s.fwave, (etaCalibIvar eta s).fivar.arr x.1 =
      List.zipWith (fun w v => v / eta w) x.2 (s.fivar.arr x.1)) ∧
    etaCalibIvar eta s = { s with fivar := (etaCalibIvar eta s).fivar } := by
  have key : ∀ (l : Dict (List K)) (t : Spectrum K), l.keys.Nodup →
      (∀ x ∈ l, (l.foldl (etaArm eta) t).fivar.arr x.1 = List.zipWith (fun w v => v / eta w) x.2 (t.fivar.arr x.1)) ∧
      (∀ a, a ∉ l.keys → (l.foldl (etaArm eta) t).fivar.arr a = t.fivar.arr a) ∧
      ∃ c, l.foldl (etaArm eta) t = { t with fivar := c } := by
    intro l
    induction l with
    | nil => exact fun t _ => ⟨fun x hx => (by cases hx), fun _ _ => rfl, t.fivar, rfl⟩
    | cons a l ih =>
      intro t hn
      have hn' : a.1 ∉ Dict.keys l ∧ (Dict.keys l).Nodup := List.nodup_cons.mp hn
      obtain ⟨i1, i2, c, i3⟩ := ih (etaArm eta t a) hn'.2
      have e : ∀ b, (etaArm eta t a).fivar.arr b =
          if b = a.1 then List.zipWith (fun w v => v / eta w) a.2 (t.fivar.arr a.1) else t.fivar.arr b := by
        intro b
        change (t.fivar.set a.1 _).arr b = _
        rw [arr_set]
      refine ⟨fun x hx => ?_, fun b hb => ?_, c, i3⟩
      · rcases List.mem_cons.mp hx with rfl | hx
        · rw [List.foldl_cons, i2 _ hn'.1, e, if_pos rfl]
        · rw [List.foldl_cons, i1 x hx, e, if_neg]
          rintro he
          exact hn'.1 (he ▸ List.mem_map.mpr ⟨x, hx, rfl⟩)
      · have hb' : b ≠ a.1 ∧ b ∉ Dict.keys l := by
          constructor
          · rintro rfl
            exact hb List.mem_cons_self
          · exact fun h => hb (List.mem_cons_of_mem _ h)
        rw [List.foldl_cons, i2 b hb'.2, e, if_neg hb'.1]
  obtain ⟨k1, -, c, k3⟩ := key s.fwave s hn
  refine ⟨k1, ?_⟩
  unfold etaCalibIvar
  rw [k3]

omit [IsStrictOrderedRing K] in
theorem normSpec_data {C : FullCfg K} (st : Stacker K) {s : Spectrum K} (h : OneSide C s) :
    (normSpec st s).fwave.flatMap (armData (normSpec st s)) = (s.fwave.flatMap (armData s)).map
      (fun p => { p with cont := p.cont * (st.interp.eval p.wave).getD 1 }) ∧ OneSide C (normSpec st s) := by
  obtain ⟨h1, h2⟩ := normSpec_arr st h.nodup
  have fw : (normSpec st s).fwave = s.fwave := by rw [h2]
  have data : (normSpec st s).fwave.flatMap (armData (normSpec st s)) = (s.fwave.flatMap (armData s)).map
      (fun p => { p with cont := p.cont * (st.interp.eval p.wave).getD 1 }) := by
    rw [List.map_flatMap, fw]
    refine List.flatMap_congr ?_
    intro x hx
    have e1 := h1 x hx
    have e2 : (normSpec st s).fflux = s.fflux := by rw [h2]
    have e3 : (normSpec st s).fivar = s.fivar := by rw [h2]
    have e4 : (normSpec st s).fweight = s.fweight := by rw [h2]; rfl
    unfold armData
    rw [e1, e2, e3, e4, List.map_map]
    unfold normArm mulFlux
    apply List.ext_getElem
    · simp
      omega
    · intro i _ _
      simp
  refine ⟨data, ?_, h.bins.mono (normSpec_sub st s), ?_, ?_, ?_⟩
  · rw [fw]; exact h.nodup
  · rw [fw]
    have e3 : (normSpec st s).fivar = s.fivar := by rw [h2]
    rw [e3]
    exact h.ivar
  · rw [data]
    intro p hp
    obtain ⟨q, hq, rfl⟩ := List.mem_map.mp hp
    exact h.masked q hq
  · rcases h.weighted with hw | hw
    · left
      rw [fw]
      intro x hx
      rw [h1 x hx, hw x hx]
      unfold normArm mulFlux
      simp
    · right
      have e5 : (normSpec st s).weight = s.weight := by rw [h2]
      rwa [e5]

theorem etaCalib_data {C : FullCfg K} {eta : K → K} (heta : ∀ w, 0 < eta w) {s : Spectrum K} (h : OneSide C s) :
    (etaCalibIvar eta s).fwave.flatMap (armData (etaCalibIvar eta s)) = (s.fwave.flatMap (armData s)).map
      (fun p => { p with ivar := p.ivar / eta p.wave }) ∧ OneSide C (etaCalibIvar eta s) := by
  obtain ⟨h1, h2⟩ := etaCalib_arr eta h.nodup
  have fw : (etaCalibIvar eta s).fwave = s.fwave := by rw [h2]
  have fc : (etaCalibIvar eta s).cont = s.cont := by rw [h2]
  have fweq : (etaCalibIvar eta s).weight = s.weight := by rw [h2]
  have hlen : ∀ x ∈ s.fwave, ((etaCalibIvar eta s).fivar.arr x.1).length = x.2.length := by
    intro x hx
    rw [h1 x hx, List.length_zipWith, h.ivar x hx, min_self]
  have data : (etaCalibIvar eta s).fwave.flatMap (armData (etaCalibIvar eta s)) = (s.fwave.flatMap (armData s)).map
      (fun p => { p with ivar := p.ivar / eta p.wave }) := by
    rw [List.map_flatMap, fw]
    refine List.flatMap_congr ?_
    intro x hx
    rcases h.weighted with hw | hw
    · unfold armData
      rw [fc, hw x hx]
      simp
    · have e1 := h1 x hx
      have e2 : (etaCalibIvar eta s).fflux = s.fflux := by rw [h2]
      have e4 : (etaCalibIvar eta s).fweight = s.fweight := by
        unfold fweight
        rw [fweq]
        cases hc : s.weight with
        | none => exact absurd hc hw
        | some w => rfl
      have a := h.ivar x hx
      unfold armData
      rw [e1, e2, fc, e4, List.map_map]
      apply List.ext_getElem
      · simp [a]
      · intro i _ _
        simp
  refine ⟨data, ?_, h.bins.mono (etaCalibIvar_sub eta s), ?_, ?_, ?_⟩
  · rw [fw]; exact h.nodup
  · rw [fw]; exact hlen
  · rw [data]
    intro p hp
    obtain ⟨q, hq, rfl⟩ := List.mem_map.mp hp
    obtain ⟨m1, m2⟩ := h.masked q hq
    have he := heta q.wave
    refine ⟨by positivity, fun h0 => ?_⟩
    change q.ivar / eta q.wave = 0 at h0
    exact m2 ((div_eq_zero_iff.mp h0).resolve_right he.ne')
  · rw [fw, fc, fweq]
    exact h.weighted

omit [IsStrictOrderedRing K] in
theorem normSpec_same {C : FullCfg K} (st : Stacker K) {u t : Spectrum K} (h : BothSides C u t) :
    BothSides C (normSpec st u) (normSpec st t) := by
  obtain ⟨a1, a2⟩ := normSpec_data st h.left
  obtain ⟨b1, b2⟩ := normSpec_data st h.right
  refine ⟨⟨?_, ?_, ?_⟩, a2, b2⟩
  · rw [(normSpec_sub st u).2, (normSpec_sub st t).2]; exact h.same.1
  · rw [normSpec_valid, normSpec_valid]; exact h.same.2.1
  · intro hv
    rw [normSpec_valid] at hv
    unfold goodData
    rw [a1, b1, List.filter_map, List.filter_map]
    exact (h.same.2.2 hv).map _

theorem etaCalib_same {C : FullCfg K} {eta : K → K} (heta : ∀ w, 0 < eta w) {u t : Spectrum K} (h : BothSides C u t) :
    BothSides C (etaCalibIvar eta u) (etaCalibIvar eta t) := by
  obtain ⟨a1, a2⟩ := etaCalib_data heta h.left
  obtain ⟨b1, b2⟩ := etaCalib_data heta h.right
  have ev : ∀ s : Spectrum K, s.fwave.keys.Nodup → (etaCalibIvar eta s).valid = s.valid := by
    intro s hs
    rw [(etaCalib_arr eta hs).2]
  refine ⟨⟨?_, ?_, ?_⟩, a2, b2⟩
  · rw [(etaCalibIvar_sub eta u).2, (etaCalibIvar_sub eta t).2]; exact h.same.1
  · rw [ev u h.left.nodup, ev t h.right.nodup]; exact h.same.2.1
  · intro hv
    rw [ev u h.left.nodup] at hv
    unfold goodData
    rw [a1, b1, List.filter_map, List.filter_map]
    have e : ((fun p : PixData K => decide (0 < p.ivar)) ∘ fun p : PixData K => { p with ivar := p.ivar / eta p.wave }) =
        fun p : PixData K => decide (0 < p.ivar) := by
      funext p
      simp only [Function.comp_apply]
      exact decide_eq_decide.mpr (div_pos_iff_of_pos_right (heta p.wave))
    rw [e]
    exact (h.same.2.2 hv).map _

/-! ### The iterations -/

/-- The two spectra during the iterations: what the next fit starts from are the data. -/
structure LoopFit (C : FullCfg K) (u t : Spectrum K) : Prop where
  now : BothSides C u t
  data : ∃ u0 t0, CoaddPair C u0 t0 ∧ (∀ g, C.fitOne g u = C.fitOne g u0) ∧ ∀ g, C.fitOne g t = C.fitOne g t0

theorem loopFit_start {C : FullCfg K} {g : FullState K} (hg : GoodVar g) {u t : Spectrum K} (hp : CoaddPair C u t) :
    LoopFit C u t := by
  obtain ⟨-, s1, s2⟩ := pair_fit hp hg
  obtain ⟨⟨hb, -, -⟩, sqrt, smooth, junk, nan, eps, vl0, eta0, ht⟩ := id hp
  have side : ∀ s : Spectrum K, s.cont = [] → OneSide C (C.fitOne g s) → OneSide C s := by
    intro s hc h
    obtain ⟨k1, k2, k3, -⟩ := fitOne_keeps C g s
    refine ⟨k1 ▸ h.nodup, ?_, ?_, ?_, Or.inl fun x _ => by rw [hc]; rfl⟩
    · have := h.bins
      unfold InBins at this ⊢
      rwa [k1, k3] at this
    · have := h.ivar
      rwa [k1, k2] at this
    · rw [armData_none hc]
      exact fun p hp => (by cases hp)
  exact ⟨⟨pair_start hp, side u hb.cont s1, side t (coadd_start hb.smoothing hb.cont ht).2 s2⟩, u, t, hp,
    fun _ => rfl, fun _ => rfl⟩

theorem fitOne_loop {C : FullCfg K} {g : FullState K} (hg : GoodVar g) {u t : Spectrum K} (h : LoopFit C u t) :
    LoopFit C (C.fitOne g u) (C.fitOne g t) := by
  obtain ⟨-, u0, t0, hp, hu, ht⟩ := h
  obtain ⟨a, b, c⟩ := pair_fit hp hg
  refine ⟨⟨?_, ?_, ?_⟩, u0, t0, hp, fun g' => ?_, fun g' => ?_⟩
  · rw [hu, ht]; exact a
  · rw [hu]; exact b
  · rw [ht]; exact c
  · rw [fitOne_again]; exact hu g'
  · rw [fitOne_again]; exact ht g'

section
variable {C : FullCfg K} {Q D V : Type} {P : FitterFns (FullState K) (Spectrum K) (StackSums K) Q D}
  (c : FitterCodecs (StackSums K) Q V)

theorem fitContinua_loop {W : Type} {g : FullState K} (hg : GoodVar g) {l l' : List (Spectrum K)}
    (h : List.Forall₂ (LoopFit C) l l') :
    RelP (V := V) (W := W) (fun x y => List.Forall₂ (LoopFit C) x.1 y.1 ∧ x.2 = y.2)
      ((C.fns P).fitContinua c g l) ((C.fns P).fitContinua c g l') := by
  have h1 : List.Forall₂ (LoopFit C) (l.map (C.fitOne g)) (l'.map (C.fitOne g)) :=
    forall₂_map_rel (fun _ _ hab => fitOne_loop hg hab) h
  unfold FitterFns.fitContinua
  change RelP _ (Prog.allreduce _ (c.nat.enc ((l.map (C.fitOne g)).countP (fun s => s.valid))) _)
    (Prog.allreduce _ (c.nat.enc ((l'.map (C.fitOne g)).countP (fun s => s.valid))) _)
  rw [countP_rel (fun _ _ hab => hab.now.same.2.1) h1]
  refine .allreduce _ _ fun nv => ?_
  change RelP _ (Prog.allreduce _ (c.nat.enc ((l.map (C.fitOne g)).countP (fun s => !s.valid))) _)
    (Prog.allreduce _ (c.nat.enc ((l'.map (C.fitOne g)).countP (fun s => !s.valid))) _)
  rw [countP_rel (fun a b hab => by rw [hab.now.same.2.1]) h1]
  refine .allreduce _ _ fun ni => ?_
  split
  · exact .raise _
  · exact .ret ⟨h1, rfl⟩

omit [IsStrictOrderedRing K] in
theorem updateMeanCont_same {W : Type} (g : FullState K) {l l' : List (Spectrum K)} (h : List.Forall₂ (BothSides C) l l') :
    RelP (V := V) (W := W) (fun x y => x = y ∧ x.1.varlss = g.varlss ∧ x.1.eta = g.eta)
      ((C.fns P).updateMeanCont c g l) ((C.fns P).updateMeanCont c g l') := by
  unfold FitterFns.updateMeanCont
  dsimp only [FullCfg.fns]
  rw [stackRank_same (filter_rel (fun a b hab => hab.same.2.1) h)]
  exact .allreduce _ _ fun x => .ret ⟨rfl, rfl, rfl⟩

omit [IsStrictOrderedRing K] in
theorem updateVarLssEta_same (hP : SeesPixels P) {W : Type} (rank : Nat) (g : FullState K) {l l' : List (Spectrum K)}
    (h : List.Forall₂ (BothSides C) l l') :
    RelP (V := V) (W := W) (fun x y => x = y ∧ ∃ q, x = P.varUpd g q)
      ((C.fns P).updateVarLssEta c rank g l) ((C.fns P).updateVarLssEta c rank g l') := by
  unfold FitterFns.updateVarLssEta
  dsimp only [FullCfg.fns]
  rw [hP rank g (l.filter (fun s => s.valid)) (l'.filter (fun s => s.valid)) ?_]
  · exact .allreduce _ _ fun x => .ret ⟨rfl, _, rfl⟩
  · exact (filter_rel (fun a b hab => hab.same.2.1) h).imp fun _ _ hab => hab.same

/-- The results of the loop; `g` still has a variance that is not negative. -/
def CoaddIter (C : FullCfg K) (x y : FullState K × List (Spectrum K) × Nat × Bool) : Prop :=
  x.1 = y.1 ∧ List.Forall₂ (LoopFit C) x.2.1 y.2.1 ∧ x.2.2 = y.2.2 ∧ GoodVar x.1

theorem iterLoop_coadd (s : Saver) (rank : Nat) (hf : Bool) (hP : hf = true → SeesPixels P)
    (hgood : hf = true → ∀ g q, GoodVar g → GoodVar (P.varUpd g q)) (k it : Nat) {g : FullState K} (hg : GoodVar g)
    {l l' : List (Spectrum K)} (h : List.Forall₂ (LoopFit C) l l') :
    RelP (CoaddIter C) ((C.fns P).iterLoop c s rank hf k it g l) ((C.fns P).iterLoop c s rank hf k it g l') := by
  induction k generalizing it g l l' with
  | zero => exact .ret ⟨rfl, h, rfl, hg⟩
  | succ k ih =>
    refine RelP.emits ?_ _
    refine (fitContinua_loop c hg h).bind ?_
    rintro ⟨f, n⟩ ⟨f', n'⟩ ⟨hff, hn⟩
    dsimp only at hff hn ⊢
    refine (updateMeanCont_same c g (hff.imp fun _ _ hab => hab.now)).bind ?_
    rintro m m' ⟨rfl, m1, m2⟩
    have hgm : GoodVar m.1 := by
      unfold GoodVar
      rw [m1, m2]
      exact hg
    have hv : RelP (V := V) (W := SaverEv (String × D)) (fun x y => x = y ∧ GoodVar x)
        ((C.fns P).varStep c rank hf m.1 f) ((C.fns P).varStep c rank hf m.1 f') := by
      unfold FitterFns.varStep
      cases hf with
      | false => exact .ret ⟨rfl, hgm⟩
      | true =>
        rw [if_pos rfl, if_pos rfl]
        have := updateVarLssEta_same (C := C) (W := SaverEv (String × D)) c (hP rfl) rank m.1
          (hff.imp fun _ _ hab => hab.now)
        have h2 := this.bind (S := fun x y : FullState K => x = y ∧ GoodVar x) (f := .ret) (g := .ret) (by
          rintro a b ⟨rfl, q, rfl⟩
          exact .ret ⟨rfl, hgood rfl _ _ hgm⟩)
        exact h2
    refine hv.bind ?_
    rintro g2 g2' ⟨rfl, hg2⟩
    cases m.2 with
    | true => exact .ret ⟨rfl, hff, rfl, hg2⟩
    | false => exact ih (it + 1) hg2 hff

theorem tweak_same {g : FullState K} (hg : GoodVar g) {l l' : List (Spectrum K)} (h : List.Forall₂ (BothSides C) l l') :
    List.Forall₂ (BothSides C) ((C.fns P).tweak g l) ((C.fns P).tweak g l') := by
  unfold FitterFns.tweak
  refine forall₂_map_rel (T := BothSides C) ?_ (forall₂_map_rel (T := BothSides C) ?_ h)
  · intro a b hab
    change BothSides C (if C.etaCalib = true then etaCalibIvar g.eta a else a)
      (if C.etaCalib = true then etaCalibIvar g.eta b else b)
    split
    · exact etaCalib_same (fun w => (hg w).2) hab
    · exact hab
  · intro a b hab
    change BothSides C (if a.valid = true then (if C.normalize = true then normSpec g.stack a else a) else a)
      (if b.valid = true then (if C.normalize = true then normSpec g.stack b else b) else b)
    rw [hab.same.2.1]
    split
    · split
      · exact normSpec_same g.stack hab
      · exact hab
    · exact hab

theorem iterate_coadd (hP : SeesPixels P) (fname : String) (niter rank : Nat) (hf : Bool)
    (hgood : hf = true → ∀ g q, GoodVar g → GoodVar (P.varUpd g q)) {g : FullState K} (hg : GoodVar g)
    {l l' : List (Spectrum K)} (h : List.Forall₂ (CoaddPair C) l l') :
    RelP (fun x y => x.1 = y.1 ∧ List.Forall₂ SamePixels x.2.1 y.2.1 ∧ x.2.2 = y.2.2)
      ((C.fns P).iterate c fname niter hf rank g l) ((C.fns P).iterate c fname niter hf rank g l') := by
  unfold FitterFns.iterate
  dsimp only
  refine RelP.emits ?_ _
  refine (iterLoop_coadd c _ rank hf (fun _ => hP) hgood niter 0 hg (h.imp fun _ _ hab => loopFit_start hg hab)).bind ?_
  rintro ⟨g1, l1, k1⟩ ⟨g1', l1', k1'⟩ ⟨hg1, hl1, hk1, hgood1⟩
  dsimp only at hg1 hl1 hk1 hgood1
  subst hg1
  subst hk1
  refine RelP.emits ?_ _
  have ht := tweak_same (C := C) (P := P) hgood1 (hl1.imp fun _ _ hab => hab.now)
  generalize (C.fns P).tweak g1 l1 = t at ht ⊢
  generalize (C.fns P).tweak g1 l1' = t' at ht ⊢
  have hv : RelP (V := V) (W := SaverEv (String × D)) (fun x y => x = y)
      ((C.fns P).finalVar c (Saver.init (D := String × D) fname rank).2 rank hf g1 t)
      ((C.fns P).finalVar c (Saver.init (D := String × D) fname rank).2 rank hf g1 t') := by
    unfold FitterFns.finalVar
    cases hf with
    | true => exact .ret rfl
    | false =>
      simp only [Bool.false_eq_true, if_false]
      refine RelP.bind (R := fun x y => x = y) ?_ ?_
      · unfold FitterFns.fitFinalVarlss
        refine (updateVarLssEta_same c hP rank _ ht).bind ?_
        rintro g2 g2' ⟨rfl, -⟩
        refine (updateMeanCont_same c _ ht).bind ?_
        rintro m m' ⟨rfl, -⟩
        exact .ret rfl
      · rintro g2 _ rfl
        exact RelP.emits (.ret rfl) _
  refine hv.bind ?_
  rintro g2 _ rfl
  exact RelP.emits (.ret ⟨rfl, ht.imp fun _ _ hab => hab.same, rfl⟩) _

/-- The iterations with given variance, and the calibrations. -/
theorem loop_tweak_coadd (s : Saver) (niter rank : Nat) {g : FullState K} (hg : GoodVar g)
    {l l' : List (Spectrum K)} (h : List.Forall₂ (CoaddPair C) l l') :
    RelP (fun x y => x.1 = y.1 ∧ List.Forall₂ SamePixels x.2.1 y.2.1 ∧ x.2.2 = y.2.2)
      (((C.fns P).iterLoop c s rank false niter 0 g l).bind fun r => .ret (r.1, (C.fns P).tweak r.1 r.2.1, r.2.2))
      (((C.fns P).iterLoop c s rank false niter 0 g l').bind fun r => .ret (r.1, (C.fns P).tweak r.1 r.2.1, r.2.2)) := by
  refine (iterLoop_coadd c s rank false (fun h => by cases h) (fun h => by cases h) niter 0 hg
    (h.imp fun _ _ hab => loopFit_start hg hab)).bind ?_
  rintro ⟨g1, l1, k1⟩ ⟨g1', l1', k1'⟩ ⟨hg1, hl1, hk1, hgood1⟩
  dsimp only at hg1 hl1 hk1 hgood1
  subst hg1
  subst hk1
  exact .ret ⟨rfl, (tweak_same hgood1 (hl1.imp fun _ _ hab => hab.now)).imp fun _ _ hab => hab.same, rfl⟩

end

end spectra

end Verif.Proofs
