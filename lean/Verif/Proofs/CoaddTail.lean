import Verif.Proofs.CoaddLoop
import Verif.Proofs.UnitsWhole
import Verif.Spec.CoaddTail

/-! Lemmas on coadding before or after the whole fit. -/

namespace Verif.Proofs
open Verif.Np Verif.Model Verif.Spec Verif.Props List Spectrum

variable {K : Type} [Field K] [LinearOrder K]

/-- The mean of a cell is that of its good pixels. -/
theorem cell_filter {l : List (Pix K)} (h : ∀ p ∈ l, ¬ 0 < p.ivar → p.weight = 0) :
    sumWeight l = sumWeight (l.filter (fun p => decide (0 < p.ivar))) ∧
    meanFlux l = meanFlux (l.filter (fun p => decide (0 < p.ivar))) ∧
    meanVar l = meanVar (l.filter (fun p => decide (0 < p.ivar))) := by
  have e1 : sumWeight l = sumWeight (l.filter (fun p => decide (0 < p.ivar))) := by
    unfold sumWeight
    exact sum_good_pix h
  have e2 : (l.map (fun p => p.weight * p.flux)).sum =
      ((l.filter (fun p => decide (0 < p.ivar))).map (fun p => p.weight * p.flux)).sum :=
    sum_good_pix fun p hp hn => by rw [h p hp hn, zero_mul]
  refine ⟨e1, ?_, ?_⟩
  · unfold meanFlux
    rw [e1, e2]
  · unfold meanVar
    rw [e1, List.filter_filter]
    simp only [Bool.and_self]

/-- Factors of the calibrations and weights of a fit. -/
structure GoodTune (φ : K → K) (ω : K → K → K) : Prop where
  factor : ∀ w, 0 < φ w
  zero : ∀ w, ω w 0 = 0
  pos : ∀ w v, 0 < v → 0 < ω w v

/-- The pixel after fit and calibrations. -/
def tune (φ : K → K) (ω : K → K → K) (p : Pix K) : Pix K := ⟨p.wave, ω p.wave p.ivar, p.flux, p.ivar * φ p.wave⟩

/-- A cell with at most one good pixel, before and after the fit. -/
theorem cell_tuned [IsStrictOrderedRing K] {φ : K → K} {ω : K → K → K} (ht : GoodTune φ ω) {l : List (Pix K)} {w : K}
    (h0 : ∀ p ∈ l, 0 ≤ p.ivar ∧ p.weight = p.ivar ∧ p.wave = w) (h : goodIn l ≤ 1) :
    (if 0 < sumWeight (l.map (tune φ ω)) then meanFlux (l.map (tune φ ω)) else 0) =
      (if 0 < sumWeight l then meanFlux l else 0) ∧
    (if 0 < sumWeight (l.map (tune φ ω)) then 1 / meanVar (l.map (tune φ ω)) else 0) =
      (if 0 < sumWeight l then 1 / meanVar l else 0) * φ w := by
  have z : ∀ p ∈ l, ¬ 0 < p.ivar → p.ivar = 0 := fun p hp hn => le_antisymm (not_lt.mp hn) (h0 p hp).1
  obtain ⟨a1, a2, a3⟩ := cell_filter (l := l) fun p hp hn => by rw [(h0 p hp).2.1, z p hp hn]
  have ef : (l.map (tune φ ω)).filter (fun p => decide (0 < p.ivar)) =
      (l.filter (fun p => decide (0 < p.ivar))).map (tune φ ω) := by
    rw [List.filter_map]
    congr 1
    refine List.filter_congr fun p _ => ?_
    exact decide_eq_decide.mpr (mul_pos_iff_of_pos_right (ht.factor p.wave))
  obtain ⟨b1, b2, b3⟩ := cell_filter (l := l.map (tune φ ω)) (by
    intro q hq hn
    obtain ⟨p, hp, rfl⟩ := List.mem_map.mp hq
    have : ¬ 0 < p.ivar := fun hp' => hn (mul_pos hp' (ht.factor _))
    change ω p.wave p.ivar = 0
    rw [z p hp this, ht.zero])
  rw [a1, a2, a3, b1, b2, b3, ef]
  have hm : ∀ p ∈ l.filter (fun p => decide (0 < p.ivar)), p.weight = p.ivar ∧ p.wave = w ∧ 0 < p.ivar := by
    intro p hp
    obtain ⟨p1, p2⟩ := List.mem_filter.mp hp
    exact ⟨(h0 p p1).2.1, (h0 p p1).2.2, by simpa using p2⟩
  unfold goodIn at h
  generalize l.filter (fun p => decide (0 < p.ivar)) = g at h hm
  match g, h, hm with
  | [], _, _ => simp [sumWeight]
  | [p], _, hm =>
    obtain ⟨m1, m2, m3⟩ := hm p (by simp)
    have hf := ht.factor w
    have hw := ht.pos w p.ivar m3
    have hpf : 0 < p.ivar * φ w := mul_pos m3 hf
    have s1 : sumWeight ([p].map (tune φ ω)) = ω w p.ivar := by simp [sumWeight, tune, m2]
    have s2 : sumWeight [p] = p.ivar := by simp [sumWeight, m1]
    have f1 : meanFlux ([p].map (tune φ ω)) = p.flux := by
      unfold meanFlux
      rw [s1]
      simp only [List.map_cons, List.map_nil, List.sum_cons, List.sum_nil, add_zero, tune, m2]
      exact mul_div_cancel_left₀ _ hw.ne'
    have f2 : meanFlux [p] = p.flux := by
      unfold meanFlux
      rw [s2]
      simp only [List.map_cons, List.map_nil, List.sum_cons, List.sum_nil, add_zero, m1]
      exact mul_div_cancel_left₀ _ m3.ne'
    have v1 : meanVar ([p].map (tune φ ω)) = 1 / (p.ivar * φ w) := by
      unfold meanVar
      rw [s1]
      simp only [List.map_cons, List.map_nil, List.filter_cons, List.filter_nil, tune, m2, decide_eq_true hpf, if_true,
        List.sum_cons, List.sum_nil, add_zero]
      field_simp
    have v2 : meanVar [p] = 1 / p.ivar := by
      unfold meanVar
      rw [s2]
      simp only [List.map_cons, List.map_nil, List.filter_cons, List.filter_nil, decide_eq_true m3, if_true,
        List.sum_cons, List.sum_nil, add_zero, m1]
      field_simp
    rw [s1, s2, f1, f2, v1, v2, if_pos hw, if_pos hw, if_pos m3, if_pos m3, one_div_one_div, one_div_one_div]
    exact ⟨rfl, rfl⟩
  | _ :: _ :: _, h, _ => simp at h

/-- `s` is `u` after a valid fit and calibrations. -/
structure Tuned (u s : Spectrum K) (φ : K → K) (ω : K → K → K) (Cf : K → K) : Prop where
  valid : s.valid = true
  dwave : s.dwave = u.dwave
  smoothing : s.smoothing = u.smoothing
  fwave : s.fwave = u.fwave
  fflux : s.fflux = u.fflux
  freso : s.freso = u.freso
  cont : ∀ x ∈ u.fwave, s.cont.arr x.1 = x.2.map Cf
  fivar : ∀ x ∈ u.fwave, s.fivar.arr x.1 = List.zipWith (fun w v => v * φ w) x.2 (u.fivar.arr x.1)
  weighted : s.weight ≠ none
  weight : ∀ x ∈ u.fwave, s.fweight.arr x.1 = List.zipWith ω x.2 (u.fivar.arr x.1)

/-- A valid fit. -/
theorem tuned_fit {u : Spectrum K} (hn : u.fwave.keys.Nodup) (hne : u.fwave ≠ []) (hs : u.ivarSm = none)
    (hl : ∀ x ∈ u.fwave, (u.fivar.arr x.1).length = x.2.length)
    {log meancont meanflux varlss eta : K → K} {r d : K} {x : Bool × List K}
    (h : (u.piccaFit log meancont meanflux varlss eta r d x).valid = true) :
    Tuned u (u.piccaFit log meancont meanflux varlss eta r d x) (fun _ => 1)
      (fun w v => pixelWeight (varlss w) (eta w) (piccaModel log meancont r d x.2 (w / (1 + u.z)) * meanflux w) v)
      (fun w => piccaModel log meancont r d x.2 (w / (1 + u.z)) * meanflux w) := by
  obtain ⟨c, chi2, -, hc, e⟩ := piccaFit_valid hn hne h
  rw [e]
  refine ⟨rfl, rfl, rfl, rfl, rfl, rfl, fun a ha => hc _ _ (lookup_of_mem hn ha), fun a ha => ?_, by simp, fun a ha => ?_⟩
  · have := hl a ha
    apply List.ext_getElem
    · simp [this]
    · intro i _ _
      simp
  · have hk : a.1 ∈ u.fwave.keys := List.mem_map.mpr ⟨a, ha, rfl⟩
    have hla := lookup_of_mem hn ha
    change (u.fwave.mapVals (fun arm wave => armWeight varlss eta wave (c.arr arm) (u.fivarSm.arr arm))).arr a.1 = _
    rw [arr_mapVals hk, arr_of_lookup hla, hc _ _ hla, fivarSm_before hs]
    unfold armWeight
    apply List.ext_getElem
    · simp
    · intro i _ _
      simp

theorem pixelWeight_tune [IsStrictOrderedRing K] {vl eta C : K → K} (hvl : ∀ w, 0 ≤ vl w) (heta : ∀ w, 0 < eta w) :
    GoodTune (fun _ => (1 : K)) (fun w v => pixelWeight (vl w) (eta w) (C w) v) := by
  refine ⟨fun _ => one_pos, fun w => pixelWeight_masked _ _ _, fun w v hv => ?_⟩
  have a := hvl w
  have b := heta w
  unfold pixelWeight
  positivity

section
variable [FloorRing K]

theorem tuned_norm {u s : Spectrum K} {φ : K → K} {ω : K → K → K} {Cf : K → K} (hn : u.fwave.keys.Nodup)
    (h : Tuned u s φ ω Cf) (st : Stacker K) :
    Tuned u (normSpec st s) φ ω (fun w => Cf w * (st.interp.eval w).getD 1) := by
  obtain ⟨h1, h2⟩ := normSpec_arr st (s := s) (h.fwave ▸ hn)
  rw [h.fwave] at h1
  have ew : (normSpec st s).fweight = s.fweight := by rw [h2]; rfl
  refine ⟨?_, ?_, ?_, ?_, ?_, ?_, fun x hx => ?_, ?_, ?_, ?_⟩
  · rw [h2]; exact h.valid
  · rw [h2]; exact h.dwave
  · rw [h2]; exact h.smoothing
  · rw [h2]; exact h.fwave
  · rw [h2]; exact h.fflux
  · rw [h2]; exact h.freso
  · rw [h1 x hx, h.cont x hx]
    unfold normArm mulFlux
    apply List.ext_getElem
    · simp
    · intro i _ _
      simp
  · have : (normSpec st s).fivar = s.fivar := by rw [h2]
    rw [this]; exact h.fivar
  · have : (normSpec st s).weight = s.weight := by rw [h2]
    rw [this]; exact h.weighted
  · rw [ew]; exact h.weight

omit [LinearOrder K] [FloorRing K] in
theorem fweight_some {s t : Spectrum K} (h : s.weight ≠ none) (e : t.weight = s.weight) : t.fweight = s.fweight := by
  unfold fweight
  rw [e]
  cases hc : s.weight with
  | none => exact absurd hc h
  | some w => rfl

omit [LinearOrder K] [FloorRing K] in
theorem tuned_eta {u s : Spectrum K} {φ : K → K} {ω : K → K → K} {Cf : K → K} (hn : u.fwave.keys.Nodup)
    (h : Tuned u s φ ω Cf) (eta : K → K) :
    Tuned u (etaCalibIvar eta s) (fun w => φ w / eta w) ω Cf := by
  obtain ⟨h1, h2⟩ := etaCalib_arr eta (s := s) (h.fwave ▸ hn)
  rw [h.fwave] at h1
  have ewt : (etaCalibIvar eta s).weight = s.weight := by rw [h2]
  have ec : (etaCalibIvar eta s).cont = s.cont := by rw [h2]
  refine ⟨?_, ?_, ?_, ?_, ?_, ?_, ?_, fun x hx => ?_, ?_, ?_⟩
  · rw [h2]; exact h.valid
  · rw [h2]; exact h.dwave
  · rw [h2]; exact h.smoothing
  · rw [h2]; exact h.fwave
  · rw [h2]; exact h.fflux
  · rw [h2]; exact h.freso
  · rw [ec]; exact h.cont
  · rw [h1 x hx, h.fivar x hx]
    apply List.ext_getElem
    · simp
    · intro i _ _
      simp [mul_div_assoc]
  · rw [ewt]; exact h.weighted
  · rw [fweight_some h.weighted ewt]; exact h.weight

end

section
variable [FloorRing K] [IsStrictOrderedRing K]

/-- The pixels of a fitted spectrum. -/
theorem tuned_pix {u s : Spectrum K} {φ : K → K} {ω : K → K → K} {Cf : K → K} (hb : BeforeFit u) (h : Tuned u s φ ω Cf) :
    ∀ x ∈ u.fwave, (s.fweight.arr x.1).length = x.2.length ∧ (s.fivar.arr x.1).length = x.2.length ∧
      s.forestPix x.1 = (u.forestPix x.1).map (tune φ ω) := by
  intro x hx
  have h2 := hb.ok.flux x hx
  have h3 := hb.ok.ivar x hx
  have h4 := hb.ok.weight x hx
  have e1 := h.fivar x hx
  have e2 := h.weight x hx
  have e3 := arr_of_lookup (lookup_of_mem hb.ok.nodup hx)
  refine ⟨by rw [e2]; simp [h3], by rw [e1]; simp [h3], ?_⟩
  unfold forestPix
  rw [e1, e2, h.fflux, h.fwave, e3]
  unfold pixelsOf
  apply List.ext_getElem
  · simp [h2, h3, h4]
  · intro i _ _
    simp [tune]

theorem tuned_ok {u s : Spectrum K} {φ : K → K} {ω : K → K → K} {Cf : K → K} (hb : BeforeFit u) (h : Tuned u s φ ω Cf)
    (ht : GoodTune φ ω) :
    ForestOk s ∧ ∀ lo, (∀ k, armsCell s lo k = (armsCell u lo k).map (tune φ ω)) ∧
      (OnePerCell lo u.dwave (u.fwave.map (fun x => u.forestPix x.1)) →
        OnePerCell lo s.dwave (s.fwave.map (fun x => s.forestPix x.1))) := by
  have hp := tuned_pix hb h
  have harms : s.fwave.map (fun x => s.forestPix x.1) =
      (u.fwave.map (fun x => u.forestPix x.1)).map (List.map (tune φ ω)) := by
    rw [h.fwave, List.map_map]
    exact List.map_congr_left fun x hx => (hp x hx).2.2
  refine ⟨?_, fun lo => ⟨fun k => ?_, fun h1 => ?_⟩⟩
  · constructor
    · rw [h.dwave]; exact hb.ok.dwave
    · rw [h.fwave]; exact hb.ok.nodup
    · rw [h.fwave]; exact hb.ok.sorted
    · rw [h.fwave, h.fflux]; exact hb.ok.flux
    · rw [h.fwave]; exact fun x hx => (hp x hx).2.1
    · rw [h.fwave]; exact fun x hx => (hp x hx).1
    · rw [h.fwave]
      intro x hx p hpp
      rw [(hp x hx).2.2] at hpp
      obtain ⟨q, hq, rfl⟩ := List.mem_map.mp hpp
      have hq0 := (before_pix hb q (List.mem_flatten.mpr ⟨_, List.mem_map.mpr ⟨x, hx, rfl⟩, hq⟩)).1
      change 0 ≤ ω q.wave q.ivar ∧ (0 < ω q.wave q.ivar → 0 < q.ivar * φ q.wave)
      rcases hq0.eq_or_lt with hz | hz
      · rw [← hz, ht.zero]
        exact ⟨le_rfl, fun h0 => absurd h0 (lt_irrefl _)⟩
      · exact ⟨(ht.pos _ _ hz).le, fun _ => mul_pos hz (ht.factor _)⟩
    · rw [h.fwave, h.freso]; exact hb.ok.resoArm
    · rw [h.freso]; exact hb.ok.resoParity
  · unfold armsCell cell
    rw [harms, ← List.map_flatten, List.filter_map, h.dwave]
    rfl
  · rw [harms, h.dwave]
    intro a ha
    obtain ⟨b, hb', rfl⟩ := List.mem_map.mp ha
    exact List.pairwise_map.mpr (h1 b hb')

/-- What `coadd_arms_forest` keeps. -/
theorem coadd_keeps {sqrt : K → K} {smooth : List K → K → List K} {junk : Nat → K} {nan eps : K} {vl eta : K → K}
    {s t : Spectrum K} (h : s.coaddArmsForest sqrt smooth junk nan eps vl eta = .ok t) : t.valid = s.valid ∧ t.z = s.z := by
  unfold coaddArmsForest at h
  obtain ⟨g, hg, h⟩ := except_bind_eq_ok.mp h
  obtain ⟨fi, hfi, h⟩ := except_bind_eq_ok.mp h
  obtain ⟨c, hcc, h⟩ := except_bind_eq_ok.mp h
  obtain ⟨r, hr, h⟩ := except_bind_eq_ok.mp h
  rw [except_pure] at h
  cases h
  unfold withSnr setForestWeight setSmoothForestivar replaceForest
  dsimp only
  split <;> split <;> exact ⟨rfl, rfl⟩

/-- Coadding after fit and calibrations. -/
theorem tuned_coadd {C : FullCfg K} {u t u' t' : Spectrum K} (hp : CoaddPair C u t) {φ : K → K} {ω : K → K → K} {Cf : K → K}
    (ht : GoodTune φ ω) (hu : Tuned u u' φ ω Cf) (ht' : Tuned t t' φ ω Cf) (hz : u'.z = t'.z)
    (sqrt : K → K) (smooth : List K → K → List K) (junk : Nat → K) (nan eps : K) (vl eta : K → K) :
    ∃ s, u'.coaddArmsForest sqrt smooth junk nan eps vl eta = .ok s ∧ SameForest s t' := by
  obtain ⟨⟨hb, hbins, lo, hi, n, hgr, hk⟩, sqrt0, smooth0, junk0, nan0, eps0, vl0, eta0, hco⟩ := hp
  obtain ⟨tw, tf, tv, ts, tz⟩ := coadd_before hb hgr _ _ _ _ _ _ _ hco
  obtain ⟨ok, hcell⟩ := tuned_ok hb hu ht
  obtain ⟨hcell, hone⟩ := hcell lo
  have uf := hu.fwave
  have ud := hu.dwave
  obtain ⟨x0, hx0, -⟩ := hgr.least.1
  have hcn : u'.cont ≠ [] := by
    intro h0
    have := hu.cont x0 hx0
    rw [h0] at this
    have h1 := (hb.ok.sorted x0 hx0).1
    simp [Dict.arr] at this
    exact h1 this
  obtain ⟨s, hs, sw, sf, sv, -, sc, -⟩ := C26_coadd_arms (s := u') ok (uf.symm ▸ hgr.least) (uf.symm ▸ hgr.greatest)
    (ud.symm ▸ hgr.last) (hone hgr.one) sqrt smooth junk nan eps vl eta
  have sc := sc hcn
  obtain ⟨s1, s2⟩ := coadd_keeps hs
  have hbrz : ("brz", (List.range (n + 1)).map (gridWave lo hi n)) ∈ t.fwave := by
    rw [tw]; exact List.mem_singleton.mpr rfl
  have cells : ∀ k ∈ List.range (n + 1), _ := fun k hk' =>
    cell_tuned ht (fun p hp => cell_pix hb hgr k p hp) (hk k (by have := List.mem_range.mp hk'; omega)).2
  refine ⟨s, hs, ?_, ?_, ?_, ?_, ?_, ?_, ?_⟩
  · rw [s1, hu.valid, ht'.valid]
  · rw [s2, hz]
  · rw [sw]; rfl
  · rw [sw, ht'.fwave, tw]; rfl
  · rw [sf, ht'.fflux, tf, arr_brz, arr_brz]
    refine List.map_congr_left fun k hk' => ?_
    change (if 0 < sumWeight (armsCell u' lo k) then meanFlux (armsCell u' lo k) else 0) = _
    rw [hcell k]
    exact (cells k hk').1
  · rw [sv, ht'.fivar _ hbrz, tv, arr_brz, arr_brz]
    have e : ∀ (f g : Nat → K) (h : K → K → K) (l : List Nat),
        List.zipWith h (l.map f) (l.map g) = l.map (fun k => h (f k) (g k)) := by
      intro f g h l
      apply List.ext_getElem
      · simp
      · intro i _ _; simp
    rw [e]
    refine List.map_congr_left fun k hk' => ?_
    change (if 0 < sumWeight (armsCell u' lo k) then 1 / meanVar (armsCell u' lo k) else 0) = _
    rw [hcell k]
    exact (cells k hk').2
  · rw [sc, ht'.cont _ hbrz, arr_brz, List.map_map]
    refine List.map_congr_left fun k hk' => ?_
    have hlc : ∀ arm w, u.fwave.lookup arm = some w → u'.cont.arr arm = w.map Cf :=
      fun arm w hw => hu.cont (arm, w) (mem_of_lookup hw)
    rw [uf, ud, lastIn_cont hb hgr hlc (hk k (by have := List.mem_range.mp hk'; omega)).1]
    rfl

/-- After the last fit. -/
structure FitPair (C : FullCfg K) (u t : Spectrum K) : Prop where
  now : BothSides C u t
  tuned : u.valid = true → ∃ u0 t0 φ ω Cf, CoaddPair C u0 t0 ∧ GoodTune φ ω ∧ Tuned u0 u φ ω Cf ∧ Tuned t0 t φ ω Cf

theorem pair_tuned {C : FullCfg K} {u t : Spectrum K} (hp : CoaddPair C u t) {g : FullState K} (hg : GoodVar g) :
    FitPair C (C.fitOne g u) (C.fitOne g t) := by
  obtain ⟨a, b, c⟩ := pair_fit hp hg
  refine ⟨⟨a, b, c⟩, fun hv => ?_⟩
  have hv' : (C.fitOne g t).valid = true := a.2.1 ▸ hv
  obtain ⟨⟨hb, hbins, lo, hi, n, hgr, hk⟩, sqrt, smooth, junk, nan, eps, vl0, eta0, ht⟩ := id hp
  obtain ⟨t', ht', hst, hc⟩ := C122_cost hb hgr sqrt smooth junk nan eps vl0 eta0
  rw [ht] at ht'
  cases ht'
  have ho : OverlapOk u lo hi n g.varlss := fun k hk' => Or.inl (hk k hk').2
  have hm : C.minimize (piccaCost C.log (C.meancont g) C.meanflux g.varlss g.eta (C.rfwave.getD 0 0) C.denom t)
        (startA0 t :: List.replicate C.order 0) =
      C.minimize (piccaCost C.log (C.meancont g) C.meanflux g.varlss g.eta (C.rfwave.getD 0 0) C.denom u)
        (startA0 u :: List.replicate C.order 0) := by
    obtain ⟨D, hD, hx⟩ := hc C.log (C.meancont g) C.meanflux g.varlss g.eta (C.rfwave.getD 0 0) C.denom ho
    rw [hst, funext hx, hD fun k hk' => (hk k hk').2]
    simp only [add_zero]
  obtain ⟨tw, tf, tv, ts, tz⟩ := coadd_before hb hgr _ _ _ _ _ _ _ ht
  obtain ⟨x0, hx0, -⟩ := hgr.least.1
  unfold FullCfg.fitOne at hv hv' ⊢
  rw [hm] at hv' ⊢
  have t1 := tuned_fit hb.ok.nodup (List.ne_nil_of_mem hx0) hb.ivarSm hb.ok.ivar hv
  have t2 := tuned_fit (by rw [tw]; simp [Dict.keys]) (by rw [tw]; simp) ts (by
    rw [tw, tv]
    intro x hx
    obtain rfl := List.mem_singleton.mp hx
    rw [arr_brz]
    simp) hv'
  rw [tz] at t2
  exact ⟨u, t, _, _, _, hp, pixelWeight_tune (fun w => (hg w).1) (fun w => (hg w).2), t1, t2⟩

theorem coaddPair_nodup {C : FullCfg K} {u t : Spectrum K} (hp : CoaddPair C u t) :
    u.fwave.keys.Nodup ∧ t.fwave.keys.Nodup := by
  obtain ⟨⟨hb, -, lo, hi, n, hgr, -⟩, _, _, _, _, _, _, _, ht⟩ := hp
  obtain ⟨tw, -⟩ := coadd_before hb hgr _ _ _ _ _ _ _ ht
  exact ⟨hb.ok.nodup, by rw [tw]; simp [Dict.keys]⟩

section
variable {C : FullCfg K} {Q D V : Type} {P : FitterFns (FullState K) (Spectrum K) (StackSums K) Q D}
  (c : FitterCodecs (StackSums K) Q V)

theorem fitContinua_tuned {W : Type} {g : FullState K} (hg : GoodVar g) {l l' : List (Spectrum K)}
    (h : List.Forall₂ (LoopFit C) l l') :
    RelP (V := V) (W := W) (fun x y => List.Forall₂ (fun a b => LoopFit C a b ∧ FitPair C a b) x.1 y.1 ∧ x.2 = y.2)
      ((C.fns P).fitContinua c g l) ((C.fns P).fitContinua c g l') := by
  have h1 : List.Forall₂ (fun a b => LoopFit C a b ∧ FitPair C a b) (l.map (C.fitOne g)) (l'.map (C.fitOne g)) := by
    refine forall₂_map_rel (fun a b hab => ⟨fitOne_loop hg hab, ?_⟩) h
    obtain ⟨-, u0, t0, hp, hu, ht⟩ := hab
    rw [hu, ht]
    exact pair_tuned hp hg
  unfold FitterFns.fitContinua
  change RelP _ (Prog.allreduce _ (c.nat.enc ((l.map (C.fitOne g)).countP (fun s => s.valid))) _)
    (Prog.allreduce _ (c.nat.enc ((l'.map (C.fitOne g)).countP (fun s => s.valid))) _)
  rw [countP_rel (fun _ _ hab => hab.2.now.same.2.1) h1]
  refine .allreduce _ _ fun nv => ?_
  change RelP _ (Prog.allreduce _ (c.nat.enc ((l.map (C.fitOne g)).countP (fun s => !s.valid))) _)
    (Prog.allreduce _ (c.nat.enc ((l'.map (C.fitOne g)).countP (fun s => !s.valid))) _)
  rw [countP_rel (fun a b hab => by rw [hab.2.now.same.2.1]) h1]
  refine .allreduce _ _ fun ni => ?_
  split
  · exact .raise _
  · exact .ret ⟨h1, rfl⟩

omit [IsStrictOrderedRing K] in
theorem varStep_tuned (rank : Nat) (hf : Bool) (hP : hf = true → SeesPixels P)
    (hgood : hf = true → ∀ g q, GoodVar g → GoodVar (P.varUpd g q)) {g : FullState K} (hg : GoodVar g)
    {l l' : List (Spectrum K)} (h : List.Forall₂ (BothSides C) l l') :
    RelP (V := V) (W := SaverEv (String × D)) (fun x y => x = y ∧ GoodVar x)
      ((C.fns P).varStep c rank hf g l) ((C.fns P).varStep c rank hf g l') := by
  unfold FitterFns.varStep
  cases hf with
  | false => exact .ret ⟨rfl, hg⟩
  | true =>
    rw [if_pos rfl, if_pos rfl]
    exact (updateVarLssEta_same (C := C) (W := SaverEv (String × D)) c (hP rfl) rank g h).bind
      (S := fun x y : FullState K => x = y ∧ GoodVar x) (f := .ret) (g := .ret) (by
        rintro a b ⟨rfl, q, rfl⟩
        exact .ret ⟨rfl, hgood rfl _ _ hg⟩)

/-- The iterations, at least one. -/
theorem iterLoop_tuned (s : Saver) (rank : Nat) (hf : Bool) (hP : hf = true → SeesPixels P)
    (hgood : hf = true → ∀ g q, GoodVar g → GoodVar (P.varUpd g q)) (k it : Nat) {g : FullState K} (hg : GoodVar g)
    {l l' : List (Spectrum K)} (h : List.Forall₂ (LoopFit C) l l') :
    RelP (fun x y => x.1 = y.1 ∧ List.Forall₂ (FitPair C) x.2.1 y.2.1 ∧ x.2.2 = y.2.2 ∧ GoodVar x.1)
      ((C.fns P).iterLoop c s rank hf (k + 1) it g l) ((C.fns P).iterLoop c s rank hf (k + 1) it g l') := by
  induction k generalizing it g l l' with
  | zero =>
    refine RelP.emits ?_ _
    refine (fitContinua_tuned c hg h).bind ?_
    rintro ⟨f, n⟩ ⟨f', n'⟩ ⟨hff, hn⟩
    dsimp only at hff hn ⊢
    refine (updateMeanCont_same c g (hff.imp fun _ _ hab => hab.2.now)).bind ?_
    rintro m m' ⟨rfl, m1, m2⟩
    have hgm : GoodVar m.1 := by
      unfold GoodVar
      rw [m1, m2]
      exact hg
    refine (varStep_tuned c rank hf hP hgood hgm (hff.imp fun _ _ hab => hab.2.now)).bind ?_
    rintro g2 g2' ⟨rfl, hg2⟩
    cases m.2 with
    | true => exact .ret ⟨rfl, hff.imp fun _ _ hab => hab.2, rfl, hg2⟩
    | false => exact .ret ⟨rfl, hff.imp fun _ _ hab => hab.2, rfl, hg2⟩
  | succ k ih =>
    refine RelP.emits ?_ _
    refine (fitContinua_tuned c hg h).bind ?_
    rintro ⟨f, n⟩ ⟨f', n'⟩ ⟨hff, hn⟩
    dsimp only at hff hn ⊢
    refine (updateMeanCont_same c g (hff.imp fun _ _ hab => hab.2.now)).bind ?_
    rintro m m' ⟨rfl, m1, m2⟩
    have hgm : GoodVar m.1 := by
      unfold GoodVar
      rw [m1, m2]
      exact hg
    refine (varStep_tuned c rank hf hP hgood hgm (hff.imp fun _ _ hab => hab.2.now)).bind ?_
    rintro g2 g2' ⟨rfl, hg2⟩
    cases m.2 with
    | true => exact .ret ⟨rfl, hff.imp fun _ _ hab => hab.2, rfl, hg2⟩
    | false => exact ih (it + 1) hg2 (hff.imp fun _ _ hab => hab.1)

theorem FitPair.eta {g : FullState K} (hg : GoodVar g) {a b : Spectrum K} (hab : FitPair C a b) :
    FitPair C (etaCalibIvar g.eta a) (etaCalibIvar g.eta b) := by
  refine ⟨etaCalib_same (fun w => (hg w).2) hab.now, fun hv => ?_⟩
  rw [(etaCalib_arr g.eta hab.now.left.nodup).2] at hv
  obtain ⟨u0, t0, φ, ω, Cf, hp, ht, h1, h2⟩ := hab.tuned hv
  obtain ⟨n1, n2⟩ := coaddPair_nodup hp
  exact ⟨u0, t0, _, ω, Cf, hp, ⟨fun w => div_pos (ht.factor w) (hg w).2, ht.zero, ht.pos⟩, tuned_eta n1 h1 g.eta,
    tuned_eta n2 h2 g.eta⟩

theorem tweak_tuned {g : FullState K} (hg : GoodVar g) {l l' : List (Spectrum K)} (h : List.Forall₂ (FitPair C) l l') :
    List.Forall₂ (FitPair C) ((C.fns P).tweak g l) ((C.fns P).tweak g l') := by
  unfold FitterFns.tweak
  refine forall₂_map_rel (T := FitPair C) ?_ (forall₂_map_rel (T := FitPair C) ?_ h)
  · intro a b hab
    change FitPair C (if C.etaCalib = true then etaCalibIvar g.eta a else a)
      (if C.etaCalib = true then etaCalibIvar g.eta b else b)
    split
    · exact hab.eta hg
    · exact hab
  · intro a b hab
    change FitPair C (if a.valid = true then (if C.normalize = true then normSpec g.stack a else a) else a)
      (if b.valid = true then (if C.normalize = true then normSpec g.stack b else b) else b)
    rw [hab.now.same.2.1]
    split
    · split
      · refine ⟨normSpec_same g.stack hab.now, fun hv => ?_⟩
        rw [normSpec_valid] at hv
        obtain ⟨u0, t0, φ, ω, Cf, hp, ht, h1, h2⟩ := hab.tuned hv
        obtain ⟨n1, n2⟩ := coaddPair_nodup hp
        exact ⟨u0, t0, φ, ω, _, hp, ht, tuned_norm n1 h1 g.stack, tuned_norm n2 h2 g.stack⟩
      · exact hab
    · exact hab

/-- Coadding the valid spectra. -/
theorem tailCoadd_same (T : TailFns K) (vl eta : K → K) {l l' : List (Spectrum K)} (h : List.Forall₂ (FitPair C) l l')
    (hv : ∀ s ∈ l, s.valid = true) :
    SameResult (List.Forall₂ SameForest) (fitTail T none true vl eta l) (fitTail T none false vl eta l') := by
  have key : ∃ r, l.mapM (tailCoaddOne T vl eta) = .ok r ∧ List.Forall₂ SameForest r l' := by
    induction h with
    | nil => exact ⟨[], rfl, .nil⟩
    | @cons a b l l' hab _ ih =>
      obtain ⟨r, hr, hr'⟩ := ih fun s hs => hv s (List.mem_cons_of_mem _ hs)
      obtain ⟨u0, t0, φ, ω, Cf, hp, ht, h1, h2⟩ := hab.tuned (hv a List.mem_cons_self)
      obtain ⟨s, hs, hsf⟩ := tuned_coadd hp ht h1 h2 hab.now.same.1 T.sqrt T.smooth T.junk T.nan T.eps vl eta
      have e : tailCoaddOne T vl eta a = .ok s.calcContinuumChi2 := by
        unfold tailCoaddOne
        rw [hs]
        rfl
      refine ⟨s.calcContinuumChi2 :: r, ?_, .cons ?_ hr'⟩
      · rw [List.mapM_cons, e, hr]
        rfl
      · unfold calcContinuumChi2
        split <;> exact hsf
  obtain ⟨r, hr, hr'⟩ := key
  have e1 : fitTail T none true vl eta l = .ok r := by
    change tailCoadd T vl eta l true = _
    unfold tailCoadd
    rw [if_pos rfl, hr]
  have e2 : fitTail T none false vl eta l' = .ok l' := rfl
  rw [e1, e2]
  exact hr'

/-- `iterate` with at least one iteration. -/
theorem iterate_tuned (hP : SeesPixels P) (fname : String) (niter rank : Nat) (hf : Bool)
    (hgood : hf = true → ∀ g q, GoodVar g → GoodVar (P.varUpd g q)) {g : FullState K} (hg : GoodVar g)
    {l l' : List (Spectrum K)} (h : List.Forall₂ (CoaddPair C) l l') :
    RelP (fun x y => x.1 = y.1 ∧ List.Forall₂ (FitPair C) x.2.1 y.2.1 ∧ x.2.2 = y.2.2)
      ((C.fns P).iterate c fname (niter + 1) hf rank g l) ((C.fns P).iterate c fname (niter + 1) hf rank g l') := by
  unfold FitterFns.iterate
  dsimp only
  refine RelP.emits ?_ _
  refine (iterLoop_tuned c _ rank hf (fun _ => hP) hgood niter 0 hg (h.imp fun _ _ hab => loopFit_start hg hab)).bind ?_
  rintro ⟨g1, l1, k1⟩ ⟨g1', l1', k1'⟩ ⟨hg1, hl1, hk1, hgood1⟩
  dsimp only at hg1 hl1 hk1 hgood1
  subst hg1
  subst hk1
  refine RelP.emits ?_ _
  have ht := tweak_tuned (C := C) (P := P) hgood1 hl1
  generalize (C.fns P).tweak g1 l1 = t at ht ⊢
  generalize (C.fns P).tweak g1 l1' = t' at ht ⊢
  have hv : RelP (V := V) (W := SaverEv (String × D)) (fun x y => x = y)
      ((C.fns P).finalVar c (Saver.init (D := String × D) fname rank).2 rank hf g1 t)
      ((C.fns P).finalVar c (Saver.init (D := String × D) fname rank).2 rank hf g1 t') := by
    have hb : List.Forall₂ (BothSides C) t t' := ht.imp fun _ _ hab => hab.now
    unfold FitterFns.finalVar
    cases hf with
    | true => exact .ret rfl
    | false =>
      simp only [Bool.false_eq_true, if_false]
      refine RelP.bind (R := fun x y => x = y) ?_ ?_
      · unfold FitterFns.fitFinalVarlss
        refine (updateVarLssEta_same c hP rank _ hb).bind ?_
        rintro g2 g2' ⟨rfl, -⟩
        refine (updateMeanCont_same c _ hb).bind ?_
        rintro m m' ⟨rfl, -⟩
        exact .ret rfl
      · rintro g2 _ rfl
        exact RelP.emits (.ret rfl) _
  refine hv.bind ?_
  rintro g2 _ rfl
  exact RelP.emits (.ret ⟨rfl, ht, rfl⟩) _

/-- The valid spectra after the steps that follow the iterations. -/
theorem tail_same (T : TailFns K) (vl eta vl' eta' : K → K) {l l' : List (Spectrum K)} (h : List.Forall₂ (FitPair C) l l') :
    SameResult (List.Forall₂ SameForest)
      (fitTail T none true vl eta (l.filter (fun s => (C.fns P).valid s)))
      (fitTail T none false vl' eta' (l'.filter (fun s => (C.fns P).valid s))) :=
  tailCoadd_same T vl eta (filter_rel (fun _ _ hab => hab.now.same.2.1) h) fun _ hs => (List.mem_filter.mp hs).2

theorem continuumFitting_coadd (hP : SeesPixels P) (interps : FullState K → (K → K) × (K → K)) (T : TailFns K)
    (fname : String) (niter rank : Nat) (hf : Bool)
    (hgood : hf = true → ∀ g q, GoodVar g → GoodVar (P.varUpd g q)) {g : FullState K} (hg : GoodVar g)
    {l l' : List (Spectrum K)} (h : List.Forall₂ (CoaddPair C) l l') :
    RelP (List.Forall₂ SameForest)
      (continuumFitting (C.fns P) c interps T none true fname (niter + 1) hf rank g l)
      (continuumFitting (C.fns P) c interps T none false fname (niter + 1) hf rank g l') := by
  unfold continuumFitting
  refine (iterate_tuned c hP fname niter rank hf hgood hg h).bind ?_
  rintro ⟨g1, l1, k1⟩ ⟨g1', l1', k1'⟩ ⟨-, hl1, -⟩
  exact RelP.ofExcept (tail_same T _ _ _ _ hl1)

theorem loop_tail_coadd (s : Saver) (T : TailFns K) (niter rank : Nat) (vl eta : K → K) {g : FullState K} (hg : GoodVar g)
    {l l' : List (Spectrum K)} (h : List.Forall₂ (CoaddPair C) l l') :
    RelP (List.Forall₂ SameForest)
      (((C.fns P).iterLoop c s rank false (niter + 1) 0 g l).bind fun r =>
        Prog.ofExcept (fitTail T none true vl eta (((C.fns P).tweak r.1 r.2.1).filter (fun s => (C.fns P).valid s))))
      (((C.fns P).iterLoop c s rank false (niter + 1) 0 g l').bind fun r =>
        Prog.ofExcept (fitTail T none false vl eta (((C.fns P).tweak r.1 r.2.1).filter (fun s => (C.fns P).valid s)))) := by
  refine (iterLoop_tuned c s rank false (fun h => by cases h) (fun h => by cases h) niter 0 hg
    (h.imp fun _ _ hab => loopFit_start hg hab)).bind ?_
  rintro ⟨g1, l1, k1⟩ ⟨g1', l1', k1'⟩ ⟨hg1, hl1, -, hgood1⟩
  dsimp only at hg1 hl1 hgood1
  subst hg1
  exact RelP.ofExcept (tail_same T _ _ _ _ (tweak_tuned hgood1 hl1))

end
end

end Verif.Proofs
