import Verif.Props.ContFit
import Verif.Props.Dof
import Verif.Proofs.SelectCoadd
import Verif.Model.FullFit
import Verif.Spec.CoaddWhen

/-! Lemmas on coadding the arms before and after the continuum fit. -/

namespace Verif.Proofs
open Verif.Np Verif.Model Verif.Spec Verif.Props List Spectrum

variable {K : Type} [Field K] [LinearOrder K]

/-! ### Sums over cells -/

omit [LinearOrder K] in
/-- A sum over a list is the sum over the classes, if every element is in exactly one. -/
theorem sum_classes {α : Type} (L : List α) (φ : α → K) (cls : Nat → α → Bool) (n : Nat)
    (h : ∀ p ∈ L, ∃ k, k < n ∧ ∀ j, cls j p = true ↔ j = k) :
    (L.map φ).sum = ((List.range n).map (fun k => ((L.filter (cls k)).map φ).sum)).sum := by
  induction L with
  | nil => simp
  | cons p L ih =>
    have ih := ih (fun q hq => h q (List.mem_cons_of_mem _ hq))
    obtain ⟨k, hk, hj⟩ := h p List.mem_cons_self
    rw [List.map_cons, List.sum_cons, ih]
    have e : ∀ j, (((p :: L).filter (cls j)).map φ).sum =
        (if j = k then φ p else 0) + ((L.filter (cls j)).map φ).sum := by
      intro j
      by_cases hjk : j = k
      · rw [List.filter_cons_of_pos ((hj j).mpr hjk), if_pos hjk]; rfl
      · have : ¬ cls j p = true := fun hc => hjk ((hj j).mp hc)
        rw [List.filter_cons_of_neg this, if_neg hjk, zero_add]
    simp only [e, List.sum_map_add]
    congr 1
    have : ∀ m, ((List.range m).map (fun j => if j = k then φ p else 0)).sum = if k < m then φ p else 0 := by
      intro m
      induction m with
      | zero => simp
      | succ m im =>
        rw [List.range_succ, List.map_append, List.sum_append, im]
        simp only [List.map_cons, List.map_nil, List.sum_cons, List.sum_nil]
        by_cases h1 : k < m
        · rw [if_pos h1, if_neg (by omega), if_pos (by omega)]; simp
        · by_cases h2 : m = k
          · rw [if_neg h1, if_pos h2, if_pos (by omega)]; simp
          · rw [if_neg h1, if_neg h2, if_neg (by omega)]; simp
    rw [this, if_pos hk]

/-- Only the good pixels count in a sum of terms that vanish for the others. -/
theorem sum_good_pix {l : List (Pix K)} {φ : Pix K → K} (h : ∀ p ∈ l, ¬ 0 < p.ivar → φ p = 0) :
    (l.map φ).sum = ((l.filter (fun p => decide (0 < p.ivar))).map φ).sum := by
  induction l with
  | nil => rfl
  | cons p l ih =>
    have ih := ih (fun q hq => h q (List.mem_cons_of_mem _ hq))
    rw [List.map_cons, List.sum_cons, ih]
    by_cases hp : 0 < p.ivar
    · rw [List.filter_cons_of_pos (by simpa using hp)]; rfl
    · rw [List.filter_cons_of_neg (by simpa using hp), h p (by simp) hp, zero_add]

/-! ### The cost of a cell -/

theorem pixelCost_masked (log : K → K) (vl e f c : K) : pixelCost log vl e f 0 c = 0 := by
  unfold pixelCost pixelWeight
  simp

/-- The pixels of a cell before the fit: the coadded pixel has the same cost for every continuum, up to a constant. -/
theorem cell_cost [IsStrictOrderedRing K] [FloorRing K] (log : K → K) {vl e : K} {l : List (Pix K)}
    (h0 : ∀ p ∈ l, 0 ≤ p.ivar) (hw : ∀ p ∈ l, p.weight = p.ivar) (h : goodIn l ≤ 1 ∨ vl = 0) :
    ∃ D, (goodIn l ≤ 1 → D = 0) ∧ ∀ c,
      pixelCost log vl e (if 0 < sumWeight l then meanFlux l else 0) (if 0 < sumWeight l then 1 / meanVar l else 0) c =
        (l.map (fun p => pixelCost log vl e p.flux p.ivar c)).sum + D := by
  have hgood : ∀ c, (l.map (fun p => pixelCost log vl e p.flux p.ivar c)).sum =
      ((l.filter (fun p => decide (0 < p.ivar))).map (fun p => pixelCost log vl e p.flux p.ivar c)).sum := by
    intro c
    refine sum_good_pix fun p hp hn => ?_
    rw [le_antisymm (not_lt.mp hn) (h0 p hp), pixelCost_masked]
  by_cases hs : 0 < sumWeight l
  · have eV : sumWeight l = (l.map (fun p => p.ivar)).sum := by
      unfold sumWeight; rw [List.map_congr_left hw]
    have eF : (l.map (fun p => p.weight * p.flux)).sum = (l.map (fun p => p.ivar * p.flux)).sum := by
      congr 1
      exact List.map_congr_left fun p hp => by rw [hw p hp]
    simp only [if_pos hs, C26_ivar_adds h0 hw hs]
    have hV : 0 < (l.map (fun p => p.ivar)).sum := eV ▸ hs
    unfold meanFlux
    rw [eF, eV]
    by_cases hg : goodIn l ≤ 1
    · refine ⟨0, fun _ => rfl, fun c => ?_⟩
      rw [hgood, add_zero]
      rw [sum_good_pix (l := l) (φ := fun p => p.ivar)
        (fun p hp hn => le_antisymm (not_lt.mp hn) (h0 p hp))] at hV ⊢
      rw [sum_good_pix (l := l) (φ := fun p => p.ivar * p.flux)
        (fun p hp hn => by rw [le_antisymm (not_lt.mp hn) (h0 p hp), zero_mul])]
      unfold goodIn at hg
      generalize l.filter (fun p => decide (0 < p.ivar)) = g at hg hV
      match g, hg, hV with
      | [], _, hV => simp at hV
      | [p], _, hV =>
        simp only [List.map_cons, List.map_nil, List.sum_cons, List.sum_nil, add_zero] at hV ⊢
        rw [mul_div_cancel_left₀ _ hV.ne']
      | _ :: _ :: _, hg, _ => simp at hg
    · have hvl : vl = 0 := h.resolve_left hg
      subst hvl
      have pc : ∀ f v c : K, pixelCost log 0 e f v c =
          v / e * (f - c) ^ 2 - (if 0 < v / e then log (v / e) else 0) := by
        intro f v c
        unfold pixelCost pixelWeight
        simp only [zero_mul, mul_zero, add_zero]
      have key : ∀ (c : K) (l : List (Pix K)), (l.map (fun p => pixelCost log 0 e p.flux p.ivar c)).sum =
          ((l.map (fun p => p.ivar * p.flux ^ 2)).sum - 2 * c * (l.map (fun p => p.ivar * p.flux)).sum +
            c ^ 2 * (l.map (fun p => p.ivar)).sum) / e -
          (l.map (fun p => if 0 < p.ivar / e then log (p.ivar / e) else 0)).sum := by
        intro c l
        induction l with
        | nil => simp
        | cons p l ih =>
          rw [List.map_cons, List.sum_cons, ih, pc]
          simp only [List.map_cons, List.sum_cons]
          ring
      refine ⟨((l.map (fun p => p.ivar * p.flux)).sum ^ 2 / (l.map (fun p => p.ivar)).sum -
        (l.map (fun p => p.ivar * p.flux ^ 2)).sum) / e +
        (l.map (fun p => if 0 < p.ivar / e then log (p.ivar / e) else 0)).sum -
        (if 0 < (l.map (fun p => p.ivar)).sum / e then log ((l.map (fun p => p.ivar)).sum / e) else 0),
        fun hc => absurd hc hg, fun c => ?_⟩
      rw [key, pc]
      generalize (l.map (fun p => if 0 < p.ivar / e then log (p.ivar / e) else 0)).sum = L1
      generalize (if 0 < (l.map (fun p => p.ivar)).sum / e then log ((l.map (fun p => p.ivar)).sum / e) else 0) = L2
      generalize (l.map (fun p => p.ivar)).sum = V at hV
      generalize (l.map (fun p => p.ivar * p.flux)).sum = F
      generalize (l.map (fun p => p.ivar * p.flux ^ 2)).sum = Q
      have hV' := hV.ne'
      rw [show V / e * (F / V - c) ^ 2 = (F ^ 2 / V - 2 * c * F + c ^ 2 * V) / e by field_simp; ring]
      ring
  · refine ⟨0, fun _ => rfl, fun c => ?_⟩
    have hz := sum_eq_zero_weights (fun p hp => (hw p hp) ▸ h0 p hp) hs
    rw [if_neg hs, if_neg hs, pixelCost_masked, add_zero, eq_comm]
    refine List.sum_eq_zero fun y hy => ?_
    obtain ⟨p, hp, rfl⟩ := List.mem_map.mp hy
    rw [← hw p hp, hz p hp, pixelCost_masked]

/-! ### The weights of the fit -/

omit [LinearOrder K] in
theorem pixelWeight_masked (vl e c : K) : pixelWeight vl e c 0 = 0 := by
  unfold pixelWeight; simp

omit [LinearOrder K] in
/-- The pixel with the weight of the fit. -/
def fitted (vl eta C : K → K) (p : Pix K) : Pix K :=
  { p with weight := pixelWeight (vl p.wave) (eta p.wave) (C p.wave) p.ivar }

/-- The weights of the fit give the same mean and variance in a cell as the inverse variance. -/
theorem cell_weights [IsStrictOrderedRing K] {vl e c : K} (hvl : 0 ≤ vl) (he : 0 < e) {l : List (Pix K)}
    (h0 : ∀ p ∈ l, 0 ≤ p.ivar) (hw : ∀ p ∈ l, p.weight = p.ivar) (h : goodIn l ≤ 1 ∨ vl = 0) :
    let l' := l.map (fun p => { p with weight := pixelWeight vl e c p.ivar })
    (0 < sumWeight l' ↔ 0 < sumWeight l) ∧
    (0 < sumWeight l → meanFlux l' = meanFlux l ∧ meanVar l' = meanVar l) := by
  intro l'
  have hpos : ∀ v : K, 0 < v → 0 < pixelWeight vl e c v := by
    intro v hv
    unfold pixelWeight
    positivity
  have hm : ∀ p ∈ l, ¬ 0 < p.ivar → p.ivar = 0 := fun p hp hn => le_antisymm (not_lt.mp hn) (h0 p hp)
  have hlg : l'.filter (fun p => decide (0 < p.ivar)) =
      (l.filter (fun p => decide (0 < p.ivar))).map (fun p => { p with weight := pixelWeight vl e c p.ivar }) := by
    change (l.map _).filter _ = _
    rw [List.filter_map]
    rfl
  have a1 : sumWeight l' = ((l.filter (fun p => decide (0 < p.ivar))).map (fun p => pixelWeight vl e c p.ivar)).sum := by
    unfold sumWeight
    rw [List.map_map]
    refine sum_good_pix fun p hp hn => ?_
    change pixelWeight vl e c p.ivar = 0
    rw [hm p hp hn, pixelWeight_masked]
  have a2 : (l'.map (fun p => p.weight * p.flux)).sum =
      ((l.filter (fun p => decide (0 < p.ivar))).map (fun p => pixelWeight vl e c p.ivar * p.flux)).sum := by
    rw [List.map_map]
    refine sum_good_pix fun p hp hn => ?_
    change pixelWeight vl e c p.ivar * p.flux = 0
    rw [hm p hp hn, pixelWeight_masked, zero_mul]
  have b1 : sumWeight l = ((l.filter (fun p => decide (0 < p.ivar))).map (fun p => p.ivar)).sum := by
    unfold sumWeight
    rw [List.map_congr_left hw]
    exact sum_good_pix fun p hp hn => hm p hp hn
  have b2 : (l.map (fun p => p.weight * p.flux)).sum =
      ((l.filter (fun p => decide (0 < p.ivar))).map (fun p => p.ivar * p.flux)).sum := by
    rw [List.map_congr_left (g := fun p => p.ivar * p.flux) (fun p hp => by rw [hw p hp])]
    exact sum_good_pix fun p hp hn => by rw [hm p hp hn, zero_mul]
  unfold meanFlux meanVar
  rw [a2, hlg, List.map_map, a1, b1, b2]
  have hg0 : ∀ p ∈ l.filter (fun p => decide (0 < p.ivar)), 0 < p.ivar ∧ p.weight = p.ivar := by
    intro p hp
    obtain ⟨m1, m2⟩ := List.mem_filter.mp hp
    exact ⟨by simpa using m2, hw p m1⟩
  unfold goodIn at h
  generalize l.filter (fun p => decide (0 < p.ivar)) = g at h hg0
  rcases h with h | rfl
  · match g, h, hg0 with
    | [], _, _ => simp
    | [p], _, hg0 =>
      obtain ⟨q1, q2⟩ := hg0 p (by simp)
      have q3 := hpos p.ivar q1
      simp only [List.map_cons, List.map_nil, List.sum_cons, List.sum_nil, add_zero, Function.comp_apply]
      refine ⟨iff_of_true q3 q1, fun _ => ⟨?_, ?_⟩⟩
      · rw [mul_div_cancel_left₀ _ q3.ne', mul_div_cancel_left₀ _ q1.ne']
      · rw [q2]
        have := q1.ne'
        have := q3.ne'
        field_simp
    | _ :: _ :: _, h, _ => simp at h
  · have pw : ∀ v : K, pixelWeight 0 e c v = e⁻¹ * v := by
      intro v
      unfold pixelWeight
      rw [zero_mul, mul_zero, add_zero, div_eq_inv_mul]
    have hi : (0 : K) < e⁻¹ := inv_pos.mpr he
    have s1 : (g.map (fun p => pixelWeight 0 e c p.ivar)).sum = e⁻¹ * (g.map (fun p => p.ivar)).sum := by
      rw [← List.sum_map_mul_left]
      exact congrArg List.sum (List.map_congr_left fun p _ => pw _)
    have s2 : (g.map (fun p => pixelWeight 0 e c p.ivar * p.flux)).sum = e⁻¹ * (g.map (fun p => p.ivar * p.flux)).sum := by
      rw [← List.sum_map_mul_left]
      exact congrArg List.sum (List.map_congr_left fun p _ => by rw [pw, mul_assoc])
    have s3 : (g.map ((fun p : Pix K => p.weight ^ 2 / p.ivar) ∘
        fun p => { p with weight := pixelWeight 0 e c p.ivar })).sum =
        e⁻¹ ^ 2 * (g.map (fun p => p.weight ^ 2 / p.ivar)).sum := by
      rw [← List.sum_map_mul_left]
      refine congrArg List.sum (List.map_congr_left fun p hp => ?_)
      change pixelWeight 0 e c p.ivar ^ 2 / p.ivar = _
      rw [pw, (hg0 p hp).2]
      ring
    rw [s1, s2, s3]
    refine ⟨mul_pos_iff_of_pos_left hi, fun _ => ⟨mul_div_mul_left _ _ hi.ne', ?_⟩⟩
    rw [mul_pow, mul_div_mul_left _ _ (pow_ne_zero 2 hi.ne')]

/-! ### Spectra -/

section spectra
variable [FloorRing K] [IsStrictOrderedRing K]

/-- All pixels of the arms. -/
def armsPix (s : Spectrum K) : List (Pix K) := (s.fwave.map (fun x => s.forestPix x.1)).flatten

theorem before_pix {u : Spectrum K} (h : BeforeFit u) :
    ∀ p ∈ armsPix u, 0 ≤ p.ivar ∧ p.weight = p.ivar ∧ p.wave ∈ allWaves u.fwave := by
  intro p hp
  have e := (cell_triple h.aligned h.ivarSm h.weight 0 0 0).2 p hp
  obtain ⟨l, hl, hpl⟩ := List.mem_flatten.mp hp
  obtain ⟨x, hx, rfl⟩ := List.mem_map.mp hl
  refine ⟨e ▸ (h.ok.nonneg x hx p hpl).1, e, x, hx, ?_⟩
  rw [← forestPix_wave h.ok hx]
  exact List.mem_map.mpr ⟨p, hpl, rfl⟩

/-- Every pixel is in exactly one cell. -/
theorem pix_cell {u : Spectrum K} (h : BeforeFit u) {lo hi : K} {n : Nat} (hg : OnCommonGrid u lo hi n) :
    ∀ p ∈ armsPix u, ∃ k, k < n + 1 ∧ ∀ j, decide (InCell lo u.dwave j p.wave) = true ↔ j = k := by
  intro p hp
  have hw := (before_pix h p hp).2.2
  have w1 := hg.least.2 hw
  have w2 := hg.greatest.2 hw
  refine ⟨cellIdx lo u.dwave p.wave, ?_, fun j => ?_⟩
  · have m := coaddIdx_mono h.ok.dwave w1 w2
    rw [coaddIdx_eq_cellIdx h.ok.dwave w1, coaddIdx_eq_cellIdx h.ok.dwave (w1.trans w2),
      (cellIdx_eq_iff h.ok.dwave (w1.trans w2) n).mpr hg.last] at m
    omega
  · rw [decide_eq_true_iff, ← cellIdx_eq_iff h.ok.dwave w1, eq_comm]

theorem cell_pix {u : Spectrum K} (h : BeforeFit u) {lo hi : K} {n : Nat} (hg : OnCommonGrid u lo hi n) (k : Nat) :
    ∀ p ∈ armsCell u lo k, 0 ≤ p.ivar ∧ p.weight = p.ivar ∧ p.wave = gridWave lo hi n k := by
  intro p hp
  obtain ⟨h1, h2⟩ := List.mem_filter.mp hp
  obtain ⟨a, b, c⟩ := before_pix h p h1
  exact ⟨a, b, hg.exact _ c k (by simpa using h2)⟩

omit [Field K] [LinearOrder K] [FloorRing K] [IsStrictOrderedRing K] in
theorem zipWith_pixelsOf {α : Type} (f : K → K × K → α) {w wt fl iv : List K} (h1 : wt.length = w.length)
    (h2 : fl.length = w.length) (h3 : iv.length = w.length) :
    List.zipWith f w (fl.zip iv) = (pixelsOf w wt fl iv).map (fun p => f p.wave (p.flux, p.ivar)) := by
  unfold pixelsOf
  apply List.ext_getElem
  · simp [h1, h2, h3]
  · intro i _ _
    simp

omit [Field K] [LinearOrder K] [FloorRing K] [IsStrictOrderedRing K] in
theorem fivarSm_before {u : Spectrum K} (h : u.ivarSm = none) : u.fivarSm = u.fivar := by
  unfold fivarSm; rw [h]; rfl

omit [IsStrictOrderedRing K] in
/-- The cost function as a sum over all pixels. -/
theorem cost_pix {u : Spectrum K} (h : BeforeFit u) (log meancont meanflux varlss eta : K → K) (r d : K) (x : List K) :
    u.piccaCost log meancont meanflux varlss eta r d x =
      ((armsPix u).map (fun p => pixelCost log (varlss p.wave) (eta p.wave) p.flux p.ivar
        (piccaModel log meancont r d x (p.wave / (1 + u.z)) * meanflux p.wave))).sum := by
  unfold piccaCost armsPix
  rw [fivarSm_before h.ivarSm, List.map_flatten, List.sum_flatten, List.map_map, List.map_map]
  refine congrArg List.sum (List.map_congr_left fun a ha => ?_)
  have hl : u.fwave.arr a.1 = a.2 := arr_of_lookup (lookup_of_mem h.ok.nodup ha)
  rw [zipWith_pixelsOf _ (h.ok.weight a ha) (h.ok.flux a ha) (h.ok.ivar a ha)]
  simp only [Function.comp_apply]
  unfold forestPix
  rw [hl]

/-- The sum over the pixels, cell by cell. -/
theorem sum_cells {u : Spectrum K} (h : BeforeFit u) {lo hi : K} {n : Nat} (hg : OnCommonGrid u lo hi n) (φ : Pix K → K) :
    ((armsPix u).map φ).sum = ((List.range (n + 1)).map (fun k => ((armsCell u lo k).map φ).sum)).sum :=
  sum_classes (armsPix u) φ (fun k p => decide (InCell lo u.dwave k p.wave)) (n + 1) (pix_cell h hg)

omit [Field K] [LinearOrder K] [FloorRing K] [IsStrictOrderedRing K] in
theorem zipWith_maps {α β : Type} (l : List α) (a b c : α → K) (f : K → K × K → β) :
    List.zipWith f (l.map a) ((l.map b).zip (l.map c)) = l.map (fun k => f (a k) (b k, c k)) := by
  induction l with
  | nil => rfl
  | cons x l ih => simp [ih]

/-- The coadded spectrum before the fit. -/
theorem coadd_before {u : Spectrum K} (h : BeforeFit u) {lo hi : K} {n : Nat} (hg : OnCommonGrid u lo hi n)
    (sqrt : K → K) (smooth : List K → K → List K) (junk : Nat → K) (nan eps : K) (varlss eta : K → K) {t : Spectrum K}
    (ht : u.coaddArmsForest sqrt smooth junk nan eps varlss eta = .ok t) :
    t.fwave = [("brz", (List.range (n + 1)).map (gridWave lo hi n))] ∧
    t.fflux = [("brz", (List.range (n + 1)).map (fun k =>
      if 0 < sumWeight (armsCell u lo k) then meanFlux (armsCell u lo k) else 0))] ∧
    t.fivar = [("brz", (List.range (n + 1)).map (fun k =>
      if 0 < sumWeight (armsCell u lo k) then 1 / meanVar (armsCell u lo k) else 0))] ∧
    t.ivarSm = none ∧ t.z = u.z := by
  obtain ⟨t', ht', w, f, v, -⟩ :=
    C26_coadd_arms h.ok hg.least hg.greatest hg.last hg.one sqrt smooth junk nan eps varlss eta
  rw [ht] at ht'
  cases ht'
  obtain ⟨_, _, -, -, -, hs, -, hz, -⟩ := coaddArmsForest_inv h.smoothing h.cont ht
  exact ⟨w, f, v, hs, hz⟩

/-- The cost function of the coadded spectrum. -/
theorem cost_coadd {u : Spectrum K} (h : BeforeFit u) {lo hi : K} {n : Nat} (hg : OnCommonGrid u lo hi n)
    {varlss : K → K} (ho : OverlapOk u lo hi n varlss)
    {sqrt : K → K} {smooth : List K → K → List K} {junk : Nat → K} {nan eps : K} {vl' eta' : K → K} {t : Spectrum K}
    (ht : u.coaddArmsForest sqrt smooth junk nan eps vl' eta' = .ok t)
    (log meancont meanflux eta : K → K) (r d : K) :
    ∃ D, ((∀ k ≤ n, goodInCell u lo k ≤ 1) → D = 0) ∧ ∀ x,
      t.piccaCost log meancont meanflux varlss eta r d x = u.piccaCost log meancont meanflux varlss eta r d x + D := by
  obtain ⟨tw, tf, tv, ts, tz⟩ := coadd_before h hg _ _ _ _ _ _ _ ht
  have key : ∀ k, ∃ D, k ≤ n → (goodInCell u lo k ≤ 1 → D = 0) ∧ ∀ c,
      pixelCost log (varlss (gridWave lo hi n k)) (eta (gridWave lo hi n k))
        (if 0 < sumWeight (armsCell u lo k) then meanFlux (armsCell u lo k) else 0)
        (if 0 < sumWeight (armsCell u lo k) then 1 / meanVar (armsCell u lo k) else 0) c =
      ((armsCell u lo k).map (fun p => pixelCost log (varlss (gridWave lo hi n k)) (eta (gridWave lo hi n k))
        p.flux p.ivar c)).sum + D := by
    intro k
    by_cases hk : k ≤ n
    · obtain ⟨D, hD⟩ := cell_cost log (vl := varlss (gridWave lo hi n k)) (e := eta (gridWave lo hi n k))
        (fun p hp => (cell_pix h hg k p hp).1) (fun p hp => (cell_pix h hg k p hp).2.1) (ho k hk)
      exact ⟨D, fun _ => hD⟩
    · exact ⟨0, fun hk' => absurd hk' hk⟩
  choose D hD using key
  refine ⟨((List.range (n + 1)).map D).sum, fun hall => ?_, fun x => ?_⟩
  · refine List.sum_eq_zero fun y hy => ?_
    obtain ⟨k, hk, rfl⟩ := List.mem_map.mp hy
    have hk : k ≤ n := by have := List.mem_range.mp hk; omega
    exact (hD k hk).1 (hall k hk)
  · rw [cost_pix h, sum_cells h hg, ← List.sum_map_add]
    unfold piccaCost
    rw [fivarSm_before ts, tw, tf, tv, tz]
    simp only [List.map_cons, List.map_nil, List.sum_cons, List.sum_nil, add_zero, Dict.arr, List.lookup_cons,
      beq_self_eq_true, Option.getD_some]
    rw [zipWith_maps]
    refine congrArg List.sum (List.map_congr_left fun k hk => ?_)
    have hk : k ≤ n := by have := List.mem_range.mp hk; omega
    rw [(hD k hk).2]
    congr 2
    refine List.map_congr_left fun p hp => ?_
    rw [(cell_pix h hg k p hp).2.2]

/-- The starting point of the fit. -/
theorem start_coadd {u : Spectrum K} (h : BeforeFit u) {lo hi : K} {n : Nat} (hg : OnCommonGrid u lo hi n)
    {sqrt : K → K} {smooth : List K → K → List K} {junk : Nat → K} {nan eps : K} {vl' eta' : K → K} {t : Spectrum K}
    (ht : u.coaddArmsForest sqrt smooth junk nan eps vl' eta' = .ok t) : startA0 t = startA0 u := by
  obtain ⟨tw, tf, tv, ts, tz⟩ := coadd_before h hg _ _ _ _ _ _ _ ht
  have hn : u.fivar.keys.Nodup := h.aligned.ivarKeys ▸ h.ok.nodup
  have conv : ∀ F : String → List K → K, u.fivar.map (fun a => F a.1 a.2) =
      u.fwave.map (fun a => F a.1 (u.fivar.arr a.1)) := by
    intro F
    have e1 : u.fivar.map (fun a => F a.1 a.2) = u.fivar.keys.map (fun a => F a (u.fivar.arr a)) := by
      unfold Dict.keys
      rw [List.map_map]
      refine List.map_congr_left fun a ha => ?_
      change _ = F a.1 (u.fivar.arr a.1)
      rw [arr_of_lookup (lookup_of_mem hn ha)]
    rw [e1, h.aligned.ivarKeys]
    unfold Dict.keys
    rw [List.map_map]
    rfl
  have num : (u.fivar.map (fun a => (List.zipWith (· * ·) (u.fflux.arr a.1) a.2).sum)).sum =
      ((armsPix u).map (fun p => p.ivar * p.flux)).sum := by
    rw [conv (fun a v => (List.zipWith (· * ·) (u.fflux.arr a) v).sum)]
    unfold armsPix
    rw [List.map_flatten, List.sum_flatten, List.map_map, List.map_map]
    refine congrArg List.sum (List.map_congr_left fun a ha => ?_)
    have hl : u.fwave.arr a.1 = a.2 := arr_of_lookup (lookup_of_mem h.ok.nodup ha)
    simp only [Function.comp_apply]
    congr 1
    unfold forestPix pixelsOf
    rw [hl]
    apply List.ext_getElem
    · simp [h.ok.weight a ha, h.ok.flux a ha, h.ok.ivar a ha]
    · intro i _ _
      simp [mul_comm]
  have den : (u.fivar.map (fun a => a.2.sum)).sum = ((armsPix u).map (fun p => p.ivar)).sum := by
    rw [conv (fun _ v => v.sum)]
    unfold armsPix
    rw [List.map_flatten, List.sum_flatten, List.map_map, List.map_map]
    refine congrArg List.sum (List.map_congr_left fun a ha => ?_)
    have hl : u.fwave.arr a.1 = a.2 := arr_of_lookup (lookup_of_mem h.ok.nodup ha)
    simp only [Function.comp_apply]
    unfold forestPix
    rw [hl, pixelsOf_ivar (h.ok.weight a ha) (h.ok.flux a ha) (h.ok.ivar a ha)]
  have cells : ∀ k, (if 0 < sumWeight (armsCell u lo k) then meanFlux (armsCell u lo k) else 0) *
      (if 0 < sumWeight (armsCell u lo k) then 1 / meanVar (armsCell u lo k) else 0) =
        ((armsCell u lo k).map (fun p => p.ivar * p.flux)).sum ∧
      (if 0 < sumWeight (armsCell u lo k) then 1 / meanVar (armsCell u lo k) else 0) =
        ((armsCell u lo k).map (fun p => p.ivar)).sum := by
    intro k
    have c := cell_pix h hg k
    by_cases hs : 0 < sumWeight (armsCell u lo k)
    · simp only [if_pos hs]
      rw [C26_ivar_adds (fun p hp => (c p hp).1) (fun p hp => (c p hp).2.1) hs]
      have e : sumWeight (armsCell u lo k) = ((armsCell u lo k).map (fun p => p.ivar)).sum := by
        unfold sumWeight
        rw [List.map_congr_left fun p hp => (c p hp).2.1]
      refine ⟨?_, rfl⟩
      unfold meanFlux
      rw [← e, div_mul_cancel₀ _ hs.ne']
      exact congrArg List.sum (List.map_congr_left fun p hp => by rw [(c p hp).2.1])
    · have z := sum_eq_zero_weights (fun p hp => (c p hp).2.1 ▸ (c p hp).1) hs
      have z' : ∀ p ∈ armsCell u lo k, p.ivar = 0 := fun p hp => (c p hp).2.1 ▸ z p hp
      simp only [if_neg hs, zero_mul]
      constructor
      · refine (List.sum_eq_zero fun y hy => ?_).symm
        obtain ⟨p, hp, rfl⟩ := List.mem_map.mp hy
        rw [z' p hp, zero_mul]
      · refine (List.sum_eq_zero fun y hy => ?_).symm
        obtain ⟨p, hp, rfl⟩ := List.mem_map.mp hy
        exact z' p hp
  unfold startA0
  rw [fivarSm_before ts, fivarSm_before h.ivarSm, num, den, sum_cells h hg, sum_cells h hg, tf, tv]
  simp only [List.map_cons, List.map_nil, List.sum_cons, List.sum_nil, add_zero, Dict.arr, List.lookup_cons,
    beq_self_eq_true, Option.getD_some, List.zipWith_map, List.zipWith_self]
  congr 1
  · exact congrArg List.sum (List.map_congr_left fun k _ => (cells k).1)
  · congr 1
    exact congrArg List.sum (List.map_congr_left fun k _ => (cells k).2)

end spectra

/-! ### After the fit -/

/-- A spectrum with a valid fit. -/
theorem piccaFit_valid {s : Spectrum K} (hn : s.fwave.keys.Nodup) (hne : s.fwave ≠ [])
    {log meancont meanflux varlss eta : K → K} {r d : K} {x : Bool × List K}
    (h : (s.piccaFit log meancont meanflux varlss eta r d x).valid = true) :
    ∃ (c : Dict (List K)) (chi2 : K), c ≠ [] ∧ (∀ arm w, s.fwave.lookup arm = some w →
        c.arr arm = w.map (fun v => piccaModel log meancont r d x.2 (v / (1 + s.z)) * meanflux v)) ∧
      s.piccaFit log meancont meanflux varlss eta r d x =
        { s with valid := true, cont := c, chi2 := chi2
                 weight := some (s.fwave.mapVals (fun arm wave =>
                   armWeight varlss eta wave (c.arr arm) (s.fivarSm.arr arm))) } := by
  obtain ⟨ok, x⟩ := x
  obtain ⟨v1, v2⟩ := C53_picca_values log meancont meanflux varlss eta r d ok x hn
  obtain rfl := (v1.mp h).1
  have v2 := v2 h
  set R := contLoop piccaRejects (fun w => w.map (fun v => piccaModel log meancont r d x (v / (1 + s.z))))
    (mulFlux meanflux) s.fwave [] with hR
  have e : s.piccaFit log meancont meanflux varlss eta r d (true, x) = (s.setCont R).endFit varlss eta := by
    unfold piccaFit
    rw [if_pos rfl]
  rw [e] at h v2 ⊢
  obtain ⟨e1, e2, -⟩ := endFit_cases varlss eta (s.setCont R)
  have hv : (s.setCont R).valid = true := e1 ▸ h
  obtain ⟨e3, e4⟩ := e2 hv
  have hc : ∀ arm w, s.fwave.lookup arm = some w → R.2.lookup arm = some (w.map (fun v =>
      piccaModel log meancont r d x (v / (1 + s.z)) * meanflux v)) := by
    intro arm w hw
    have := v2 arm w hw
    rwa [e4] at this
  have hcn : R.2 ≠ [] := by
    obtain ⟨a, ha⟩ := List.exists_mem_of_ne_nil _ hne
    have := hc a.1 a.2 (lookup_of_mem hn ha)
    intro hz
    rw [hz] at this
    simp at this
  have hw : (s.setCont R).setForestWeight varlss eta =
      { s.setCont R with weight := some (s.fwave.mapVals (fun arm wave =>
          armWeight varlss eta wave (R.2.arr arm) (s.fivarSm.arr arm))) } := by
    unfold setForestWeight
    rw [if_neg]
    · rfl
    · rintro (h1 | h1)
      · rw [hv] at h1; cases h1
      · exact hcn h1
  refine ⟨R.2, ((s.setCont R).setForestWeight varlss eta).calcContinuumChi2.chi2, hcn,
    fun arm w hw' => arr_of_lookup (hc arm w hw'), ?_⟩
  · rw [e3, hw]
    unfold calcContinuumChi2
    rw [if_neg]
    · have hv' : R.1 = true := hv
      unfold setCont
      rw [hv']
    · rintro (h1 | h1)
      · exact absurd (hv.symm.trans h1) (by simp)
      · exact hcn h1

/-- `coadd_arms_forest` of a spectrum with a continuum: the weights are those of the coadded pixels. -/
theorem coadd_after [FloorRing K] {sqrt : K → K} {smooth : List K → K → List K} {junk : Nat → K} {nan eps : K}
    {s t : Spectrum K} {varlss eta : K → K} (hs : s.smoothing ≤ 0) (hv : s.valid = true) (hc : s.cont ≠ [])
    (h : s.coaddArmsForest sqrt smooth junk nan eps varlss eta = .ok t) :
    t.valid = true ∧ t.weight = some (t.fwave.mapVals (fun arm wave =>
      armWeight varlss eta wave (t.cont.arr arm) (t.fivar.arr arm))) := by
  unfold coaddArmsForest at h
  obtain ⟨g, hg, h⟩ := except_bind_eq_ok.mp h
  obtain ⟨fi, hfi, h⟩ := except_bind_eq_ok.mp h
  obtain ⟨c, hcc, h⟩ := except_bind_eq_ok.mp h
  obtain ⟨r, hr, h⟩ := except_bind_eq_ok.mp h
  have hc' : c ≠ [] := by
    unfold newCont at hcc
    rw [if_neg hc] at hcc
    obtain ⟨c', hc', hcc⟩ := except_bind_eq_ok.mp hcc
    rw [except_pure] at hcc
    cases hcc
    simp
  rw [except_pure] at h
  cases h
  have h1 : (s.replaceForest (linspace g.1 g.2.1 g.2.2) fi.1 fi.2 c r).setSmoothForestivar smooth s.smoothing =
      { s.replaceForest (linspace g.1 g.2.1 g.2.2) fi.1 fi.2 c r with smoothing := 0, ivarSm := none, weight := none } :=
    if_pos hs
  rw [h1]
  unfold setForestWeight
  rw [if_neg]
  · exact ⟨hv, rfl⟩
  · rintro (h1 | h1)
    · exact absurd (hv.symm.trans h1) (by simp)
    · exact hc' h1

section spectra
variable [FloorRing K] [IsStrictOrderedRing K]

omit [Field K] [LinearOrder K] [FloorRing K] [IsStrictOrderedRing K] in
theorem arr_brz (l : List K) : Dict.arr [("brz", l)] "brz" = l := rfl

omit [LinearOrder K] [FloorRing K] [IsStrictOrderedRing K] in
theorem armWeight_maps {α : Type} (vl eta : K → K) (l : List α) (a b c : α → K) :
    armWeight vl eta (l.map a) (l.map b) (l.map c) =
      l.map (fun k => pixelWeight (vl (a k)) (eta (a k)) (b k) (c k)) :=
  zipWith_maps l a b c _

omit [IsStrictOrderedRing K] in
/-- The pixels of a fitted spectrum. -/
theorem fitWeight_pix {u : Spectrum K} (h : BeforeFit u) {vl eta C : K → K} {c : Dict (List K)} {chi2 : K}
    (hc : ∀ arm w, u.fwave.lookup arm = some w → c.arr arm = w.map C)
    {u' : Spectrum K} (hu : u' = { u with valid := true, cont := c, chi2 := chi2
                                          weight := some (u.fwave.mapVals (fun arm wave =>
                                            armWeight vl eta wave (c.arr arm) (u.fivarSm.arr arm))) }) :
    ∀ x ∈ u.fwave, (u'.fweight.arr x.1).length = x.2.length ∧
      u'.forestPix x.1 = (u.forestPix x.1).map (fitted vl eta C) := by
  intro x hx
  have hl := lookup_of_mem h.ok.nodup hx
  have hk : x.1 ∈ u.fwave.keys := List.mem_map.mpr ⟨x, hx, rfl⟩
  have hw : u'.fweight.arr x.1 = armWeight vl eta x.2 (x.2.map C) (u.fivar.arr x.1) := by
    rw [hu]
    change (u.fwave.mapVals (fun arm wave => armWeight vl eta wave (c.arr arm) (u.fivarSm.arr arm))).arr x.1 = _
    rw [arr_mapVals hk, arr_of_lookup hl, hc _ _ hl, fivarSm_before h.ivarSm]
  have h2 := h.ok.flux x hx
  have h3 := h.ok.ivar x hx
  have h4 := h.ok.weight x hx
  have hlen : (armWeight vl eta x.2 (x.2.map C) (u.fivar.arr x.1)).length = x.2.length := by
    unfold armWeight
    simp [h3]
  refine ⟨hw ▸ hlen, ?_⟩
  have e : u'.forestPix x.1 = pixelsOf x.2 (armWeight vl eta x.2 (x.2.map C) (u.fivar.arr x.1))
      (u.fflux.arr x.1) (u.fivar.arr x.1) := by
    unfold forestPix
    rw [hw, hu]
    change pixelsOf (u.fwave.arr x.1) _ _ _ = _
    rw [arr_of_lookup hl]
  rw [e]
  unfold forestPix
  rw [arr_of_lookup hl]
  unfold pixelsOf
  apply List.ext_getElem
  · simp [hlen, h2, h3, h4]
  · intro i _ _
    simp [fitted, armWeight]

theorem fitWeight_ok {u : Spectrum K} (h : BeforeFit u) {vl eta C : K → K} (hvl : ∀ w, 0 ≤ vl w) (heta : ∀ w, 0 < eta w)
    {c : Dict (List K)} {chi2 : K} (hc : ∀ arm w, u.fwave.lookup arm = some w → c.arr arm = w.map C)
    {u' : Spectrum K} (hu : u' = { u with valid := true, cont := c, chi2 := chi2
                                          weight := some (u.fwave.mapVals (fun arm wave =>
                                            armWeight vl eta wave (c.arr arm) (u.fivarSm.arr arm))) }) :
    ForestOk u' ∧ ∀ lo, (∀ k, armsCell u' lo k = (armsCell u lo k).map (fitted vl eta C)) ∧
      (OnePerCell lo u.dwave (u.fwave.map (fun x => u.forestPix x.1)) →
        OnePerCell lo u'.dwave (u'.fwave.map (fun x => u'.forestPix x.1))) := by
  have hp := fitWeight_pix h hc hu
  have hd : u'.dwave = u.dwave := by rw [hu]
  have hf : u'.fwave = u.fwave := by rw [hu]
  have hfl : u'.fflux = u.fflux := by rw [hu]
  have hiv : u'.fivar = u.fivar := by rw [hu]
  have hre : u'.freso = u.freso := by rw [hu]
  have harms : u'.fwave.map (fun x => u'.forestPix x.1) =
      (u.fwave.map (fun x => u.forestPix x.1)).map (List.map (fitted vl eta C)) := by
    rw [hf, List.map_map]
    exact List.map_congr_left fun x hx => (hp x hx).2
  refine ⟨?_, fun lo => ⟨fun k => ?_, fun h1 => ?_⟩⟩
  · constructor
    · rw [hd]; exact h.ok.dwave
    · rw [hf]; exact h.ok.nodup
    · rw [hf]; exact h.ok.sorted
    · rw [hf, hfl]; exact h.ok.flux
    · rw [hf, hiv]; exact h.ok.ivar
    · rw [hf]; exact fun x hx => (hp x hx).1
    · rw [hf]
      intro x hx p hpp
      rw [(hp x hx).2] at hpp
      obtain ⟨q, hq, rfl⟩ := List.mem_map.mp hpp
      have hq0 := (before_pix h q (List.mem_flatten.mpr ⟨_, List.mem_map.mpr ⟨x, hx, rfl⟩, hq⟩)).1
      have a := hvl q.wave
      have b := heta q.wave
      change 0 ≤ pixelWeight _ _ _ q.ivar ∧ (0 < pixelWeight _ _ _ q.ivar → 0 < q.ivar)
      refine ⟨?_, fun hw => ?_⟩
      · unfold pixelWeight
        positivity
      · rcases hq0.eq_or_lt with hz | hz
        · rw [← hz, pixelWeight_masked] at hw
          exact absurd hw (lt_irrefl _)
        · exact hz
    · rw [hf, hre]; exact h.ok.resoArm
    · rw [hre]; exact h.ok.resoParity
  · unfold armsCell cell
    rw [harms, ← List.map_flatten, List.filter_map, hd]
    rfl
  · rw [harms, hd]
    intro a ha
    obtain ⟨b, hb, rfl⟩ := List.mem_map.mp ha
    exact List.pairwise_map.mpr (h1 b hb)

/-- The continuum of a cell with pixels. -/
theorem lastIn_cont {u : Spectrum K} (h : BeforeFit u) {lo hi : K} {n : Nat} (hg : OnCommonGrid u lo hi n) {C : K → K}
    {c : Dict (List K)} (hc : ∀ arm w, u.fwave.lookup arm = some w → c.arr arm = w.map C) {k : Nat}
    (hk : armsCell u lo k ≠ []) :
    lastIn lo u.dwave (u.fwave.flatMap (fun x => x.2.zip (c.arr x.1))) k = some (C (gridWave lo hi n k)) := by
  have hall : ∀ p ∈ (u.fwave.flatMap (fun x => x.2.zip (c.arr x.1))).filter
      (fun p => decide (InCell lo u.dwave k p.1)), p.2 = C (gridWave lo hi n k) := by
    intro p hp
    obtain ⟨h1, h2⟩ := List.mem_filter.mp hp
    obtain ⟨x, hx, hpx⟩ := List.mem_flatMap.mp h1
    rw [hc _ _ (lookup_of_mem h.ok.nodup hx)] at hpx
    have e : x.2.zip (x.2.map C) = x.2.map (fun w => (w, C w)) := by
      apply List.ext_getElem
      · simp
      · intro i _ _; simp
    rw [e] at hpx
    obtain ⟨w, hw, rfl⟩ := List.mem_map.mp hpx
    rw [← hg.exact w ⟨x, hx, hw⟩ k (by simpa using h2)]
  have hne : (u.fwave.flatMap (fun x => x.2.zip (c.arr x.1))).filter
      (fun p => decide (InCell lo u.dwave k p.1)) ≠ [] := by
    obtain ⟨p, hp⟩ := List.exists_mem_of_ne_nil _ hk
    obtain ⟨h1, h2⟩ := List.mem_filter.mp hp
    obtain ⟨x, hx, hw⟩ := (before_pix h p h1).2.2
    have : (p.wave, C p.wave) ∈ (u.fwave.flatMap (fun x => x.2.zip (c.arr x.1))).filter
        (fun p => decide (InCell lo u.dwave k p.1)) := by
      refine List.mem_filter.mpr ⟨List.mem_flatMap.mpr ⟨x, hx, ?_⟩, h2⟩
      rw [hc _ _ (lookup_of_mem h.ok.nodup hx)]
      obtain ⟨i, hi, e⟩ := List.getElem_of_mem hw
      refine List.mem_iff_getElem.mpr ⟨i, by simpa using hi, ?_⟩
      simp [e]
    exact List.ne_nil_of_mem this
  unfold lastIn
  rw [List.getLast?_eq_some_getLast hne]
  exact congrArg some (hall _ (List.getLast_mem hne))

/-- **Coadding a fitted spectrum** and fitting the coadded spectrum, with the same coefficients. -/
theorem fit_coadd {u : Spectrum K} (h : BeforeFit u) {lo hi : K} {n : Nat} (hg : OnCommonGrid u lo hi n)
    {log meancont meanflux varlss eta : K → K} (hvl : ∀ w, 0 ≤ varlss w) (heta : ∀ w, 0 < eta w)
    (ho : OverlapOk u lo hi n varlss) {sqrt : K → K} {smooth : List K → K → List K} {junk : Nat → K} {nan eps : K}
    {vl' eta' : K → K} {t : Spectrum K} (ht : u.coaddArmsForest sqrt smooth junk nan eps vl' eta' = .ok t)
    (r d : K) (x : Bool × List K)
    (hv : (t.piccaFit log meancont meanflux varlss eta r d x).valid = true) :
    (u.piccaFit log meancont meanflux varlss eta r d x).valid = true ∧
    ∃ s, (u.piccaFit log meancont meanflux varlss eta r d x).coaddArmsForest sqrt smooth junk nan eps varlss eta = .ok s ∧
      s.valid = true ∧
      s.fwave = (t.piccaFit log meancont meanflux varlss eta r d x).fwave ∧
      s.fflux = (t.piccaFit log meancont meanflux varlss eta r d x).fflux ∧
      s.fivar = (t.piccaFit log meancont meanflux varlss eta r d x).fivar ∧
      s.fweight = (t.piccaFit log meancont meanflux varlss eta r d x).fweight ∧
      ∀ k ≤ n, armsCell u lo k ≠ [] →
        (s.cont.arr "brz")[k]? = ((t.piccaFit log meancont meanflux varlss eta r d x).cont.arr "brz")[k]? := by
  obtain ⟨tw, tf, tv, ts, tz⟩ := coadd_before h hg _ _ _ _ _ _ _ ht
  have hne : u.fwave ≠ [] := by
    obtain ⟨a, ha, -⟩ := hg.least.1
    exact List.ne_nil_of_mem ha
  have htn : t.fwave.keys.Nodup := by rw [tw]; simp [Dict.keys]
  have hvu : (u.piccaFit log meancont meanflux varlss eta r d x).valid = true := by
    obtain ⟨h1, h2⟩ := (C53_picca_values log meancont meanflux varlss eta r d x.1 x.2 htn).1.mp hv
    refine (C53_picca_values log meancont meanflux varlss eta r d x.1 x.2 h.ok.nodup).1.mpr ⟨h1, fun a ha w hw => ?_⟩
    have hw' : w ∈ allWaves u.fwave := ⟨a, ha, hw⟩
    have w1 := hg.least.2 hw'
    have w2 := hg.greatest.2 hw'
    have hin := (cellIdx_eq_iff h.ok.dwave w1 _).mp rfl
    have hlt : cellIdx lo u.dwave w < n + 1 := by
      have m := coaddIdx_mono h.ok.dwave w1 w2
      rw [coaddIdx_eq_cellIdx h.ok.dwave w1, coaddIdx_eq_cellIdx h.ok.dwave (w1.trans w2),
        (cellIdx_eq_iff h.ok.dwave (w1.trans w2) n).mpr hg.last] at m
      omega
    rw [hg.exact w hw' _ hin]
    rw [tz, tw] at h2
    exact h2 ("brz", _) (List.mem_singleton.mpr rfl) _ (List.mem_map.mpr ⟨_, List.mem_range.mpr hlt, rfl⟩)
  refine ⟨hvu, ?_⟩
  obtain ⟨c, chi2, hc0, hc, eu⟩ := piccaFit_valid h.ok.nodup hne hvu
  obtain ⟨c', chi2', -, hc', et⟩ := piccaFit_valid htn (by rw [tw]; simp) hv
  obtain ⟨ok, hcell⟩ := fitWeight_ok h hvl heta hc eu
  obtain ⟨hcell, hone⟩ := hcell lo
  set u' := u.piccaFit log meancont meanflux varlss eta r d x with hu'
  set t' := t.piccaFit log meancont meanflux varlss eta r d x with ht'
  have uf : u'.fwave = u.fwave := by rw [eu]
  have ud : u'.dwave = u.dwave := by rw [eu]
  have uc : u'.cont = c := by rw [eu]
  have us : u'.smoothing ≤ 0 := by rw [eu]; exact h.smoothing
  obtain ⟨s, hs, sw, sf, sv, -, sc, -⟩ := C26_coadd_arms (s := u') ok (uf.symm ▸ hg.least) (uf.symm ▸ hg.greatest)
    (ud.symm ▸ hg.last) (hone hg.one) sqrt smooth junk nan eps varlss eta
  have sc := sc (uc ▸ hc0)
  obtain ⟨s1, s2⟩ := coadd_after us hvu (uc ▸ hc0) hs
  have tfw : t'.fwave = t.fwave := by rw [et]
  have tff : t'.fflux = t.fflux := by rw [et]
  have tfv : t'.fivar = t.fivar := by rw [et]
  have tc : t'.cont = c' := by rw [et]
  have hc' := hc' "brz" ((List.range (n + 1)).map (gridWave lo hi n)) (by rw [tw]; rfl)
  rw [List.map_map, tz] at hc'
  have twt : t'.fweight = [("brz", armWeight varlss eta ((List.range (n + 1)).map (gridWave lo hi n))
      (c'.arr "brz") (t.fivar.arr "brz"))] := by
    rw [et]
    change t.fwave.mapVals (fun arm wave => armWeight varlss eta wave (c'.arr arm) (t.fivarSm.arr arm)) = _
    rw [fivarSm_before ts, tw]
    rfl
  -- the cells
  have cells : ∀ k ≤ n, (0 < sumWeight (armsCell u' lo k) ↔ 0 < sumWeight (armsCell u lo k)) ∧
      (0 < sumWeight (armsCell u lo k) → meanFlux (armsCell u' lo k) = meanFlux (armsCell u lo k) ∧
        meanVar (armsCell u' lo k) = meanVar (armsCell u lo k)) := by
    intro k hk
    have e : armsCell u' lo k = (armsCell u lo k).map (fun p => { p with
        weight := pixelWeight (varlss (gridWave lo hi n k)) (eta (gridWave lo hi n k))
          (piccaModel log meancont r d x.2 (gridWave lo hi n k / (1 + u.z)) * meanflux (gridWave lo hi n k)) p.ivar }) := by
      rw [hcell k]
      refine List.map_congr_left fun p hp => ?_
      unfold fitted
      rw [(cell_pix h hg k p hp).2.2]
    rw [e]
    exact cell_weights (hvl _) (heta _) (fun p hp => (cell_pix h hg k p hp).1)
      (fun p hp => (cell_pix h hg k p hp).2.1) (ho k hk)
  have ef : s.fflux = t.fflux := by
    rw [sf, tf]
    congr 2
    refine List.map_congr_left fun k hk => ?_
    have hk : k ≤ n := by have := List.mem_range.mp hk; omega
    obtain ⟨a1, a2⟩ := cells k hk
    change (if 0 < sumWeight (armsCell u' lo k) then meanFlux (armsCell u' lo k) else 0) = _
    by_cases hz : 0 < sumWeight (armsCell u lo k)
    · rw [if_pos hz, if_pos (a1.mpr hz), (a2 hz).1]
    · rw [if_neg hz, if_neg (fun hz' => hz (a1.mp hz'))]
  have ev : s.fivar = t.fivar := by
    rw [sv, tv]
    congr 2
    refine List.map_congr_left fun k hk => ?_
    have hk : k ≤ n := by have := List.mem_range.mp hk; omega
    obtain ⟨a1, a2⟩ := cells k hk
    change (if 0 < sumWeight (armsCell u' lo k) then 1 / meanVar (armsCell u' lo k) else 0) = _
    by_cases hz : 0 < sumWeight (armsCell u lo k)
    · rw [if_pos hz, if_pos (a1.mpr hz), (a2 hz).2]
    · rw [if_neg hz, if_neg (fun hz' => hz (a1.mp hz'))]
  have ecs : ∀ k, armsCell u lo k ≠ [] →
      (lastIn lo u'.dwave (u'.fwave.flatMap (fun x => x.2.zip (u'.cont.arr x.1))) k).getD (junk k) =
        piccaModel log meancont r d x.2 (gridWave lo hi n k / (1 + u.z)) * meanflux (gridWave lo hi n k) := by
    intro k hk
    rw [ud, uf, uc, lastIn_cont h hg hc hk]
    rfl
  refine ⟨s, hs, s1, ?_, ef.trans tff.symm, ev.trans tfv.symm, ?_, fun k hk hne => ?_⟩
  · rw [tfw, tw, sw]
    rfl
  · have swt : s.fweight = [("brz", armWeight varlss eta ((List.range (n + 1)).map (gridWave lo hi n))
        (s.cont.arr "brz") (s.fivar.arr "brz"))] := by
      unfold fweight
      rw [s2, sw]
      rfl
    rw [swt, twt, ev, sc, hc', tv]
    congr 2
    rw [arr_brz, arr_brz, armWeight_maps, armWeight_maps]
    refine List.map_congr_left fun k hk => ?_
    by_cases hne : armsCell u lo k = []
    · have hz : ¬ 0 < sumWeight (armsCell u lo k) := by rw [hne]; simp [sumWeight]
      rw [if_neg hz, pixelWeight_masked, pixelWeight_masked]
    · rw [ecs k hne]
      rfl
  · rw [tc, sc, hc']
    rw [arr_brz, List.getElem?_map, List.getElem?_map, List.getElem?_range (by omega)]
    exact congrArg some (ecs k hne)

end spectra
end Verif.Proofs
