import Verif.Proofs.Select
import Verif.Props.Coadd
import Verif.Proofs.SpectrumInit

/-! Lemmas about the selection of spectra with `--coadd-arms before`. -/

namespace Verif.Proofs
open Verif.Np Verif.Model Verif.Spec Verif.Props List Spectrum

variable {K : Type} [Field K] [LinearOrder K]

/-! ### Pixels of cells -/

/-- Wavelength, flux and ivar of a pixel. -/
def triple (p : Pix K) : K × K × K := (p.wave, p.flux, p.ivar)

omit [Field K] [LinearOrder K] in
theorem pixelsOf_self (w f v : List K) (hf : f.length = w.length) (hv : v.length = w.length) :
    (pixelsOf w v f v).map triple = w.zip (f.zip v) ∧ ∀ p ∈ pixelsOf w v f v, p.weight = p.ivar := by
  unfold pixelsOf
  induction w generalizing f v with
  | nil => simp
  | cons a w ih =>
    cases f with
    | nil => simp at hf
    | cons b f =>
      cases v with
      | nil => simp at hv
      | cons c v =>
        obtain ⟨h1, h2⟩ := ih f v (by simpa using hf) (by simpa using hv)
        refine ⟨?_, ?_⟩
        · simp only [List.zip_cons_cons, List.zipWith_cons_cons, List.map_cons, h1]
          rfl
        · intro p hp
          simp only [List.zip_cons_cons, List.zipWith_cons_cons, List.mem_cons] at hp
          rcases hp with rfl | hp
          · rfl
          · exact h2 p hp

omit [Field K] in
theorem sum_good {M : Type} [AddCommMonoid M] [Zero K] {l : List (K × K × K)} (h0 : ∀ p ∈ l, 0 ≤ p.2.2)
    (f : K × K × K → M) (hf : ∀ p, p.2.2 = 0 → f p = 0) :
    (l.map f).sum = ((l.filter (fun p => decide (0 < p.2.2))).map f).sum := by
  induction l with
  | nil => rfl
  | cons p l ih =>
    rw [List.map_cons, List.sum_cons, List.filter_cons, ih (fun q hq => h0 q (by simp [hq]))]
    rcases (h0 p (by simp)).lt_or_eq with h | h
    · rw [if_pos (by simpa using h), List.map_cons, List.sum_cons]
    · rw [if_neg (by simp [← h]), hf p h.symm, zero_add]

theorem sum_pos_iff [IsStrictOrderedRing K] {l : List (K × K × K)} (h : ∀ p ∈ l, 0 < p.2.2) :
    0 < (l.map (fun p => p.2.2)).sum ↔ l.isEmpty = false := by
  cases l with
  | nil => simp
  | cons p l =>
    simp only [List.map_cons, List.sum_cons, List.isEmpty_cons, iff_true]
    have h1 := h p (by simp)
    have h2 : 0 ≤ (l.map (fun p => p.2.2)).sum := List.sum_nonneg fun x hx => by
      obtain ⟨q, hq, rfl⟩ := List.mem_map.mp hx
      exact (h q (by simp [hq])).le
    linarith

/-- Flux and ivar of a coadded pixel, when the weights are the ivar. -/
theorem coadd_cell [IsStrictOrderedRing K] [FloorRing K] {l : List (Pix K)} {m : List (K × K × K)} (h0 : ∀ p ∈ l, 0 ≤ p.ivar)
    (hw : ∀ p ∈ l, p.weight = p.ivar)
    (hm : (l.map triple).filter (fun p => decide (0 < p.2.2)) = m) :
    (0 < sumWeight l ↔ m.isEmpty = false) ∧
    (0 < sumWeight l → meanFlux l = (m.map (fun p => p.2.2 * p.2.1)).sum / (m.map (fun p => p.2.2)).sum ∧
      1 / meanVar l = (m.map (fun p => p.2.2)).sum) := by
  have hpos : ∀ p ∈ m, 0 < p.2.2 := by
    rw [← hm]
    intro p hp
    simpa using (List.mem_filter.mp hp).2
  have h0' : ∀ p ∈ l.map triple, 0 ≤ p.2.2 := by
    intro p hp
    obtain ⟨q, hq, rfl⟩ := List.mem_map.mp hp
    exact h0 q hq
  have e1 : sumWeight l = (m.map (fun p => p.2.2)).sum := by
    have := sum_good h0' (fun p => p.2.2) (fun p hp => hp)
    rw [hm, List.map_map] at this
    rw [← this]
    unfold sumWeight
    congr 1
    exact List.map_congr_left fun p hp => hw p hp
  have e2 : (l.map (fun p => p.weight * p.flux)).sum = (m.map (fun p => p.2.2 * p.2.1)).sum := by
    have := sum_good h0' (fun p => p.2.2 * p.2.1) (fun p hp => by rw [hp, zero_mul])
    rw [hm, List.map_map] at this
    rw [← this]
    congr 1
    refine List.map_congr_left fun p hp => ?_
    rw [hw p hp]
    rfl
  refine ⟨by rw [e1]; exact sum_pos_iff hpos, fun hs => ⟨?_, ?_⟩⟩
  · unfold meanFlux
    rw [e1, e2]
  · rw [C26_ivar_adds h0 hw hs, ← e1]
    unfold sumWeight
    congr 1
    exact (List.map_congr_left fun p hp => hw p hp).symm

variable [FloorRing K]

/-! ### The forest before coadding -/

omit [FloorRing K] in
/-- What `setForest` leaves unchanged. -/
theorem region_foldl_rest (l1 l2 : K) (l : List (String × List K)) (s : Spectrum K) :
    (l.foldl (fun s x => regionArm l1 l2 s x.1 x.2) s).smoothing = s.smoothing ∧
    (l.foldl (fun s x => regionArm l1 l2 s x.1 x.2) s).cont = s.cont := by
  induction l generalizing s with
  | nil => exact ⟨rfl, rfl⟩
  | cons x l ih =>
    rw [List.foldl_cons]
    obtain ⟨h1, h2⟩ := ih (regionArm l1 l2 s x.1 x.2)
    rw [h1, h2]
    unfold regionArm
    dsimp only
    split <;> exact ⟨rfl, rfl⟩

/-- The resolution of the forest. -/
theorem region_foldl_reso (l1 l2 : K) (l : Dict (List K)) (s : Spectrum K) (P : String → List (List K) → Prop)
    (h0 : ∀ r ∈ s.freso, r.1 ∈ s.fwave.keys ∧ P r.1 r.2) (hn : s.freso.keys.Nodup)
    (hP : ∀ x ∈ l, P x.1 ((s.reso.arr x.1).map (fun r => slice r (searchsorted x.2 l1) (searchsorted x.2 l2)))) :
    let t := l.foldl (fun s x => regionArm l1 l2 s x.1 x.2) s
    (∀ r ∈ t.freso, r.1 ∈ t.fwave.keys ∧ P r.1 r.2) ∧ t.freso.keys.Nodup := by
  induction l generalizing s with
  | nil => exact ⟨h0, hn⟩
  | cons x l ih =>
    have hd := regionArm_sameData l1 l2 s x.1 x.2
    rw [List.foldl_cons]
    refine ih (regionArm l1 l2 s x.1 x.2) ?_ ?_ ?_
    · unfold regionArm
      dsimp only
      split
      · exact h0
      · dsimp only
        split
        · intro r hr
          obtain ⟨a, b⟩ := h0 r hr
          exact ⟨(mem_keys_set _ _ _ _).mpr (.inr a), b⟩
        · intro r hr
          have hl := lookup_of_mem (nodup_keys_set hn _ _) (a := r.1) (v := r.2) hr
          rw [lookup_set] at hl
          by_cases he : r.1 = x.1
          · rw [if_pos he] at hl
            refine ⟨(mem_keys_set _ _ _ _).mpr (.inl he), ?_⟩
            rw [← Option.some_injective _ hl, he]
            exact hP x (by simp)
          · rw [if_neg he] at hl
            obtain ⟨a, b⟩ := h0 _ (mem_of_lookup hl)
            exact ⟨(mem_keys_set _ _ _ _).mpr (.inr a), b⟩
    · unfold regionArm
      dsimp only
      split
      · exact hn
      · dsimp only
        split
        · exact hn
        · exact nodup_keys_set hn _ _
    · rw [hd.reso]
      exact fun y hy => hP y (by simp [hy])

omit [FloorRing K] in
/-- The pixels of a cell of the grid. -/
theorem cell_triple {u : Spectrum K} (hA : Aligned u) (h1 : u.ivarSm = none) (h2 : u.weight = none) (lo dw : K) (k : Nat) :
    ((cell lo dw (u.fwave.map (fun x => u.forestPix x.1)) k).map triple).filter (fun p => decide (0 < p.2.2)) =
      (forestGood u).filter (fun p => decide (InCell lo dw k p.1)) ∧
    ∀ p ∈ (u.fwave.map (fun x => u.forestPix x.1)).flatten, p.weight = p.ivar := by
  have hw : u.fweight = u.fivar := by unfold fweight fivarSm; rw [h1, h2]; rfl
  have key : ∀ x ∈ u.fwave, (u.forestPix x.1).map triple = x.2.zip ((u.fflux.arr x.1).zip (u.fivar.arr x.1)) ∧
      ∀ p ∈ u.forestPix x.1, p.weight = p.ivar := by
    intro x hx
    have hl := lookup_of_mem hA.nodup hx
    unfold forestPix
    rw [hw, arr_of_lookup hl]
    exact pixelsOf_self _ _ _ (hA.flux _ _ hl) (hA.ivar _ _ hl)
  constructor
  · unfold cell forestGood allPixels
    have e : u.fwave.flatMap (fun a => a.2.zip ((u.fflux.arr a.1).zip (u.fivar.arr a.1))) =
        ((u.fwave.map (fun x => u.forestPix x.1)).flatten).map triple := by
      rw [← List.flatMap_def, List.map_flatMap]
      exact List.flatMap_congr fun x hx => (key x hx).1.symm
    rw [e, List.filter_filter, List.filter_map, List.filter_map, List.filter_filter]
    congr 1
    refine List.filter_congr fun p _ => ?_
    rw [Bool.and_comm]
    rfl
  · intro p hp
    obtain ⟨l, hl, hpl⟩ := List.mem_flatten.mp hp
    obtain ⟨x, hx, rfl⟩ := List.mem_map.mp hl
    exact (key x hx).2 p hpl

omit [FloorRing K] in
theorem filterMap_of_map {f : Nat → K × K × K} {g : Nat → Option (K × K × K)} {l : List Nat}
    (h : ∀ k ∈ l, (if 0 < (f k).2.2 then some (f k) else none) = g k) :
    (l.map f).filter (fun p => decide (0 < p.2.2)) = l.filterMap g := by
  induction l with
  | nil => rfl
  | cons k l ih =>
    have h1 := h k (by simp)
    rw [List.map_cons, List.filter_cons, List.filterMap_cons, ih (fun j hj => h j (by simp [hj]))]
    by_cases h2 : 0 < (f k).2.2
    · rw [if_pos h2] at h1
      rw [if_pos (by simpa using h2), ← h1]
    · rw [if_neg h2] at h1
      rw [if_neg (by simpa using h2), ← h1]

omit [Field K] [LinearOrder K] [FloorRing K] in
theorem zip_maps {α : Type} (l : List α) (a b c : α → K) :
    (l.map a).zip ((l.map b).zip (l.map c)) = l.map (fun k => (a k, b k, c k)) := by
  induction l with
  | nil => rfl
  | cons x l ih => simp [ih]

omit [FloorRing K] in
theorem snr_zip (sqrt : K → K) {w f v : List K} (hf : f.length = w.length) (hv : v.length = w.length) :
    ((w.zip (f.zip v)).filter (fun p => decide (0 < p.2.2))).map (fun p => sqrt p.2.2 * p.2.1) =
      ((f.zip v).filter (fun p => decide (0 < p.2))).map (fun p => sqrt p.2 * p.1) := by
  have h : f.zip v = (w.zip (f.zip v)).map Prod.snd := by
    rw [List.map_snd_zip]
    simp [hf, hv]
  conv_rhs => rw [h]
  rw [List.filter_map, List.map_map]
  rfl

omit [FloorRing K] in
theorem smooth_weight_none (smooth : List K → K → List K) {size : K} (hs : size ≤ 0) (varlss eta : K → K)
    {u : Spectrum K} (hc : u.cont = []) :
    (u.setSmoothForestivar smooth size).setForestWeight varlss eta =
      { u with smoothing := 0, ivarSm := none, weight := none } := by
  have h1 : u.setSmoothForestivar smooth size = { u with smoothing := 0, ivarSm := none, weight := none } := if_pos hs
  rw [h1]
  exact if_pos (Or.inr hc)

/-- `coadd_arms_forest`, taken apart. -/
theorem coaddArmsForest_inv {sqrt : K → K} {smooth : List K → K → List K} {junk : Nat → K} {nan eps : K}
    {s t : Spectrum K} {varlss eta : K → K} (hs : s.smoothing ≤ 0) (hc : s.cont = [])
    (h : s.coaddArmsForest sqrt smooth junk nan eps varlss eta = .ok t) :
    ∃ f v, t.fflux = [("brz", f)] ∧ t.fivar = [("brz", v)] ∧ t.meanSnr = [("brz", coaddSnr sqrt nan f v)] ∧
      t.ivarSm = none ∧ t.weight = none ∧ t.z = s.z ∧ t.dwave = s.dwave := by
  unfold coaddArmsForest at h
  obtain ⟨g, hg, h⟩ := except_bind_eq_ok.mp h
  obtain ⟨fi, hfi, h⟩ := except_bind_eq_ok.mp h
  obtain ⟨c, hcc, h⟩ := except_bind_eq_ok.mp h
  obtain ⟨r, hr, h⟩ := except_bind_eq_ok.mp h
  have hc' : c = [] := by
    unfold newCont at hcc
    rw [if_pos hc] at hcc
    cases hcc
    rfl
  subst hc'
  rw [except_pure] at h
  cases h
  refine ⟨fi.1, fi.2, ?_⟩
  rw [smooth_weight_none _ hs _ _ (u := s.replaceForest (linspace g.1 g.2.1 g.2.2) fi.1 fi.2 [] r) rfl]
  exact ⟨rfl, rfl, rfl, rfl, rfl, rfl, rfl⟩

/-- Coadding a forest without smoothing and continuum. -/
theorem coadd_forest [IsStrictOrderedRing K] {u : Spectrum K} (hu : ForestOk u) (hA : Aligned u)
    (hsm : u.ivarSm = none) (hwt : u.weight = none) (hs : u.smoothing ≤ 0) (hc : u.cont = [])
    {lo hi : K} (hlo : IsLeast (allWaves u.fwave) lo)
    (hhi : IsGreatest (allWaves u.fwave) hi) {n : Nat} (hn : InCell lo u.dwave n hi)
    (h1 : OnePerCell lo u.dwave (u.fwave.map (fun x => u.forestPix x.1))) (hg : forestGood u ≠ [])
    (sqrt : K → K) (h0 : ∀ v, v ≤ 0 → sqrt v = 0) (smooth : List K → K → List K) (junk : Nat → K) (nan eps : K)
    (varlss eta : K → K) :
    let G := (List.range (n + 1)).filterMap (fun k : Nat =>
      let l := (forestGood u).filter (fun p => decide (InCell lo u.dwave k p.1))
      if l.isEmpty then none
      else some (lo + (k : K) * ((hi - lo) / (n : K)),
        (l.map (fun p => p.2.2 * p.2.1)).sum / (l.map (fun p => p.2.2)).sum, (l.map (fun p => p.2.2)).sum))
    ∃ t, u.coaddArmsForest sqrt smooth junk nan eps varlss eta = .ok t ∧ Aligned t ∧ t.z = u.z ∧ t.dwave = u.dwave ∧
      forestGood t = G ∧ G ≠ [] ∧
      t.meanSnr.map Prod.snd = [(G.map (fun p => sqrt p.2.2 * p.2.1)).sum / (G.length : K)] ∧
      (∀ a ∈ t.fwave, ∀ w ∈ a.2, lo ≤ w ∧ w ≤ hi) ∧
      t.fwave = [("brz", (List.range (n + 1)).map (fun k : Nat => lo + (k : K) * ((hi - lo) / (n : K))))] := by
  intro G
  obtain ⟨t, ht, tw, tf, tv, -, -, tr0, tr1⟩ := C26_coadd_arms hu hlo hhi hn h1 sqrt smooth junk nan eps varlss eta
  obtain ⟨f, v, ef, ev, hm, hsm', hwt', hz, hd⟩ := coaddArmsForest_inv hs hc ht
  have hab : lo ≤ hi := hlo.2 hhi.1
  -- the cells
  have hcell : ∀ k, (0 < sumWeight (cell lo u.dwave (u.fwave.map (fun x => u.forestPix x.1)) k) ↔
      ((forestGood u).filter (fun p => decide (InCell lo u.dwave k p.1))).isEmpty = false) ∧
      (0 < sumWeight (cell lo u.dwave (u.fwave.map (fun x => u.forestPix x.1)) k) →
        meanFlux (cell lo u.dwave (u.fwave.map (fun x => u.forestPix x.1)) k) =
          (((forestGood u).filter (fun p => decide (InCell lo u.dwave k p.1))).map (fun p => p.2.2 * p.2.1)).sum /
          (((forestGood u).filter (fun p => decide (InCell lo u.dwave k p.1))).map (fun p => p.2.2)).sum ∧
        1 / meanVar (cell lo u.dwave (u.fwave.map (fun x => u.forestPix x.1)) k) =
          (((forestGood u).filter (fun p => decide (InCell lo u.dwave k p.1))).map (fun p => p.2.2)).sum) := by
    intro k
    obtain ⟨e1, e2⟩ := cell_triple hA hsm hwt lo u.dwave k
    refine coadd_cell ?_ (fun p hp => e2 p (List.mem_filter.mp hp).1) e1
    intro p hp
    rw [← e2 p (List.mem_filter.mp hp).1]
    obtain ⟨l, hl, hpl⟩ := List.mem_flatten.mp (List.mem_filter.mp hp).1
    obtain ⟨x, hx, rfl⟩ := List.mem_map.mp hl
    exact (hu.nonneg x hx p hpl).1
  have hpos : ∀ k, ((forestGood u).filter (fun p => decide (InCell lo u.dwave k p.1))).isEmpty = false →
      0 < (((forestGood u).filter (fun p => decide (InCell lo u.dwave k p.1))).map (fun p => p.2.2)).sum := by
    intro k hk
    refine (sum_pos_iff ?_).mpr hk
    intro p hp
    simpa using (List.mem_filter.mp (List.mem_filter.mp hp).1).2
  have hG : forestGood t = G := by
    unfold forestGood allPixels
    rw [tw, tf, tv]
    simp only [List.flatMap_cons, List.flatMap_nil, List.append_nil, Dict.arr, List.lookup_cons, beq_self_eq_true,
      Option.getD_some]
    rw [zip_maps]
    refine filterMap_of_map fun k _ => ?_
    obtain ⟨c1, c2⟩ := hcell k
    dsimp only
    by_cases hk : 0 < sumWeight (cell lo u.dwave (u.fwave.map (fun x => u.forestPix x.1)) k)
    · have hk' := c1.mp hk
      rw [if_pos hk, if_pos hk, (c2 hk).1, (c2 hk).2, if_pos (hpos k hk'), hk']
      rfl
    · have hk' : ((forestGood u).filter (fun p => decide (InCell lo u.dwave k p.1))).isEmpty = true := by
        by_contra hne
        exact hk (c1.mpr (by simpa using hne))
      rw [if_neg hk, if_neg hk, if_neg (lt_irrefl _), hk']
      rfl
  have hne : G ≠ [] := by
    obtain ⟨p, hp⟩ := List.exists_mem_of_ne_nil _ hg
    obtain ⟨x, hx, hpx⟩ := List.mem_flatMap.mp (List.mem_filter.mp hp).1
    have hw : p.1 ∈ x.2 := (List.of_mem_zip (a := p.1) (b := p.2) hpx).1
    have hlw := hlo.2 ⟨x, hx, hw⟩
    have hwh := hhi.2 ⟨x, hx, hw⟩
    set k := cellIdx lo u.dwave p.1 with hk
    have hin : InCell lo u.dwave k p.1 := (cellIdx_eq_iff hu.dwave hlw k).mp hk.symm
    have hkn : k ≤ n := by
      by_contra hlt
      have h2 : ((n : K) + 1) ≤ (k : K) := by exact_mod_cast Nat.lt_of_not_le hlt
      have h3 := hin.1
      have h4 := hn.2
      have h5 : ((n : K) + 9 / 10) * u.dwave ≤ ((k : K) - 1 / 10) * u.dwave :=
        mul_le_mul_of_nonneg_right (by linarith) hu.dwave.le
      linarith
    intro hnil
    have := List.filterMap_eq_nil_iff.mp hnil k (by simpa [Nat.lt_succ_iff] using hkn)
    dsimp only at this
    rw [if_neg] at this
    · cases this
    · have : p ∈ (forestGood u).filter (fun p => decide (InCell lo u.dwave k p.1)) :=
        List.mem_filter.mpr ⟨hp, by simpa using hin⟩
      intro he
      rw [List.isEmpty_iff] at he
      rw [he] at this
      simp at this
  have hgrid : ∀ k : Nat, k ≤ n → lo ≤ lo + (k : K) * ((hi - lo) / (n : K)) ∧ lo + (k : K) * ((hi - lo) / (n : K)) ≤ hi := by
    intro k hk
    have h2 : 0 ≤ hi - lo := sub_nonneg.mpr hab
    rcases Nat.eq_zero_or_pos n with rfl | hnp
    · have : k = 0 := by omega
      subst this
      simpa using hab
    · have h3 : (0 : K) < (n : K) := by exact_mod_cast hnp
      have h4 : (k : K) ≤ (n : K) := by exact_mod_cast hk
      have h5 : (k : K) * ((hi - lo) / (n : K)) ≤ (n : K) * ((hi - lo) / (n : K)) :=
        mul_le_mul_of_nonneg_right h4 (by positivity)
      rw [mul_div_cancel₀ _ h3.ne'] at h5
      refine ⟨?_, by linarith⟩
      have : 0 ≤ (k : K) * ((hi - lo) / (n : K)) := by positivity
      linarith
  have hAt : Aligned t := by
    have hsm2 : t.fivarSm = t.fivar := by unfold fivarSm; rw [hsm']; rfl
    have hwt2 : t.fweight = t.fivar := by unfold fweight; rw [hwt', hsm2]; rfl
    have hfr : ∀ r ∈ t.freso, r.1 = "brz" ∧ ∀ row ∈ r.2, row.length = n + 1 := by
      intro r hr
      by_cases he : u.freso = []
      · rw [tr0 he] at hr
        simp at hr
      · obtain ⟨m, -, -, hm⟩ := tr1 he
        rw [hm, List.mem_singleton] at hr
        subst hr
        refine ⟨rfl, fun row hrow => ?_⟩
        obtain ⟨j, -, rfl⟩ := List.mem_map.mp hrow
        simp
    have hlk : ∀ arm w, t.fwave.lookup arm = some w → arm = "brz" ∧
        w = (List.range (n + 1)).map (fun k : Nat => lo + (k : K) * ((hi - lo) / (n : K))) := by
      intro arm w h
      rw [tw] at h
      have := mem_of_lookup h
      rw [List.mem_singleton, Prod.mk.injEq] at this
      exact this
    refine ⟨by rw [tw]; simp [Dict.keys], by rw [tw, tf]; rfl, by rw [tw, tv]; rfl, by rw [hsm2, tw, tv]; rfl,
      by rw [hwt2, tw, tv]; rfl, ?_, ?_, ?_, ?_, ?_, ?_, ?_⟩
    · intro arm h
      obtain ⟨r, hr, rfl⟩ := List.mem_map.mp h
      rw [tw, (hfr r hr).1]
      simp [Dict.keys]
    · intro arm w h
      rw [(hlk arm w h).2, List.pairwise_map]
      refine (List.pairwise_lt_range (n := n + 1)).imp_of_mem fun {i j} hi' hj' hij => ?_
      have hnp : 0 < n := by
        have := List.mem_range.mp hj'
        omega
      have h3 : (0 : K) < (n : K) := by exact_mod_cast hnp
      have h4 : (1 : K) ≤ (n : K) := by exact_mod_cast hnp
      have h5 := hn.1
      have h6 : 0 < hi - lo := by
        have : 0 < ((n : K) - 1 / 10) * u.dwave := mul_pos (by linarith) hu.dwave
        linarith
      have h7 : (i : K) < (j : K) := by exact_mod_cast hij
      have h8 : 0 < (hi - lo) / (n : K) := by positivity
      have := mul_lt_mul_of_pos_right h7 h8
      linarith
    · intro arm w h
      obtain ⟨rfl, rfl⟩ := hlk arm w h
      rw [tf]; simp [Dict.arr]
    · intro arm w h
      obtain ⟨rfl, rfl⟩ := hlk arm w h
      rw [tv]; simp [Dict.arr]
    · intro arm w h
      obtain ⟨rfl, rfl⟩ := hlk arm w h
      rw [hsm2, tv]; simp [Dict.arr]
    · intro arm w h
      obtain ⟨rfl, rfl⟩ := hlk arm w h
      rw [hwt2, tv]; simp [Dict.arr]
    · intro arm w h r hr
      obtain ⟨rfl, rfl⟩ := hlk arm w h
      unfold Dict.arr at hr
      cases he : List.lookup "brz" t.freso with
      | none => rw [he] at hr; simp at hr
      | some rows =>
        rw [he] at hr
        rw [(hfr _ (mem_of_lookup he)).2 r hr]
        simp
  refine ⟨t, ht, hAt, hz, hd, hG, hne, ?_, ?_, tw⟩
  · have hfl : f.length = ((List.range (n + 1)).map (fun k : Nat => lo + (k : K) * ((hi - lo) / (n : K)))).length := by
      rw [tf] at ef
      cases ef
      simp
    have hvl : v.length = ((List.range (n + 1)).map (fun k : Nat => lo + (k : K) * ((hi - lo) / (n : K)))).length := by
      rw [tv] at ev
      cases ev
      simp
    have hlen : (forestGood t).length = numGood v := by
      unfold forestGood allPixels
      rw [tw, ef, ev]
      simp only [List.flatMap_cons, List.flatMap_nil, List.append_nil, Dict.arr, List.lookup_cons, beq_self_eq_true,
        Option.getD_some]
      exact length_good_zip hfl hvl
    have hne' : numGood v ≠ 0 := by
      rw [← hlen, hG]
      simpa using hne
    rw [hm]
    unfold coaddSnr
    rw [if_neg hne', dot_filter sqrt h0, ← snr_zip sqrt hfl hvl, ← hG, hlen]
    unfold forestGood allPixels
    rw [tw, ef, ev]
    simp only [List.flatMap_cons, List.flatMap_nil, List.append_nil, Dict.arr, List.lookup_cons, beq_self_eq_true,
      Option.getD_some, List.map_cons, List.map_nil]
  · intro a ha w hw
    rw [tw, List.mem_singleton] at ha
    subst ha
    obtain ⟨k, hk, rfl⟩ := List.mem_map.mp hw
    exact hgrid k (by simpa [Nat.lt_succ_iff] using hk)

/-- The forest that was read, coadded. -/
theorem coadd_same [IsStrictOrderedRing K] (C : SelectCfg K) {x : ReadSpec K} (hx : ReadOk x)
    (hc : CoaddReady C x.spec) (h0 : ∀ v, v ≤ 0 → C.sqrt v = 0) (hg : readGood C x.spec ≠ []) :
    ∃ t, (C.setForest x).spec.coaddArmsForest C.sqrt C.smooth C.junk C.nan C.eps8 (fun _ => 0) (fun _ => 1) = .ok t ∧
      Aligned t ∧ t.z = x.spec.z ∧ t.dwave = x.spec.dwave ∧ forestGood t = coaddedGood C x.spec ∧
      coaddedGood C x.spec ≠ [] ∧
      t.meanSnr.map Prod.snd =
        [((coaddedGood C x.spec).map (fun p => C.sqrt p.2.2 * p.2.1)).sum / ((coaddedGood C x.spec).length : K)] ∧
      (∀ a ∈ t.fwave, ∀ w ∈ a.2, InForest x.spec.z C.wave1 C.wave2 C.forestW1 C.forestW2 w) ∧
      t.fwave = [("brz", (List.range (gridLast C x.spec + 1)).map (fun k : Nat =>
        gridLo C x.spec + (k : K) * ((gridHi C x.spec - gridLo C x.spec) / (gridLast C x.spec : K))))] := by
  obtain ⟨hA, hz, hd, -, hfg, -⟩ := setForest_same C hx h0
  obtain ⟨-, hfw, hval⟩ := region_blank hx.data hx.fresh C.sqrt C.eps C.wave1 C.wave2 C.forestW1 C.forestW2
  obtain ⟨hsm, hct⟩ := region_foldl_rest (max C.wave1 ((1 + x.spec.z) * C.forestW1))
    (min C.wave2 ((1 + x.spec.z) * C.forestW2)) x.spec.wave x.spec
  obtain ⟨hre, hrn⟩ := region_foldl_reso (max C.wave1 ((1 + x.spec.z) * C.forestW1))
    (min C.wave2 ((1 + x.spec.z) * C.forestW2)) x.spec.wave x.spec
    (fun arm rows => arm ∈ x.spec.wave.keys ∧ rows.length = (x.spec.reso.arr arm).length)
    (by rw [hx.fresh.freso]; simp) (by rw [hx.fresh.freso]; simp [Dict.keys])
    (fun y hy => ⟨List.mem_map.mpr ⟨y, hy, rfl⟩, by simp⟩)
  -- the spectrum before coadding
  have efw : (C.setForest x).spec.fwave = (x.spec.setForestRegion C.sqrt C.eps C.wave1 C.wave2 C.forestW1 C.forestW2).fwave := rfl
  have eff : (C.setForest x).spec.fflux = (x.spec.setForestRegion C.sqrt C.eps C.wave1 C.wave2 C.forestW1 C.forestW2).fflux := rfl
  have efv : (C.setForest x).spec.fivar = (x.spec.setForestRegion C.sqrt C.eps C.wave1 C.wave2 C.forestW1 C.forestW2).fivar := rfl
  have e1 : (C.setForest x).spec.ivarSm = none := rfl
  have e2 : (C.setForest x).spec.weight = none := rfl
  have e3 : (C.setForest x).spec.smoothing ≤ 0 := by
    refine le_of_eq_of_le ?_ hc.smoothing
    exact hsm
  have e4 : (C.setForest x).spec.cont = [] := by
    refine Eq.trans ?_ hc.cont
    exact hct
  have hre' : ∀ r ∈ (C.setForest x).spec.freso, r.1 ∈ (C.setForest x).spec.fwave.keys ∧
      r.1 ∈ x.spec.wave.keys ∧ r.2.length = (x.spec.reso.arr r.1).length := hre
  have hrn' : (C.setForest x).spec.freso.keys.Nodup := hrn
  rw [← efw] at hfw
  rw [← efw, ← eff, ← efv] at hval
  generalize (C.setForest x).spec = u at *
  -- wavelengths
  have hwaves : allWaves u.fwave = {w | w ∈ forestWaves C x.spec} := by
    ext w
    unfold allWaves forestWaves
    rw [hfw]
    simp only [Set.mem_ofPred_eq, List.mem_flatMap]
    constructor
    · rintro ⟨y, hy, hw⟩
      obtain ⟨a, ha, rfl⟩ := List.mem_map.mp hy
      exact ⟨a, ha, by simpa only [pixelsWhere_self] using hw⟩
    · rintro ⟨a, ha, hw⟩
      exact ⟨_, List.mem_map.mpr ⟨a, ha, rfl⟩, by simpa only [pixelsWhere_self] using hw⟩
  have hmem : ∀ w ∈ forestWaves C x.spec, InForest x.spec.z C.wave1 C.wave2 C.forestW1 C.forestW2 w := by
    intro w hw
    obtain ⟨a, -, hwa⟩ := List.mem_flatMap.mp hw
    simpa using (List.mem_filter.mp hwa).2
  have hne : forestWaves C x.spec ≠ [] := by
    rw [← hfg] at hg
    obtain ⟨p, hp⟩ := List.exists_mem_of_ne_nil _ hg
    obtain ⟨y, hy, hpy⟩ := List.mem_flatMap.mp (List.mem_filter.mp hp).1
    have hw : p.1 ∈ allWaves u.fwave := ⟨y, hy, (List.of_mem_zip (a := p.1) (b := p.2) hpy).1⟩
    rw [hwaves] at hw
    exact List.ne_nil_of_mem hw
  have hlo : IsLeast (allWaves u.fwave) (gridLo C x.spec) := by
    rw [hwaves]
    obtain ⟨m, hm⟩ := Option.isSome_iff_exists.mp (List.isSome_min?_of_ne_nil hne)
    have := List.min?_eq_some_iff.mp hm
    unfold gridLo
    rw [hm]
    exact ⟨this.1, fun w hw => this.2 w hw⟩
  have hhi : IsGreatest (allWaves u.fwave) (gridHi C x.spec) := by
    rw [hwaves]
    obtain ⟨m, hm⟩ := Option.isSome_iff_exists.mp (List.isSome_max?_of_ne_nil hne)
    have := List.max?_eq_some_iff.mp hm
    unfold gridHi
    rw [hm]
    exact ⟨this.1, fun w hw => this.2 w hw⟩
  have hdw : 0 < u.dwave := by rw [hd]; exact hc.dwave
  have hn : InCell (gridLo C x.spec) u.dwave (gridLast C x.spec) (gridHi C x.spec) := by
    rw [hd]
    have hab := hlo.2 hhi.1
    have h2 : 0 ≤ (gridHi C x.spec - gridLo C x.spec) / x.spec.dwave + 1 / 10 :=
      add_nonneg (div_nonneg (sub_nonneg.mpr hab) hc.dwave.le) (by norm_num)
    have h3 := Nat.floor_le h2
    have h4 := Nat.lt_floor_add_one ((gridHi C x.spec - gridLo C x.spec) / x.spec.dwave + 1 / 10)
    change ((gridLast C x.spec : Nat) : K) ≤ _ at h3
    change _ < ((gridLast C x.spec : Nat) : K) + 1 at h4
    have h5 : (gridHi C x.spec - gridLo C x.spec) / x.spec.dwave * x.spec.dwave = gridHi C x.spec - gridLo C x.spec :=
      div_mul_cancel₀ _ hc.dwave.ne'
    constructor
    · have := mul_le_mul_of_nonneg_right (show ((gridLast C x.spec : Nat) : K) - 1 / 10 ≤
        (gridHi C x.spec - gridLo C x.spec) / x.spec.dwave by linarith) hc.dwave.le
      linarith
    · have := mul_lt_mul_of_pos_right (show (gridHi C x.spec - gridLo C x.spec) / x.spec.dwave <
        ((gridLast C x.spec : Nat) : K) + 9 / 10 by linarith) hc.dwave
      linarith
  have hfwt : u.fweight = u.fivar := by unfold fweight fivarSm; rw [e1, e2]; rfl
  have hok : ForestOk u := by
    refine ⟨hdw, hA.nodup, ?_, fun y hy => hA.flux _ _ (lookup_of_mem hA.nodup hy),
      fun y hy => hA.ivar _ _ (lookup_of_mem hA.nodup hy),
      fun y hy => hA.weight _ _ (lookup_of_mem hA.nodup hy), ?_, ?_, ?_⟩
    · intro y hy
      refine ⟨?_, hA.sorted _ _ (lookup_of_mem hA.nodup hy)⟩
      have hl := hA.ivar _ _ (lookup_of_mem hA.nodup hy)
      rw [hfw] at hy
      obtain ⟨a, ha, rfl⟩ := List.mem_map.mp hy
      have hgd : HasGood (u.fivar.arr a.1) := by
        rw [(hval a ha).2.2]
        simpa [armGood] using (List.mem_filter.mp ha).2
      obtain ⟨v, hv, -⟩ := hgd
      intro hnil
      dsimp only at hl hnil
      rw [hnil, List.length_nil, List.length_eq_zero_iff] at hl
      rw [hl] at hv
      simp at hv
    · intro y hy p hp
      have hl := lookup_of_mem hA.nodup hy
      have h2 := (pixelsOf_self _ _ _ (hA.flux _ _ hl) (hA.ivar _ _ hl)).2
      have h1 := (pixelsOf_self _ _ _ (hA.flux _ _ hl) (hA.ivar _ _ hl)).1
      unfold forestPix at hp
      rw [hfwt, arr_of_lookup hl] at hp
      have h3 : 0 ≤ p.ivar := by
        have h4 : triple p ∈ y.2.zip ((u.fflux.arr y.1).zip (u.fivar.arr y.1)) := by
          rw [← h1]; exact List.mem_map.mpr ⟨p, hp, rfl⟩
        have h5 : p.ivar ∈ u.fivar.arr y.1 := (List.of_mem_zip (List.of_mem_zip h4).2).2
        rw [hfw] at hy
        obtain ⟨a, ha, rfl⟩ := List.mem_map.mp hy
        dsimp only at h5
        rw [(hval a ha).2.2] at h5
        unfold pixelsWhere at h5
        obtain ⟨q, hq, e⟩ := List.mem_map.mp h5
        rw [← e]
        exact hc.ivar a (List.mem_filter.mp ha).1 _ (List.of_mem_zip (List.mem_filter.mp hq).1).2
      rw [h2 p hp]
      exact ⟨h3, id⟩
    · intro r hr
      obtain ⟨h1, h2, h3⟩ := hre' r hr
      obtain ⟨y, hy, e⟩ := List.mem_map.mp h1
      refine ⟨y.2, by rw [← e]; exact hy, ?_⟩
      have := hA.reso _ _ (lookup_of_mem hA.nodup hy)
      rw [e, arr_of_lookup (lookup_of_mem hrn' (a := r.1) (v := r.2) hr)] at this
      exact this
    · intro r hr r' hr'
      obtain ⟨-, h2, h3⟩ := hre' r hr
      obtain ⟨-, h2', h3'⟩ := hre' r' hr'
      obtain ⟨y, hy, e⟩ := List.mem_map.mp h2
      obtain ⟨y', hy', e'⟩ := List.mem_map.mp h2'
      rw [h3, h3', ← e, ← e']
      exact hc.parity y hy y' hy'
  have hone : OnePerCell (gridLo C x.spec) u.dwave (u.fwave.map (fun x => u.forestPix x.1)) := by
    intro l hl
    obtain ⟨y, hy, rfl⟩ := List.mem_map.mp hl
    have h1 := forestPix_wave hok hy
    have h2 : (y.2).Pairwise (fun v w => ∀ k, InCell (gridLo C x.spec) u.dwave k v →
        ¬ InCell (gridLo C x.spec) u.dwave k w) := by
      rw [hfw] at hy
      obtain ⟨a, ha, rfl⟩ := List.mem_map.mp hy
      dsimp only
      rw [pixelsWhere_self, hd]
      exact hc.cells a (List.mem_filter.mp ha).1
    rw [← h1, List.pairwise_map] at h2
    exact h2
  obtain ⟨t, t1, t2, t3, t4, t5, t6, t7, t8, t9⟩ := coadd_forest hok hA e1 e2 e3 e4 hlo hhi hn hone (by rw [hfg]; exact hg)
    C.sqrt h0 C.smooth C.junk C.nan C.eps8 (fun _ => 0) (fun _ => 1)
  rw [hd] at t4
  rw [hz] at t3
  rw [hfg, hd] at t5 t6 t7
  refine ⟨t, t1, t2, t3, t4, t5, t6, t7, fun a ha w hw => ?_, t9⟩
  obtain ⟨b1, b2⟩ := t8 a ha w hw
  have i1 := hmem _ (by have := hlo.1; rwa [hwaves] at this)
  have i2 := hmem _ (by have := hhi.1; rwa [hwaves] at this)
  exact ⟨i1.1.trans b1, i1.2.1.trans b1, b2.trans_lt i2.2.2.1, b2.trans_lt i2.2.2.2⟩

/-! ### One spectrum, with or without coadding -/

/-- What is read of a spectrum: its forest, coadded with `--coadd-arms before`. -/
def prepRead (C : SelectCfg K) (x : ReadSpec K) : ReadSpec K :=
  if C.coaddBefore then
    { x with spec := ((C.setForest x).spec.coaddArmsForest C.sqrt C.smooth C.junk C.nan C.eps8 (fun _ => 0)
      (fun _ => 1)).toOption.getD (C.setForest x).spec }
  else C.setForest x

theorem prepRead_row (C : SelectCfg K) (x : ReadSpec K) : (prepRead C x).row = x.row ∧ (prepRead C x).rsnr = x.rsnr := by
  unfold prepRead
  split <;> exact ⟨rfl, rfl⟩

theorem prep_same [IsStrictOrderedRing K] (C : SelectCfg K) {x : ReadSpec K} (hx : ReadOk x)
    (hc : C.coaddBefore = true → CoaddReady C x.spec) (h0 : ∀ v, v ≤ 0 → C.sqrt v = 0) (hg : readGood C x.spec ≠ []) :
    (C.coaddBefore = true → C.coadd (C.setForest x) = .ok (prepRead C x)) ∧
    Aligned (prepRead C x).spec ∧ (prepRead C x).spec.z = x.spec.z ∧ (prepRead C x).spec.dwave = x.spec.dwave ∧
    (prepRead C x).spec.meanSnr.map Prod.snd = inputSnrs C x.spec ∧
    forestGood (prepRead C x).spec = inputGood C x.spec ∧
    (∀ a ∈ (prepRead C x).spec.fwave, ∀ w ∈ a.2, InForest x.spec.z C.wave1 C.wave2 C.forestW1 C.forestW2 w) ∧
    ∀ a ∈ (prepRead C x).spec.fwave, ForestArm C x.spec a := by
  by_cases hb : C.coaddBefore = true
  · obtain ⟨t, t1, t2, t3, t4, t5, t6, t7, t8, t9⟩ := coadd_same C hx (hc hb) h0 hg
    have e : prepRead C x = { x with spec := t } := by
      unfold prepRead
      rw [if_pos hb, t1]
      rfl
    have e1 : inputSnrs C x.spec = _ := if_pos hb
    have e2 : inputGood C x.spec = _ := if_pos hb
    rw [e, e1, e2]
    refine ⟨fun _ => ?_, t2, t3, t4, t7, t5, t8, fun a ha => ?_⟩
    swap
    · unfold ForestArm
      rw [if_pos hb]
      change a ∈ t.fwave at ha
      rw [t9, List.mem_singleton] at ha
      exact ha
    unfold SelectCfg.coadd
    rw [t1]
    rfl
  · have e : prepRead C x = C.setForest x := if_neg hb
    have e1 : inputSnrs C x.spec = armSnrs C x.spec := if_neg hb
    have e2 : inputGood C x.spec = readGood C x.spec := if_neg hb
    obtain ⟨a1, a2, a3, a4, a5, -⟩ := setForest_same C hx h0
    rw [e, e1, e2]
    have h1 := (region_blank hx.data hx.fresh C.sqrt C.eps C.wave1 C.wave2 C.forestW1 C.forestW2).2.1
    refine ⟨fun h => absurd h hb, a1, a2, a3, a4, a5, fun a ha w hw => ?_, fun a ha => ?_⟩
    all_goals
      change a ∈ (x.spec.setForestRegion C.sqrt C.eps C.wave1 C.wave2 C.forestW1 C.forestW2).fwave at ha
      rw [h1] at ha
      obtain ⟨b, hbm, rfl⟩ := List.mem_map.mp ha
    swap
    · unfold ForestArm
      rw [if_neg hb]
      exact ⟨b.2, lookup_of_mem hx.data.nodup (List.mem_filter.mp hbm).1, pixelsWhere_self _ _⟩
    dsimp only at hw
    rw [pixelsWhere_self] at hw
    simpa using (List.mem_filter.mp hw).2

theorem treat_same [IsStrictOrderedRing K] (C : SelectCfg K) {x : ReadSpec K} (hx : ReadOk x)
    (hc : C.coaddBefore = true → CoaddReady C x.spec) {ids : List Int}
    (hid : x.row.targetid ∈ ids) (h0 : ∀ v, v ≤ 0 → C.sqrt v = 0)
    (heta : ∀ eta, C.eta = some eta → ∀ w, 0 < eta w) (hst : ∀ st, C.stack = some st → ∀ w, st w ≠ 0)
    (hg : readGood C x.spec ≠ []) :
    let t := (treatOne C ids (prepRead C x)).spec
    t.z = x.spec.z ∧ t.dwave = x.spec.dwave ∧ t.meanSnr.map Prod.snd = inputSnrs C x.spec ∧
    t.realSize = (forestGood t).length ∧
    forestGood t = ((inputGood C x.spec).filter (fun p => decide (¬ IsMasked C x p.1))).map (treated C x) := by
  obtain ⟨-, a1, a2, a3, a4, a5, -⟩ := prep_same C hx hc h0 hg
  have hrow := (prepRead_row C x).1
  obtain ⟨b1, b2, b3, b4, -, b5⟩ := etaOne_same C heta a1
  obtain ⟨c1, c2, c3, c4, -, c5⟩ := fluxOne_same C hst b1
  have hz : (fluxOne C (etaOne C (prepRead C x).spec)).z = x.spec.z := by rw [c2, b2, a2]
  have hz0 : 0 < 1 + (fluxOne C (etaOne C (prepRead C x).spec)).z := by rw [hz]; exact hx.zpos
  obtain ⟨d1, d2, d3⟩ := masks_same C.dlaFlux x.row (C.maskers ids) c1 hz0
  have hg := forestGood_masks C x hid c1 hz0 hz
  have hA : Aligned (applyMasks C.dlaFlux x.row (C.maskers ids) (fluxOne C (etaOne C (prepRead C x).spec))) :=
    masks_aligned C.dlaFlux x.row _ c1 hz0
  intro t
  have ht : t = applyMasks C.dlaFlux x.row (C.maskers ids) (fluxOne C (etaOne C (prepRead C x).spec)) := by
    rw [← hrow]
    rfl
  rw [ht]
  refine ⟨by rw [d2, hz], by rw [d3, c3, b3, a3], by rw [d1, c4, b4, a4], realSize_eq hA, ?_⟩
  rw [hg, c5, b5, a5, List.map_map, List.filter_map, List.map_map]
  rfl

theorem keepRead_iff (C : SelectCfg K) {x : ReadSpec K} (hx : ReadOk x) (h0 : ∀ v, v ≤ 0 → C.sqrt v = 0) :
    C.keepRead (C.setForest x) = true ↔ readGood C x.spec ≠ [] ∧ C.minRsnr ≤ x.rsnr := by
  obtain ⟨-, -, -, -, -, h1⟩ := setForest_same C hx h0
  unfold SelectCfg.keepRead
  rw [decide_eq_true_eq, h1]
  rfl

/-- The cuts of the program are those of the specification. -/
theorem keep_iff [IsStrictOrderedRing K] (C : SelectCfg K) {x : ReadSpec K} (hx : ReadOk x)
    (hc : C.coaddBefore = true → CoaddReady C x.spec) {ids : List Int}
    (hid : x.row.targetid ∈ ids) (h0 : ∀ v, v ≤ 0 → C.sqrt v = 0)
    (heta : ∀ eta, C.eta = some eta → ∀ w, 0 < eta w) (hst : ∀ st, C.stack = some st → ∀ w, st w ≠ 0) :
    (C.keepRead (C.setForest x) && keepTreated C (treatOne C ids (prepRead C x))) = decide (PassesCuts C x) := by
  have hk := keepRead_iff C hx h0
  by_cases a : readGood C x.spec = []
  · have h1 : C.keepRead (C.setForest x) = false := by
      rw [← Bool.not_eq_true, hk]
      simp [a]
    have h2 : ¬ PassesCuts C x := fun h => h.1 a
    rw [h1, decide_eq_false h2]
    rfl
  obtain ⟨h2, h3, h4, h5, h6⟩ := treat_same C hx hc hid h0 heta hst a
  have hl : (treatOne C ids (prepRead C x)).spec.isLong (C.forestW2 - C.forestW1) C.skip = true ↔
      C.skip * ((1 + x.spec.z) * (C.forestW2 - C.forestW1) / x.spec.dwave) <
      (((inputGood C x.spec).filter (fun p => decide (¬ IsMasked C x p.1))).length : K) := by
    unfold isLong
    rw [decide_eq_true_eq, h2, h3, h5, h6, List.length_map]
  have hm : (treatOne C ids (prepRead C x)).spec.effectiveMeansnr C.eps8 =
      ((inputSnrs C x.spec).map (· ^ 3)).sum / (C.eps8 + ((inputSnrs C x.spec).map (· ^ 2)).sum) := by
    unfold effectiveMeansnr
    rw [← h4, List.map_map, List.map_map]
    rfl
  rw [Bool.eq_iff_iff, Bool.and_eq_true, hk]
  unfold keepTreated PassesCuts
  rw [hm]
  by_cases hs : C.skip = 0
  · simp [a, hs]
  · simp [a, hs, hl]

theorem readLocal_ok [IsStrictOrderedRing K] {Cat : Type} (C : SelectCfg K) (h0 : ∀ v, v ≤ 0 → C.sqrt v = 0)
    {reader : Cat → Except Err (List (ReadSpec K))} {queue : List Cat} {f : Cat → List (ReadSpec K)}
    (hr : ∀ c ∈ queue, reader c = .ok (f c))
    (hx : ∀ x ∈ queue.flatMap f, ReadOk x ∧ (C.coaddBefore = true → CoaddReady C x.spec)) :
    C.readLocal reader queue = .ok (((queue.flatMap f).filter (fun x => C.keepRead (C.setForest x))).map (prepRead C)) := by
  unfold SelectCfg.readLocal
  rw [mapM_eq_ok hr]
  simp only [except_bind_ok, except_pure]
  rw [List.flatMap_map, ← List.filter_flatMap, ← List.map_flatMap, List.filter_map]
  by_cases hb : C.coaddBefore = true
  · rw [if_pos hb, mapM_map]
    rw [mapM_eq_ok (g := prepRead C)]
    · rfl
    · intro x hm
      obtain ⟨h1, h2⟩ := List.mem_filter.mp hm
      exact (prep_same C (hx x h1).1 (hx x h1).2 h0 ((keepRead_iff C (hx x h1).1 h0).mp h2).1).1 hb
  · rw [if_neg hb]
    have : prepRead C = C.setForest := by
      funext x
      exact if_neg hb
    rw [this]
    rfl

end Verif.Proofs
