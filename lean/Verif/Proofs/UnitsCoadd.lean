import Verif.Proofs.UnitsRun
import Verif.Proofs.SelectCoadd

/-!
# Lemmas: coadded arms in other units of flux
-/

namespace Verif.Proofs
open Verif Verif.Np Verif.Model Verif.Model.Spectrum Verif.Spec

variable {K : Type} [Field K] [LinearOrder K] [IsStrictOrderedRing K] [FloorRing K]

/-- A pixel in other units. -/
def scalePix (c : K) (p : Pix K) : Pix K := ⟨p.wave, 1 / c ^ 2 * p.weight, c * p.flux, 1 / c ^ 2 * p.ivar⟩

omit [LinearOrder K] [IsStrictOrderedRing K] [FloorRing K] in
theorem pixelsOf_scale (c : K) (w a f v : List K) :
    pixelsOf w (a.map (1 / c ^ 2 * ·)) (f.map (c * ·)) (v.map (1 / c ^ 2 * ·)) = (pixelsOf w a f v).map (scalePix c) := by
  unfold pixelsOf
  induction w generalizing a f v with
  | nil => simp
  | cons x w ih =>
    cases a with
    | nil => simp
    | cons y a =>
      cases f with
      | nil => simp
      | cons z f =>
        cases v with
        | nil => simp
        | cons u v =>
          simp only [List.map_cons, List.zip_cons_cons, List.zipWith_cons_cons, ih]
          rfl

omit [Field K] [LinearOrder K] [IsStrictOrderedRing K] [FloorRing K] in
theorem mem_pixelsOf {w a f v : List K} {p : Pix K} (h : p ∈ pixelsOf w a f v) : p.weight ∈ a := by
  unfold pixelsOf at h
  rw [← List.map_uncurry_zip_eq_zipWith] at h
  obtain ⟨q, hq, rfl⟩ := List.mem_map.mp h
  have h1 := (List.of_mem_zip (a := q.1) (b := q.2) hq).1
  exact (List.of_mem_zip (a := q.1.1) (b := q.1.2) h1).2

omit [LinearOrder K] [IsStrictOrderedRing K] [FloorRing K] in
theorem putAll_scale (k : K) (l : List (Nat × K)) (a : List K) :
    putAll (a.map (k * ·)) (l.map (fun p => (p.1, k * p.2))) = (putAll a l).map (k * ·) := by
  unfold putAll
  induction l generalizing a with
  | nil => rfl
  | cons p l ih =>
    rw [List.map_cons, List.foldl_cons, List.foldl_cons, ← ih, List.map_set]

omit [LinearOrder K] [IsStrictOrderedRing K] [FloorRing K] in
theorem scatterAdd_scale (k : K) (a : List K) (idx : List Int) (v : List K) :
    scatterAdd (a.map (k * ·)) idx (v.map (k * ·)) = (scatterAdd a idx v).map (List.map (k * ·)) := by
  unfold scatterAdd
  rw [List.length_map]
  cases idx.mapM (normIdx a.length) with
  | error e => rfl
  | ok js =>
    change Except.ok _ = Except.ok _
    congr 1
    rw [← putAll_scale, List.map_map]
    congr 1
    rw [List.zip_map_right, List.map_map]
    refine List.map_congr_left fun p _ => ?_
    have : (a.map (k * ·)).getD p.1 0 = k * a.getD p.1 0 := by
      rw [List.getD_eq_getElem?_getD, List.getD_eq_getElem?_getD, List.getElem?_map]
      cases a[p.1]? with
      | none => simp
      | some x => rfl
    change ((p.1, (a.map (k * ·)).getD p.1 0 + k * p.2) : Nat × K) = (p.1, k * (a.getD p.1 0 + p.2))
    rw [this, mul_add]

/-- The sums in other units. -/
def scaleAcc (c : K) (x : CoaddAcc K) : CoaddAcc K :=
  ⟨x.flux.map (1 / c * ·), x.ivar.map (1 / c ^ 2 * ·), x.norm.map (1 / c ^ 2 * ·)⟩

omit [FloorRing K] in
theorem varOf_scale {c : K} (hc : 0 < c) (v : K) : varOf (1 / c ^ 2 * v) = c ^ 2 * varOf v := by
  unfold varOf
  have h : 0 < 1 / c ^ 2 * v ↔ 0 < v := by simp [hc]
  by_cases hv : 0 < v
  · rw [if_pos hv, if_pos (h.mpr hv)]
    field_simp
  · rw [if_neg hv, if_neg (fun x => hv (h.mp x)), mul_zero]

theorem coaddArm_scale {c : K} (hc : 0 < c) (lo dw : K) (acc : CoaddAcc K) (pix : List (Pix K)) :
    coaddArm lo dw (scaleAcc c acc) (pix.map (scalePix c)) = (coaddArm lo dw acc pix).map (scaleAcc c) := by
  unfold coaddArm
  dsimp only
  have e0 : (pix.map (scalePix c)).map (fun p => coaddIdx lo dw p.wave) = pix.map (fun p => coaddIdx lo dw p.wave) := by
    rw [List.map_map]; rfl
  have e1 : (pix.map (scalePix c)).map (fun p => p.weight * p.flux) = (pix.map (fun p => p.weight * p.flux)).map (1 / c * ·) := by
    rw [List.map_map, List.map_map]
    refine List.map_congr_left fun p _ => ?_
    change 1 / c ^ 2 * p.weight * (c * p.flux) = 1 / c * (p.weight * p.flux)
    field_simp
  have e2 : (pix.map (scalePix c)).map (fun p => p.weight ^ 2 * varOf p.ivar) =
      (pix.map (fun p => p.weight ^ 2 * varOf p.ivar)).map (1 / c ^ 2 * ·) := by
    rw [List.map_map, List.map_map]
    refine List.map_congr_left fun p _ => ?_
    change (1 / c ^ 2 * p.weight) ^ 2 * varOf (1 / c ^ 2 * p.ivar) = 1 / c ^ 2 * (p.weight ^ 2 * varOf p.ivar)
    rw [varOf_scale hc]
    field_simp
  have e3 : (pix.map (scalePix c)).map (fun p => p.weight) = (pix.map (fun p => p.weight)).map (1 / c ^ 2 * ·) := by
    rw [List.map_map, List.map_map]; rfl
  rw [e0, e1, e2, e3]
  have h1 := scatterAdd_scale (1 / c) acc.flux (pix.map (fun p => coaddIdx lo dw p.wave)) (pix.map (fun p => p.weight * p.flux))
  have h2 := scatterAdd_scale (1 / c ^ 2) acc.ivar (pix.map (fun p => coaddIdx lo dw p.wave))
    (pix.map (fun p => p.weight ^ 2 * varOf p.ivar))
  have h3 := scatterAdd_scale (1 / c ^ 2) acc.norm (pix.map (fun p => coaddIdx lo dw p.wave)) (pix.map (fun p => p.weight))
  unfold scaleAcc
  dsimp only
  rw [h1, h2, h3]
  cases scatterAdd acc.flux (pix.map (fun p => coaddIdx lo dw p.wave)) (pix.map (fun p => p.weight * p.flux)) with
  | error e => rfl
  | ok f =>
    cases scatterAdd acc.ivar (pix.map (fun p => coaddIdx lo dw p.wave)) (pix.map (fun p => p.weight ^ 2 * varOf p.ivar)) with
    | error e => rfl
    | ok v =>
      cases scatterAdd acc.norm (pix.map (fun p => coaddIdx lo dw p.wave)) (pix.map (fun p => p.weight)) with
      | error e => rfl
      | ok n => rfl

theorem coaddArms_fold_scale {c : K} (hc : 0 < c) (lo dw : K) (arms : List (List (Pix K))) (acc : CoaddAcc K) :
    (arms.map (List.map (scalePix c))).foldlM (coaddArm lo dw) (scaleAcc c acc) =
      (arms.foldlM (coaddArm lo dw) acc).map (scaleAcc c) := by
  induction arms generalizing acc with
  | nil => rfl
  | cons a arms ih =>
    rw [List.map_cons, List.foldlM_cons, List.foldlM_cons, coaddArm_scale hc]
    cases coaddArm lo dw acc a with
    | error e => rfl
    | ok b => exact ih b

/-! ### A pixel without norm has no flux -/

/-- The sums of a pixel: not negative, and zero without norm. -/
def GoodSums (f v n : K) : Prop := 0 ≤ v ∧ 0 ≤ n ∧ (n = 0 → f = 0 ∧ v = 0)

/-- The sums of all pixels. -/
def GoodAcc (x : CoaddAcc K) : Prop :=
  x.flux.length = x.norm.length ∧ x.ivar.length = x.norm.length ∧
    ∀ i, GoodSums (x.flux.getD i 0) (x.ivar.getD i 0) (x.norm.getD i 0)

omit [IsStrictOrderedRing K] [FloorRing K] in
theorem putAll_good (l : List (Nat × K × K × K)) {f v n : List K} (h : GoodAcc ⟨f, v, n⟩)
    (hl : ∀ p ∈ l, GoodSums p.2.1 p.2.2.1 p.2.2.2) :
    GoodAcc ⟨putAll f (l.map (fun p => (p.1, p.2.1))), putAll v (l.map (fun p => (p.1, p.2.2.1))),
      putAll n (l.map (fun p => (p.1, p.2.2.2)))⟩ := by
  unfold putAll
  induction l generalizing f v n with
  | nil => exact h
  | cons p l ih =>
    rw [List.map_cons, List.map_cons, List.map_cons, List.foldl_cons, List.foldl_cons, List.foldl_cons]
    refine ih ?_ (fun q hq => hl q (List.mem_cons_of_mem _ hq))
    obtain ⟨h1, h2, h3⟩ := h
    dsimp only at h1 h2 h3
    refine ⟨by simpa using h1, by simpa using h2, fun i => ?_⟩
    have h4 := h3 i
    have h5 := hl p List.mem_cons_self
    dsimp only
    simp only [List.getD_eq_getElem?_getD, List.getElem?_set] at h4 ⊢
    by_cases hi : p.1 = i
    · subst hi
      simp only [if_true]
      by_cases hlt : p.1 < n.length
      · rw [if_pos (h1 ▸ hlt), if_pos (h2 ▸ hlt), if_pos hlt]
        exact h5
      · rw [if_neg (h1 ▸ hlt), if_neg (h2 ▸ hlt), if_neg hlt]
        exact ⟨le_rfl, le_rfl, fun _ => ⟨rfl, rfl⟩⟩
    · simp only [if_neg hi]
      exact h4

theorem coaddArm_good {lo dw : K} {acc acc' : CoaddAcc K} {pix : List (Pix K)} (h : GoodAcc acc)
    (hp : ∀ p ∈ pix, 0 ≤ p.weight) (e : coaddArm lo dw acc pix = .ok acc') : GoodAcc acc' := by
  unfold coaddArm at e
  dsimp only at e
  obtain ⟨f, hf, e⟩ := except_bind_eq_ok.mp e
  obtain ⟨v, hv, e⟩ := except_bind_eq_ok.mp e
  obtain ⟨n, hn, e⟩ := except_bind_eq_ok.mp e
  cases e
  unfold scatterAdd at hf hv hn
  obtain ⟨js, hjs, hf⟩ := except_bind_eq_ok.mp hf
  obtain ⟨js1, hjs1, hv⟩ := except_bind_eq_ok.mp hv
  obtain ⟨js2, hjs2, hn⟩ := except_bind_eq_ok.mp hn
  rw [h.1] at hjs
  rw [h.2.1, hjs] at hjs1
  rw [hjs] at hjs2
  cases hjs1
  cases hjs2
  cases hf
  cases hv
  cases hn
  have key := putAll_good ((js.zip pix).map (fun q => (q.1, acc.flux.getD q.1 0 + q.2.weight * q.2.flux,
    acc.ivar.getD q.1 0 + q.2.weight ^ 2 * varOf q.2.ivar, acc.norm.getD q.1 0 + q.2.weight))) (f := acc.flux)
    (v := acc.ivar) (n := acc.norm) h ?_
  · rw [List.map_map, List.map_map, List.map_map] at key
    rw [List.zip_map_right, List.zip_map_right, List.zip_map_right, List.map_map, List.map_map, List.map_map]
    exact key
  · intro p hp'
    obtain ⟨q, hq, rfl⟩ := List.mem_map.mp hp'
    have hw := hp q.2 (List.of_mem_zip (a := q.1) (b := q.2) hq).2
    obtain ⟨g1, g2, g3⟩ := h.2.2 q.1
    have hvar : 0 ≤ varOf q.2.ivar := by
      unfold varOf
      split
      · rename_i hi
        exact (one_div_pos.mpr hi).le
      · exact le_rfl
    refine ⟨by positivity, by positivity, fun h0 => ?_⟩
    dsimp only at h0 ⊢
    have h1 : acc.norm.getD q.1 0 = 0 := by linarith
    have h2 : q.2.weight = 0 := by linarith
    rw [(g3 h1).1, (g3 h1).2, h2]
    simp

theorem coaddArms_fold_good {lo dw : K} {arms : List (List (Pix K))} {acc acc' : CoaddAcc K} (h : GoodAcc acc)
    (hp : ∀ a ∈ arms, ∀ p ∈ a, 0 ≤ p.weight) (e : arms.foldlM (coaddArm lo dw) acc = .ok acc') : GoodAcc acc' := by
  induction arms generalizing acc with
  | nil => cases e; exact h
  | cons a arms ih =>
    rw [List.foldlM_cons] at e
    obtain ⟨b, hb, e⟩ := except_bind_eq_ok.mp e
    exact ih (coaddArm_good h (hp a List.mem_cons_self) hb) (fun x hx => hp x (List.mem_cons_of_mem _ hx)) e

omit [IsStrictOrderedRing K] [FloorRing K] in
theorem goodAcc_cons {f v n : K} {a b d : List K} (h : GoodAcc ⟨f :: a, v :: b, n :: d⟩) :
    GoodSums f v n ∧ GoodAcc ⟨a, b, d⟩ := by
  obtain ⟨h1, h2, h3⟩ := h
  refine ⟨h3 0, by simpa using h1, by simpa using h2, fun i => h3 (i + 1)⟩

omit [FloorRing K] in
theorem norm_scale {c : K} (hc : 0 < c) {x : CoaddAcc K} (h : GoodAcc x) :
    normFlux (scaleAcc c x) = (normFlux x).map (c * ·) ∧ normIvar (scaleAcc c x) = (normIvar x).map (1 / c ^ 2 * ·) ∧
      ∀ v ∈ normIvar x, 0 ≤ v := by
  obtain ⟨f, v, n⟩ := x
  unfold normFlux normIvar scaleAcc
  dsimp only
  induction n generalizing f v with
  | nil =>
    obtain ⟨h1, h2, -⟩ := h
    cases List.length_eq_zero_iff.mp h1
    cases List.length_eq_zero_iff.mp h2
    simp
  | cons z n ih =>
    cases f with
    | nil => exact absurd h.1 (by simp)
    | cons x f =>
      cases v with
      | nil => exact absurd h.2.1 (by simp)
      | cons y v =>
        obtain ⟨⟨g1, g2, g3⟩, hrest⟩ := goodAcc_cons h
        obtain ⟨i1, i2, i3⟩ := ih f v hrest
        have hz : 0 < 1 / c ^ 2 * z ↔ 0 < z := by simp [hc]
        simp only [List.map_cons, List.zipWith_cons_cons, i1, i2]
        refine ⟨?_, ?_, ?_⟩
        · congr 1
          by_cases hp : 0 < z
          · rw [if_pos hp, if_pos (hz.mpr hp)]
            field_simp
          · rw [if_neg hp, if_neg (fun q => hp (hz.mp q)), (g3 (le_antisymm (not_lt.mp hp) g2)).1]
            simp
        · congr 1
          by_cases hp : 0 < z
          · rw [if_pos hp, if_pos (hz.mpr hp)]
            by_cases hy : y = 0
            · rw [hy]; simp
            · field_simp
          · rw [if_neg hp, if_neg (fun q => hp (hz.mp q))]
        · intro u hu
          rcases List.mem_cons.mp hu with rfl | hu
          · split
            · positivity
            · exact g1
          · exact i3 u hu

theorem coaddArms_scale {c : K} (hc : 0 < c) (lo dw : K) (n : Nat) (arms : List (List (Pix K)))
    (hp : ∀ a ∈ arms, ∀ p ∈ a, 0 ≤ p.weight) :
    SameResult (fun x x' => x' = (x.1.map (c * ·), x.2.map (1 / c ^ 2 * ·)) ∧ ∀ v ∈ x.2, 0 ≤ v)
      (coaddArms lo dw n arms) (coaddArms lo dw n (arms.map (List.map (scalePix c)))) := by
  have h0 : scaleAcc c (⟨List.replicate n 0, List.replicate n 0, List.replicate n 0⟩ : CoaddAcc K) =
      ⟨List.replicate n 0, List.replicate n 0, List.replicate n 0⟩ := by
    unfold scaleAcc
    simp
  have hg : GoodAcc (⟨List.replicate n 0, List.replicate n 0, List.replicate n 0⟩ : CoaddAcc K) := by
    refine ⟨rfl, rfl, fun i => ?_⟩
    have : ∀ i, (List.replicate n (0 : K)).getD i 0 = 0 := by
      intro i
      rw [List.getD_eq_getElem?_getD, List.getElem?_replicate]
      split <;> rfl
    dsimp only
    rw [this]
    exact ⟨le_rfl, le_rfl, fun _ => ⟨rfl, rfl⟩⟩
  have e := coaddArms_fold_scale hc lo dw arms (⟨List.replicate n 0, List.replicate n 0, List.replicate n 0⟩ : CoaddAcc K)
  rw [h0] at e
  unfold coaddArms
  dsimp only
  rw [e]
  cases hf : arms.foldlM (coaddArm lo dw) (⟨List.replicate n 0, List.replicate n 0, List.replicate n 0⟩ : CoaddAcc K) with
  | error e => exact rfl
  | ok acc =>
    obtain ⟨h1, h2, h3⟩ := norm_scale hc (coaddArms_fold_good hg hp hf)
    change _ = _ ∧ _
    refine ⟨?_, h3⟩
    rw [← h1, ← h2]

omit [FloorRing K] in
theorem coaddSnr_scale {sqrt : K → K} (hs : SqrtScales sqrt) {c : K} (hc : 0 < c) (nan : K) (f v : List K) :
    coaddSnr sqrt nan (f.map (c * ·)) (v.map (1 / c ^ 2 * ·)) = coaddSnr sqrt nan f v := by
  unfold coaddSnr
  rw [numGood_scale (inv_sq_pos hc)]
  split
  · rfl
  · congr 1
    unfold dot
    congr 1
    rw [List.map_map]
    clear * - hs hc
    induction v generalizing f with
    | nil => simp
    | cons a v ih =>
      cases f with
      | nil => simp
      | cons b f =>
        simp only [List.map_cons, List.zipWith_cons_cons, Function.comp_apply]
        rw [hs c a hc, ← ih f]
        congr 1
        field_simp

/-- Spectra as read, without resolution: no smoothing and no continuum yet. -/
theorem coaddArmsForest_rescale {sqrt : K → K} (hs : SqrtScales sqrt) {c : K} (hc : 0 < c) (y : K)
    (smooth : List K → K → List K) (junk : Nat → K) (nan eps : K) (varlss eta : K → K) {s : Spectrum K} (hn : NN s)
    (hw : s.weight = none) (h1 : s.smoothing ≤ 0) (h2 : s.cont = []) (h3 : s.freso = []) :
    SameResult (fun t t' => NN t ∧ t' = rescale c y t) (s.coaddArmsForest sqrt smooth junk nan eps varlss eta)
      ((rescale c y s).coaddArmsForest sqrt smooth junk nan eps varlss eta) := by
  have hwt : s.fweight = s.fivar := by unfold fweight fivarSm; rw [hn.2, hw]; rfl
  have e1 : ∀ t : Spectrum K, t.cont = [] → t.freso = [] → t.smoothing ≤ 0 →
      t.coaddArmsForest sqrt smooth junk nan eps varlss eta =
        (forestGrid t.dwave (t.fwave.map Prod.snd)).bind (fun g =>
          (coaddArms g.1 t.dwave g.2.2 (t.fwave.map (fun x => t.forestPix x.1))).bind (fun fi =>
            .ok { t with
              fwave := [("brz", linspace g.1 g.2.1 g.2.2)], fflux := [("brz", fi.1)], fivar := [("brz", fi.2)], cont := []
              freso := [], smoothing := 0, ivarSm := none, weight := none
              meanSnr := [("brz", coaddSnr sqrt nan fi.1 fi.2)] })) := by
    intro t ht hr hsm
    have k1 : ∀ a b, t.newCont junk a b = .ok [] := fun a b => if_pos ht
    have k2 : ∀ a b, t.newReso nan eps a b = .ok [] := fun a b => if_pos hr
    unfold coaddArmsForest
    simp only [k1, k2]
    cases forestGrid t.dwave (t.fwave.map Prod.snd) with
    | error e => rfl
    | ok g =>
      change Bind.bind (coaddArms g.1 t.dwave g.2.2 _) _ = Except.bind (coaddArms g.1 t.dwave g.2.2 _) _
      cases coaddArms g.1 t.dwave g.2.2 (t.fwave.map (fun x => t.forestPix x.1)) with
      | error e => rfl
      | ok fi =>
        change Except.ok _ = Except.ok _
        rw [smooth_weight_none smooth hsm varlss eta
          (u := t.replaceForest (linspace g.1 g.2.1 g.2.2) fi.1 fi.2 [] []) rfl]
        rfl
  rw [e1 s h2 h3 h1, e1 (rescale c y s) (by change times c s.cont = []; rw [h2]; rfl) h3 h1]
  change SameResult _ _ ((forestGrid s.dwave (s.fwave.map Prod.snd)).bind _)
  cases forestGrid s.dwave (s.fwave.map Prod.snd) with
  | error e => exact rfl
  | ok g =>
    have e2 : s.fwave.map (fun x => (rescale c y s).forestPix x.1) =
        (s.fwave.map (fun x => s.forestPix x.1)).map (List.map (scalePix c)) := by
      rw [List.map_map]
      refine List.map_congr_left fun x _ => ?_
      change (rescale c y s).forestPix x.1 = (s.forestPix x.1).map (scalePix c)
      unfold forestPix
      rw [← pixelsOf_scale, fweight_rescale, arr_times]
      change pixelsOf (s.fwave.arr x.1) _ ((times c s.fflux).arr x.1) ((times (1 / c ^ 2) s.fivar).arr x.1) = _
      rw [arr_times, arr_times]
    change SameResult _ ((coaddArms g.1 s.dwave g.2.2 (s.fwave.map (fun x => s.forestPix x.1))).bind _)
      ((coaddArms g.1 s.dwave g.2.2 (s.fwave.map (fun x => (rescale c y s).forestPix x.1))).bind _)
    rw [e2]
    refine sameResult_bind (coaddArms_scale hc g.1 s.dwave g.2.2 _ ?_) ?_
    · intro a ha p hp
      obtain ⟨x, -, rfl⟩ := List.mem_map.mp ha
      have := mem_pixelsOf hp
      rw [hwt] at this
      exact hn.1.arr x.1 _ this
    · rintro ⟨f, v⟩ _ ⟨rfl, hv⟩
      dsimp only at hv ⊢
      refine ⟨⟨?_, rfl⟩, ?_⟩
      · intro a ha u hu
        rw [List.mem_singleton.mp ha] at hu
        exact hv u hu
      · rw [coaddSnr_scale hs hc]
        rfl

/-! ### The spectra read -/

/-- The relation of what is read. -/
def RelRead (C : SelectCfg K) (x x' : ReadSpec K) : Prop :=
  ReadNonneg x ∧ ReadUnits x x' ∧ (C.coaddBefore = true → NoReso x.spec)

/-- Selected in both runs, without smoothing yet. -/
def RelSel (x x' : ReadSpec K) : Prop := NN x.spec ∧ ReadUnits x x'

omit [IsStrictOrderedRing K] in
theorem setForest_noReso (C : SelectCfg K) {x : ReadSpec K} (h : NoReso x.spec) :
    (C.setForest x).spec.weight = none ∧ (C.setForest x).spec.smoothing ≤ 0 ∧ (C.setForest x).spec.cont = [] ∧
      (C.setForest x).spec.freso = [] := by
  obtain ⟨h1, h2, h3, h4⟩ := h
  have key : ∀ (l1 l2 : K) (l : List (String × List K)) (s : Spectrum K), s.reso = [] → s.freso = [] →
      (l.foldl (fun s x => regionArm l1 l2 s x.1 x.2) s).freso = [] := by
    intro l1 l2 l
    induction l with
    | nil => intro s _ h; exact h
    | cons a l ih =>
      intro s hr hf
      rw [List.foldl_cons]
      refine ih _ ?_ ?_
      · rw [(regionArm_sameData l1 l2 s a.1 a.2).reso]
        exact hr
      · unfold regionArm
        dsimp only
        split
        · exact hf
        · exact hf
  have h5 := region_foldl_rest (max C.wave1 ((1 + x.spec.z) * C.forestW1)) (min C.wave2 ((1 + x.spec.z) * C.forestW2))
    x.spec.wave x.spec
  refine ⟨rfl, ?_, ?_, ?_⟩
  · exact le_of_eq_of_le h5.1 h3
  · exact h5.2.trans h4
  · exact key _ _ x.spec.wave x.spec h1 h2

theorem coadd_rel (C : SelectCfg K) (hs : SqrtScales C.sqrt) {x x' : ReadSpec K} (hx : RelRead C x x')
    (hc : C.coaddBefore = true) : SameResult RelSel (C.coadd (C.setForest x)) (C.coadd (C.setForest x')) := by
  obtain ⟨h1, h2, h3⟩ := hx
  obtain ⟨e1, e2, c, y, hcp, e⟩ := setForest_rel C hs h2
  obtain ⟨k1, k2, k3, k4⟩ := setForest_noReso C (h3 hc)
  unfold SelectCfg.coadd
  rw [e]
  have key := coaddArmsForest_rescale hs hcp y C.smooth C.junk C.nan C.eps8 (fun _ => 0) (fun _ => 1)
    (nn_setForest C h1) k1 k2 k3 k4
  refine sameResult_bind key ?_
  rintro t _ ⟨ht, rfl⟩
  exact ⟨ht, e1, e2, c, y, hcp, rfl⟩

theorem mapM_sameResult {α β γ δ : Type} {R : α → β → Prop} {S : γ → δ → Prop} {f : α → Except Err γ} {g : β → Except Err δ}
    (h : ∀ a b, R a b → SameResult S (f a) (g b)) {l : List α} {l' : List β} (hl : List.Forall₂ R l l') :
    SameResult (List.Forall₂ S) (l.mapM f) (l'.mapM g) := by
  induction hl with
  | nil => exact .nil
  | cons hab _ ih =>
    rw [List.mapM_cons, List.mapM_cons]
    refine sameResult_bind (h _ _ hab) fun a b hs => sameResult_bind ih fun as bs hss => ?_
    exact List.Forall₂.cons hs hss

theorem readLocal_rel {Cat : Type} (C : SelectCfg K) (hs : SqrtScales C.sqrt)
    {reader reader' : Cat → Except Err (List (ReadSpec K))} {queue : List Cat}
    (h : ∀ q ∈ queue, SameResult (List.Forall₂ (RelRead C)) (reader q) (reader' q)) :
    SameResult (List.Forall₂ RelSel) (C.readLocal reader queue) (C.readLocal reader' queue) := by
  have hd : ∀ rd : Cat → Except Err (List (ReadSpec K)), C.readLocal rd queue = (queue.mapM rd).bind
      (fun l => if C.coaddBefore then (l.flatMap (fun specs => (specs.map C.setForest).filter C.keepRead)).mapM C.coadd
        else .ok (l.flatMap (fun specs => (specs.map C.setForest).filter C.keepRead))) := fun rd => rfl
  rw [hd, hd]
  refine sameResult_bind (mapM_except_rel h) fun a b hab => ?_
  have h1 : List.Forall₂ (fun x x' => ∃ z z', RelRead C z z' ∧ x = C.setForest z ∧ x' = C.setForest z')
      (a.flatMap (fun specs => (specs.map C.setForest).filter C.keepRead))
      (b.flatMap (fun specs => (specs.map C.setForest).filter C.keepRead)) := by
    refine flatMap_forall₂ (fun l l' hl => ?_) hab
    refine filter_rel ?_ (forall₂_map_rel (fun x x' hx => ⟨x, x', hx, rfl, rfl⟩) hl)
    rintro _ _ ⟨z, z', hz, rfl, rfl⟩
    exact keepRead_rel C (setForest_rel C hs hz.2.1)
  by_cases hc : C.coaddBefore = true
  · simp only [if_pos hc]
    refine mapM_sameResult ?_ h1
    rintro _ _ ⟨z, z', hz, rfl, rfl⟩
    exact coadd_rel C hs hz hc
  · simp only [if_neg hc]
    refine h1.imp ?_
    rintro _ _ ⟨z, z', hz, rfl, rfl⟩
    exact ⟨nn_setForest C hz.1, setForest_rel C hs hz.2.1⟩

end Verif.Proofs
