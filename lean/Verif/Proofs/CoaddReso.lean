import Verif.Proofs.Coadd

/-! Lemmas about the coadded continuum, the coadded resolution and the grid. -/

namespace Verif.Proofs
open Verif.Np Verif.Model Verif.Spec List

section
variable {K : Type}

theorem putAll_get (a : List K) (l : List (Nat × K)) {k : Nat} {x : K} (h : a[k]? = some x) :
    (putAll a l)[k]? =
      some (((l.filter (fun p => decide (p.1 = k))).getLast?.map Prod.snd).getD x) := by
  induction l generalizing a x with
  | nil => simpa [putAll] using h
  | cons p l ih =>
    have hk : k < a.length := by
      by_contra hc
      rw [List.getElem?_eq_none (by omega)] at h
      simp at h
    by_cases hp : p.1 = k
    · have := ih (a.set p.1 p.2) (x := p.2) (by rw [hp, List.getElem?_set_self hk])
      unfold putAll at this ⊢
      rw [List.foldl_cons, this, List.filter_cons]
      simp only [hp, decide_true, if_true]
      congr 1
      rw [List.getLast?_cons]
      cases (l.filter (fun p => decide (p.1 = k))).getLast? <;> simp
    · have := ih (a.set p.1 p.2) (x := x) (by rw [List.getElem?_set_ne hp, h])
      unfold putAll at this ⊢
      rw [List.foldl_cons, this, List.filter_cons]
      simp only [hp, decide_false, Bool.false_eq_true, if_false]

theorem mapM_normIdx {n m : Nat} (hm : m = n) {idx : List Nat} (hi : ∀ i ∈ idx, i < n) :
    (idx.map (fun i : Nat => (i : Int))).mapM (normIdx m) = .ok idx := by
  subst hm
  rw [List.mapM_map]
  have := mapM_eq_ok (f := fun i : Nat => normIdx m (i : Int)) (g := id) (l := idx)
    (fun i hi' => by simpa using normIdx_nat (hi i hi'))
  rw [List.map_id] at this
  exact this

theorem scatterSet_ok {n : Nat} (F : Nat → K) {idx : List Nat} {v : List K}
    (hi : ∀ i ∈ idx, i < n) :
    scatterSet ((List.range n).map F) (idx.map (fun i : Nat => (i : Int))) v =
      .ok ((List.range n).map (fun k =>
        (((idx.zip v).filter (fun p => decide (p.1 = k))).getLast?.map Prod.snd).getD (F k))) := by
  unfold scatterSet
  rw [mapM_normIdx (by simp) hi, except_bind_ok, except_pure]
  congr 1
  apply List.ext_getElem?
  intro k
  by_cases hk : k < n
  · rw [putAll_get (x := F k) _ _ (by simp [hk])]
    simp [hk]
  · rw [List.getElem?_eq_none (by rw [putAll_length]; simp; omega),
      List.getElem?_eq_none (by simp; omega)]

end

section
variable {K : Type} [Field K] [LinearOrder K] [IsStrictOrderedRing K] [FloorRing K]

theorem getLast?_append_map {α β : Type} (l m : List α) (f : α → β) (x : β) :
    (((l ++ m).getLast?.map f).getD x) = ((m.getLast?.map f).getD ((l.getLast?.map f).getD x)) := by
  rw [List.getLast?_append]
  cases m.getLast? <;> simp

/-- The coadded continuum: the last arm with a pixel in the cell; memory that was not initialised
elsewhere. -/
theorem coaddCont_eq {minWave dwave : K} (hd : 0 < dwave) {n : Nat}
    {conts : List (List K × List K)} (hw : ∀ c ∈ conts, ∀ w ∈ c.1, minWave ≤ w)
    (hn : ∀ c ∈ conts, ∀ w ∈ c.1, cellIdx minWave dwave w < n) (junk : Nat → K) :
    coaddCont junk minWave dwave n conts = .ok ((List.range n).map (fun k =>
      (lastIn minWave dwave (conts.flatMap (fun c => c.1.zip c.2)) k).getD (junk k))) := by
  unfold coaddCont
  induction conts generalizing junk with
  | nil => simp [lastIn]
  | cons c conts ih =>
    rw [List.foldlM_cons]
    have e : c.1.map (coaddIdx minWave dwave) =
        (c.1.map (cellIdx minWave dwave)).map (fun i : Nat => (i : Int)) := by
      rw [List.map_map]
      exact List.map_congr_left fun w hw' => coaddIdx_eq_cellIdx hd (hw c (by simp) w hw')
    rw [e, scatterSet_ok junk (by
      intro i hi
      obtain ⟨w, hw', rfl⟩ := List.mem_map.mp hi
      exact hn c (by simp) w hw'), except_bind_ok,
      ih (fun c' hc => hw c' (by simp [hc])) (fun c' hc => hn c' (by simp [hc]))]
    congr 1
    refine List.map_congr_left fun k _ => ?_
    unfold lastIn
    rw [List.flatMap_cons, List.filter_append, getLast?_append_map]
    congr 1
    rw [List.zip_map_left, List.filter_map, List.getLast?_map, Option.map_map]
    have : (Prod.snd ∘ Prod.map (cellIdx minWave dwave) id : K × K → K) = Prod.snd := rfl
    rw [this]
    congr 2
    congr 1
    refine List.filter_congr fun p hp => ?_
    simp only [Function.comp_apply, Prod.map_fst]
    rw [decide_eq_decide]
    exact cellIdx_eq_iff hd (hw c (by simp) p.1 (List.of_mem_zip hp).1) k

omit [LinearOrder K] [IsStrictOrderedRing K] [FloorRing K] in
theorem padRows_getElem? {m npix : Nat} {rows : List (List K)}
    (hm : rows.length + 2 * ((m - rows.length) / 2) = m) {r : Nat} (hr : r < m) :
    (padRows ((m - rows.length) / 2) npix rows)[r]? = some (centredRow m npix rows r) := by
  unfold padRows centredRow
  set d := (m - rows.length) / 2 with hd
  by_cases h1 : r < d
  · rw [if_pos h1, List.append_assoc, List.getElem?_append_left (by simpa using h1)]
    simp [h1]
  · rw [if_neg h1]
    by_cases h2 : r - d < rows.length
    · rw [List.getElem?_append_left (by simp; omega), List.getElem?_append_right (by simp; omega)]
      rw [List.length_replicate, List.getD_eq_getElem?_getD, List.getElem?_eq_getElem h2]
      rfl
    · rw [List.getElem?_append_right (by simp; omega), List.getD_eq_getElem?_getD,
        List.getElem?_eq_none (l := rows) (by omega), List.getElem?_replicate, if_pos (by simp; omega)]
      rfl

omit [LinearOrder K] [IsStrictOrderedRing K] [FloorRing K] in
theorem padRows_eq {m npix : Nat} {rows : List (List K)}
    (hm : rows.length + 2 * ((m - rows.length) / 2) = m) :
    padRows ((m - rows.length) / 2) npix rows = (List.range m).map (centredRow m npix rows) := by
  apply List.ext_getElem?
  intro r
  by_cases hr : r < m
  · rw [padRows_getElem? hm hr]; simp [hr]
  · rw [List.getElem?_eq_none (by unfold padRows; simp; omega), List.getElem?_eq_none (by simp; omega)]

/-- The arrays of the resolution of an arm fit. -/
structure ResoFits (m : Nat) (a : ResoArm K) : Prop where
  rows : a.rows.length + 2 * ((m - a.rows.length) / 2) = m
  weight : a.weight.length = a.wave.length
  row : ∀ r ∈ a.rows, r.length = a.wave.length

omit [LinearOrder K] [IsStrictOrderedRing K] [FloorRing K] in
theorem centredRow_length {m : Nat} {a : ResoArm K} (h : ResoFits m a) (r : Nat) :
    (centredRow m a.wave.length a.rows r).length = a.wave.length := by
  unfold centredRow
  split
  · simp
  · rw [List.getD_eq_getElem?_getD]
    cases hx : a.rows[r - (m - a.rows.length) / 2]? with
    | none => simp
    | some row => exact h.row row (List.mem_of_getElem? hx)

omit [IsStrictOrderedRing K] [FloorRing K] in
theorem resoPix_maps {m : Nat} {a : ResoArm K} (h : ResoFits m a) (eps : K) (r : Nat) :
    (resoPix eps m r a).map (fun p => p.wave) = a.wave ∧
    (resoPix eps m r a).map (fun p => p.weight) = a.weight.map (resoWeight eps) ∧
    (resoPix eps m r a).map (fun p => p.weight * p.flux) =
      List.zipWith (· * ·) (a.weight.map (resoWeight eps)) (centredRow m a.wave.length a.rows r) := by
  have h1 := centredRow_length h r
  have h2 := h.weight
  unfold resoPix resoWeight
  generalize centredRow m a.wave.length a.rows r = row at h1 ⊢
  generalize a.wave = wave at h1 h2 ⊢
  generalize a.weight = weight at h2 ⊢
  induction wave generalizing row weight with
  | nil =>
    cases weight with
    | nil => simp
    | cons x weight => simp at h2
  | cons w wave ih =>
    cases weight with
    | nil => simp at h2
    | cons x weight =>
      cases row with
      | nil => simp at h1
      | cons y row =>
        obtain ⟨i1, i2, i3⟩ := ih row (by simpa using h1) weight (by simpa using h2)
        simp only [List.zip_cons_cons, List.zipWith_cons_cons, List.map_cons, i1, i2, i3]
        simp

omit [IsStrictOrderedRing K] [FloorRing K] in
theorem resoPix_wave_mem {m : Nat} {a : ResoArm K} (eps : K) (r : Nat)
    {p : Pix K} (hp : p ∈ resoPix eps m r a) : p.wave ∈ a.wave := by
  unfold resoPix at hp
  rw [← List.map_uncurry_zip_eq_zipWith] at hp
  obtain ⟨q, hq, rfl⟩ := List.mem_map.mp hp
  exact (List.of_mem_zip (List.of_mem_zip hq).1).1

theorem coaddReso_foldlM {minWave dwave eps : K} (hd : 0 < dwave) {n m : Nat}
    {arms : List (ResoArm K)} (hf : ∀ a ∈ arms, ResoFits m a)
    (hw : ∀ a ∈ arms, ∀ w ∈ a.wave, minWave ≤ w)
    (hn : ∀ a ∈ arms, ∀ w ∈ a.wave, cellIdx minWave dwave w < n)
    (h1 : ∀ a ∈ arms, a.wave.Pairwise (fun v w => ∀ k, InCell minWave dwave k v →
      ¬ InCell minWave dwave k w)) (G : Nat → Nat → K) (N : Nat → K) :
    arms.foldlM (coaddResoArm eps minWave dwave m)
      ((List.range m).map (fun r => (List.range n).map (G r)), (List.range n).map N) =
    .ok ((List.range m).map (fun r => (List.range n).map (fun k => G r k +
          ((cell minWave dwave (arms.map (resoPix eps m r)) k).map
            (fun p => p.weight * p.flux)).sum)),
         (List.range n).map (fun k => N k +
          sumWeight (cell minWave dwave (arms.map (resoPix eps m 0)) k))) := by
  induction arms generalizing G N with
  | nil => simp [cell, sumWeight]
  | cons a arms ih =>
    rw [List.foldlM_cons]
    have hfa := hf a (by simp)
    have hmem : ∀ r, ∀ p ∈ resoPix eps m r a, p.wave ∈ a.wave := fun r p hp =>
      resoPix_wave_mem eps r hp
    have hpw : ∀ r, (resoPix eps m r a).Pairwise (fun p q => ∀ k, InCell minWave dwave k p.wave →
        ¬ InCell minWave dwave k q.wave) := by
      intro r
      have := h1 a (by simp)
      rw [← (resoPix_maps hfa eps r).1, List.pairwise_map] at this
      exact this
    have hidx : ∀ r, a.wave.map (coaddIdx minWave dwave) =
        (resoPix eps m r a).map (fun p => coaddIdx minWave dwave p.wave) := by
      intro r
      conv_lhs => rw [← (resoPix_maps hfa eps r).1]
      rw [List.map_map]
      rfl
    have step : ∀ (r : Nat) (F : Nat → K), scatterAdd ((List.range n).map F)
        (a.wave.map (coaddIdx minWave dwave))
        (List.zipWith (· * ·) (a.weight.map (resoWeight eps))
          (centredRow m a.wave.length a.rows r)) =
        .ok ((List.range n).map (fun k => F k + (((resoPix eps m r a).filter (fun p => decide
          (InCell minWave dwave k p.wave))).map (fun p => p.weight * p.flux)).sum)) := by
      intro r F
      rw [hidx r, ← (resoPix_maps hfa eps r).2.2]
      exact scatterAdd_cell hd (fun p hp => hw a (by simp) _ (hmem r p hp))
        (fun p hp => hn a (by simp) _ (hmem r p hp)) (hpw r) F _
    have stepN : scatterAdd ((List.range n).map N)
        (a.wave.map (coaddIdx minWave dwave)) (a.weight.map (resoWeight eps)) =
        .ok ((List.range n).map (fun k => N k + (((resoPix eps m 0 a).filter (fun p => decide
          (InCell minWave dwave k p.wave))).map (fun p => p.weight)).sum)) := by
      rw [hidx 0, ← (resoPix_maps hfa eps 0).2.1]
      exact scatterAdd_cell hd (fun p hp => hw a (by simp) _ (hmem 0 p hp))
        (fun p hp => hn a (by simp) _ (hmem 0 p hp)) (hpw 0) N _
    have one : coaddResoArm eps minWave dwave m
        ((List.range m).map (fun r => (List.range n).map (G r)), (List.range n).map N) a = .ok
        ((List.range m).map (fun r => (List.range n).map (fun k => G r k +
          (((resoPix eps m r a).filter (fun p => decide
          (InCell minWave dwave k p.wave))).map (fun p => p.weight * p.flux)).sum)),
         (List.range n).map (fun k => N k + (((resoPix eps m 0 a).filter (fun p => decide
          (InCell minWave dwave k p.wave))).map (fun p => p.weight)).sum)) := by
      unfold coaddResoArm
      dsimp only
      rw [padRows_eq hfa.rows]
      have hs : sameShape ((List.range m).map (centredRow m a.wave.length a.rows)).length
          ((List.range m).map (fun r => (List.range n).map (G r))).length = .ok () := by
        simp [sameShape]
      rw [hs, except_bind_ok, List.zip_map', List.mapM_map]
      have := mapM_eq_ok (l := List.range m)
        (f := (fun p : List K × List K => scatterAdd p.1 (a.wave.map (coaddIdx minWave dwave))
          (List.zipWith (· * ·) (a.weight.map (resoWeight eps)) p.2)) ∘
            (fun r => ((List.range n).map (G r), centredRow m a.wave.length a.rows r)))
        (fun r _ => step r (G r))
      rw [this, except_bind_ok, stepN, except_bind_ok, except_pure]
    rw [one, except_bind_ok, ih (fun b hb => hf b (by simp [hb])) (fun b hb => hw b (by simp [hb]))
      (fun b hb => hn b (by simp [hb])) (fun b hb => h1 b (by simp [hb]))]
    congr 2
    · refine List.map_congr_left fun r _ => List.map_congr_left fun k _ => ?_
      simp [cell, List.filter_append, add_assoc]
    · refine List.map_congr_left fun k _ => ?_
      simp [cell, sumWeight, List.filter_append, add_assoc]

/-- The coadded resolution. -/
theorem coaddReso_eq {minWave dwave eps : K} (hd : 0 < dwave) {n m : Nat}
    {arms : List (ResoArm K)} (hm : (arms.map (fun a => a.rows.length)).foldl max 0 = m)
    (hf : ∀ a ∈ arms, ResoFits m a)
    (hw : ∀ a ∈ arms, ∀ w ∈ a.wave, minWave ≤ w)
    (hn : ∀ a ∈ arms, ∀ w ∈ a.wave, cellIdx minWave dwave w < n)
    (h1 : ∀ a ∈ arms, a.wave.Pairwise (fun v w => ∀ k, InCell minWave dwave k v →
      ¬ InCell minWave dwave k w)) (nan : K) :
    coaddReso nan eps minWave dwave n arms = .ok
      ((List.range m).map (fun r => (List.range n).map (fun k =>
        if sumWeight (cell minWave dwave (arms.map (resoPix eps m 0)) k) = 0 then nan
        else ((cell minWave dwave (arms.map (resoPix eps m r)) k).map
            (fun p => p.weight * p.flux)).sum /
          sumWeight (cell minWave dwave (arms.map (resoPix eps m 0)) k)))) := by
  unfold coaddReso
  dsimp only
  simp only [replicate_eq_map_range]
  rw [hm,
    coaddReso_foldlM hd hf hw hn h1, except_bind_ok, except_pure]
  congr 1
  rw [List.map_map]
  refine List.map_congr_left fun r _ => ?_
  simp only [Function.comp_apply, divRow, zero_add]
  rw [List.zipWith_map, List.zipWith_self]

theorem foldl_min_le (l : List K) (x : K) :
    l.foldl min x ≤ x ∧ (∀ y ∈ l, l.foldl min x ≤ y) ∧ (l.foldl min x = x ∨ l.foldl min x ∈ l) := by
  induction l generalizing x with
  | nil => simp
  | cons y l ih =>
    obtain ⟨h1, h2, h3⟩ := ih (min x y)
    rw [List.foldl_cons]
    refine ⟨h1.trans (min_le_left _ _), fun z hz => ?_, ?_⟩
    · rcases List.mem_cons.mp hz with rfl | hz
      · exact h1.trans (min_le_right _ _)
      · exact h2 z hz
    · rcases h3 with h3 | h3
      · rcases min_choice x y with h | h
        · left; rw [h3, h]
        · right; rw [h3, h]; simp
      · right; simp [h3]

theorem le_foldl_max (l : List K) (x : K) :
    x ≤ l.foldl max x ∧ (∀ y ∈ l, y ≤ l.foldl max x) ∧ (l.foldl max x = x ∨ l.foldl max x ∈ l) := by
  induction l generalizing x with
  | nil => simp
  | cons y l ih =>
    obtain ⟨h1, h2, h3⟩ := ih (max x y)
    rw [List.foldl_cons]
    refine ⟨(le_max_left _ _).trans h1, fun z hz => ?_, ?_⟩
    · rcases List.mem_cons.mp hz with rfl | hz
      · exact (le_max_right _ _).trans h1
      · exact h2 z hz
    · rcases h3 with h3 | h3
      · rcases max_choice x y with h | h
        · left; rw [h3, h]
        · right; rw [h3, h]; simp
      · right; simp [h3]

theorem listMin_ok {l : List K} (h : l ≠ []) :
    ∃ m, listMin l = .ok m ∧ m ∈ l ∧ ∀ y ∈ l, m ≤ y := by
  cases l with
  | nil => exact absurd rfl h
  | cons x l =>
    obtain ⟨h1, h2, h3⟩ := foldl_min_le l x
    refine ⟨_, rfl, ?_, fun y hy => ?_⟩
    · rcases h3 with h3 | h3
      · rw [h3]; simp
      · simp [h3]
    · rcases List.mem_cons.mp hy with rfl | hy
      · exact h1
      · exact h2 y hy

theorem listMax_ok {l : List K} (h : l ≠ []) :
    ∃ m, listMax l = .ok m ∧ m ∈ l ∧ ∀ y ∈ l, y ≤ m := by
  cases l with
  | nil => exact absurd rfl h
  | cons x l =>
    obtain ⟨h1, h2, h3⟩ := le_foldl_max l x
    refine ⟨_, rfl, ?_, fun y hy => ?_⟩
    · rcases h3 with h3 | h3
      · rw [h3]; simp
      · simp [h3]
    · rcases List.mem_cons.mp hy with rfl | hy
      · exact h1
      · exact h2 y hy

omit [Field K] [IsStrictOrderedRing K] [FloorRing K] in
theorem head_le {l : List K} (hs : l.Pairwise (· < ·)) {x : K} (hx : l.head? = some x) :
    ∀ w ∈ l, x ≤ w := by
  cases l with
  | nil => simp at hx
  | cons y l =>
    simp only [List.head?_cons, Option.some.injEq] at hx
    subst hx
    intro w hw
    rcases List.mem_cons.mp hw with rfl | hw
    · exact le_rfl
    · exact ((List.pairwise_cons.mp hs).1 w hw).le

omit [Field K] [IsStrictOrderedRing K] [FloorRing K] in
theorem le_last {l : List K} (hs : l.Pairwise (· < ·)) {x : K} (hx : l.getLast? = some x) :
    ∀ w ∈ l, w ≤ x := by
  obtain ⟨ys, rfl⟩ := List.getLast?_eq_some_iff.mp hx
  intro w hw
  rcases List.mem_append.mp hw with h | h
  · exact ((List.pairwise_append.mp hs).2.2 w h x (by simp)).le
  · simp at h; rw [h]

/-- The grid spans all wavelengths, and its limits are wavelengths. -/
theorem forestGrid_ok {dwave : K} (hd : 0 < dwave) {waves : List (List K)} (h0 : waves ≠ [])
    (hne : ∀ w ∈ waves, w ≠ []) (hs : ∀ w ∈ waves, w.Pairwise (· < ·)) :
    ∃ minWave maxWave n, forestGrid dwave waves = .ok (minWave, maxWave, n) ∧
      (∃ l ∈ waves, minWave ∈ l) ∧ (∃ l ∈ waves, maxWave ∈ l) ∧
      (∀ l ∈ waves, ∀ w ∈ l, minWave ≤ w ∧ w ≤ maxWave) ∧
      n = cellIdx minWave dwave maxWave + 1 ∧
      (∀ l ∈ waves, ∀ w ∈ l, cellIdx minWave dwave w < n) := by
  have hf : waves.mapM firstElem = .ok (waves.map (fun l => l.headD 0)) := by
    refine mapM_eq_ok fun l hl => ?_
    have := hne l hl
    cases l with
    | nil => exact absurd rfl this
    | cons x l => rfl
  have hl : waves.mapM lastElem = .ok (waves.map (fun l => l.getLastD 0)) := by
    refine mapM_eq_ok fun l hl => ?_
    have := hne l hl
    unfold lastElem
    rw [List.getLast?_eq_getLast_of_ne_nil this]
    simp only
    rw [List.getLastD_eq_getLast?, List.getLast?_eq_getLast_of_ne_nil this]
    rfl
  have hhead : ∀ l ∈ waves, l.head? = some (l.headD 0) := fun l hl' => by
    have := hne l hl'
    cases l with
    | nil => exact absurd rfl this
    | cons x l => rfl
  have hlast : ∀ l ∈ waves, l.getLast? = some (l.getLastD 0) := fun l hl' => by
    have := hne l hl'
    rw [List.getLastD_eq_getLast?, List.getLast?_eq_getLast_of_ne_nil this]
    rfl
  obtain ⟨a, ha, ham, hal⟩ := listMin_ok (l := waves.map (fun l => l.headD 0)) (by simpa using h0)
  obtain ⟨b, hb, hbm, hbl⟩ := listMax_ok (l := waves.map (fun l => l.getLastD 0)) (by simpa using h0)
  obtain ⟨la, hla, rfl⟩ := List.mem_map.mp ham
  obtain ⟨lb, hlb, rfl⟩ := List.mem_map.mp hbm
  have hin : ∀ l ∈ waves, ∀ w ∈ l, la.headD 0 ≤ w ∧ w ≤ lb.getLastD 0 := by
    intro l hl' w hw
    exact ⟨(hal _ (List.mem_map.mpr ⟨l, hl', rfl⟩)).trans (head_le (hs l hl') (hhead l hl') w hw),
      (le_last (hs l hl') (hlast l hl') w hw).trans (hbl _ (List.mem_map.mpr ⟨l, hl', rfl⟩))⟩
  have hmm : la.headD 0 ≤ lb.getLastD 0 :=
    (hin lb hlb _ (List.mem_of_getLast? (hlast lb hlb))).1
  have hn : (truncInt ((lb.getLastD 0 - la.headD 0) / dwave + 1 / 10) + 1).toNat =
      cellIdx (la.headD 0) dwave (lb.getLastD 0) + 1 := by
    have := coaddIdx_eq_cellIdx hd hmm
    unfold coaddIdx at this
    rw [this]
    omega
  refine ⟨_, _, _, ?_, ⟨la, hla, List.mem_of_head? (hhead la hla)⟩,
    ⟨lb, hlb, List.mem_of_getLast? (hlast lb hlb)⟩, hin, hn, ?_⟩
  · unfold forestGrid
    rw [hf, except_bind_ok, ha, except_bind_ok, hl, except_bind_ok, hb, except_bind_ok, except_pure]
  · intro l hl' w hw
    have h1 := hin l hl' w hw
    have h2 := coaddIdx_mono hd h1.1 h1.2
    rw [coaddIdx_eq_cellIdx hd h1.1, coaddIdx_eq_cellIdx hd hmm] at h2
    rw [hn]
    omega

end
end Verif.Proofs
