import Verif.Proofs.Delta
import Mathlib.Data.Rat.Floor

/-!
# C28, C67: coadding deltas

`Delta.coadd` of two deltas whose wavelengths are on one grid `w0 + j * dwave` (up to a twentieth of
the spacing). `pixAt j0 t.pix j` is the pixel with grid number `j` of a delta that starts at number
`j0`; `both j1 j2 d e j` are the pixels the two deltas have there (none, one or two).
-/

namespace Verif.Props
open Verif.Np Verif.Model Verif.Spec Verif.Proofs

variable {K : Type} [Field K] [LinearOrder K] [IsStrictOrderedRing K] [FloorRing K]

/-- The resolution matrices of two deltas can be coadded. -/
def ResoMatch (d e : Delta K) : Prop :=
  d.reso = none ∨ ∃ rd re, d.reso = some rd ∧ e.reso = some re ∧
    (∀ r ∈ rd, r.length = d.wave.length) ∧ (∀ r ∈ re, r.length = e.wave.length) ∧
    rd.length % 2 = re.length % 2

/-- **C28.** Coadding two deltas on one grid succeeds and gives a delta on the union of the two, on the
same grid, with all arrays of one length and the identity of the first. -/
theorem C28_union_grid (sqrt : K → K) (nan eps : K) {w0 dwave : K} (hd : 0 < dwave) {j1 j2 : Nat}
    {d e : Delta K} (h1 : DeltaOk w0 dwave j1 d) (h2 : DeltaOk w0 dwave j2 e) (hr : ResoMatch d e) :
    ∃ t, d.coadd sqrt nan eps dwave e = .ok t ∧
      OnGridFrom w0 dwave (min j1 j2) t.wave ∧
      t.wave.length = max (j1 + d.wave.length) (j2 + e.wave.length) - min j1 j2 ∧
      t.delta.length = t.wave.length ∧ t.ivar.length = t.wave.length ∧
      t.weight.length = t.wave.length ∧ t.cont.length = t.wave.length ∧
      t.targetid = d.targetid := by
  have ⟨t, ht⟩ : ∃ t, d.coadd sqrt nan eps dwave e = .ok t := by
    rcases hr with hr | ⟨rd, re, hrd, hre, fd, fe, hp⟩
    · obtain ⟨t, ht, -⟩ := coadd_ok_of_noReso sqrt nan eps hd h1 h2 hr
      exact ⟨t, ht⟩
    · obtain ⟨lo, hi, hlo, hhi, hu, hv, hform⟩ := coadd_form sqrt nan eps hd h1 h2
      rw [hform, coaddDeltaReso_ok hd nan eps h1 h2 hlo hu hv (le_refl _) hrd hre fd fe hp]
      exact ⟨_, rfl⟩
  obtain ⟨g, l, l1, l2, l3, l4, -, hid, -⟩ := coadd_result sqrt nan eps hd h1 h2 ht
  exact ⟨t, ht, g, l, l1, l2, l3, l4, hid⟩

/-- **C28.** In every pixel of the union the delta and the continuum are the weighted means, the ivar is
the inverse of the variance of the weighted mean; the weight is `ivar / (1 + ivar * s)` with the mean
added variance `s` if no pixel is masked; and without any weight everything is zero. -/
theorem C28_weighted_mean (sqrt : K → K) (nan eps : K) {w0 dwave : K} (hd : 0 < dwave) {j1 j2 : Nat}
    {d e t : Delta K} (h1 : DeltaOk w0 dwave j1 d) (h2 : DeltaOk w0 dwave j2 e)
    (ht : d.coadd sqrt nan eps dwave e = .ok t) (j : Nat) :
    (pixAt (min j1 j2) t.pix j = none ↔
      j < min j1 j2 ∨ max (j1 + d.wave.length) (j2 + e.wave.length) ≤ j) ∧
    ∀ p, pixAt (min j1 j2) t.pix j = some p →
      let l := both j1 j2 d e j
      (0 < dweight l → p.delta = dmean (fun q => q.delta) l ∧ p.cont = dmean (fun q => q.cont) l ∧
        p.ivar = 1 / dmeanVar l ∧ 0 < p.ivar ∧
        ((∀ q ∈ l, 0 < q.weight) → p.weight = p.ivar / (1 + p.ivar * dmean addedVar l))) ∧
      (dweight l = 0 → p = ⟨0, 0, 0, 0⟩) := by
  obtain ⟨-, -, -, -, -, -, -, -, hp⟩ := coadd_result sqrt nan eps hd h1 h2 ht
  rw [hp j]
  constructor
  · by_cases hc : min j1 j2 ≤ j ∧ j < max (j1 + d.wave.length) (j2 + e.wave.length)
    · rw [if_pos hc]; simp; omega
    · rw [if_neg hc]; simp; omega
  · intro p hpe
    by_cases hc : min j1 j2 ≤ j ∧ j < max (j1 + d.wave.length) (j2 + e.wave.length)
    swap
    · rw [if_neg hc] at hpe; simp at hpe
    rw [if_pos hc, Option.some.injEq] at hpe
    subst hpe
    have hok : PixOk (both j1 j2 d e j) := by
      intro q hq
      simp only [both, List.mem_append, Option.mem_toList] at hq
      rcases hq with hq | hq
      · exact h1.nonneg q (pixAt_mem hq)
      · exact h2.nonneg q (pixAt_mem hq)
    refine ⟨fun hW => ?_, fun hW => coaddPix_zero hok hW⟩
    obtain ⟨a, b, c, f⟩ := coaddPix_pos hok hW
    refine ⟨a, b, c, f, fun hg => ?_⟩
    have hs : (both j1 j2 d e j).map (fun p => 1 - p.weight * dvar p) =
        (both j1 j2 d e j).map (fun p => p.weight * addedVar p) := by
      apply List.map_congr_left
      intro q hq
      have hw := hg q hq
      have hi := (hok q hq).2 hw
      unfold dvar addedVar
      rw [if_pos ⟨hw, hi⟩]
      field_simp
    have : (coaddPix (both j1 j2 d e j)).weight = lssWeight (coaddPix (both j1 j2 d e j)).ivar
        (((both j1 j2 d e j).map (fun p => 1 - p.weight * dvar p)).sum / dweight (both j1 j2 d e j)) := by
      unfold coaddPix
      dsimp only
      rw [if_pos hW, if_pos hW]
    rw [this, hs]
    rfl

/-- **C28.** A pixel that only one of the two covers is unchanged if it has weight. -/
theorem C28_single_cover (sqrt : K → K) (nan eps : K) {w0 dwave : K} (hd : 0 < dwave) {j1 j2 : Nat}
    {d e t : Delta K} (h1 : DeltaOk w0 dwave j1 d) (h2 : DeltaOk w0 dwave j2 e)
    (ht : d.coadd sqrt nan eps dwave e = .ok t) {j : Nat} {p : DPix K} (hw : 0 < p.weight) :
    (pixAt j1 d.pix j = some p → pixAt j2 e.pix j = none → pixAt (min j1 j2) t.pix j = some p) ∧
    (pixAt j1 d.pix j = none → pixAt j2 e.pix j = some p → pixAt (min j1 j2) t.pix j = some p) := by
  obtain ⟨-, -, -, -, -, -, -, -, hp⟩ := coadd_result sqrt nan eps hd h1 h2 ht
  have p1 := Delta.pix_length h1
  have p2 := Delta.pix_length h2
  constructor
  · intro ha hb
    have hin : min j1 j2 ≤ j ∧ j < max (j1 + d.wave.length) (j2 + e.wave.length) := by
      have : ¬ (pixAt j1 d.pix j = none) := by rw [ha]; simp
      rw [pixAt_eq_none] at this
      omega
    rw [hp j, if_pos hin]
    simp only [both, ha, hb, Option.toList_some, Option.toList_none, List.append_nil]
    rw [coaddPix_single hw ((h1.nonneg p (pixAt_mem ha)).2 hw)]
  · intro ha hb
    have hin : min j1 j2 ≤ j ∧ j < max (j1 + d.wave.length) (j2 + e.wave.length) := by
      have : ¬ (pixAt j2 e.pix j = none) := by rw [hb]; simp
      rw [pixAt_eq_none] at this
      omega
    rw [hp j, if_pos hin]
    simp only [both, ha, hb, Option.toList_some, Option.toList_none, List.nil_append]
    rw [coaddPix_single hw ((h2.nonneg p (pixAt_mem hb)).2 hw)]

/-- **C28, partial.** If one of the two has zero weight in a pixel, delta, ivar and continuum of the
other are kept. Missing: the weight is not kept, it is halved (the masked pixel adds 1 to the sum of
`1 - weight * var`), see `C28_masked_weight_refuted`. -/
theorem C28_masked_partner_partial (sqrt : K → K) (nan eps : K) {w0 dwave : K} (hd : 0 < dwave)
    {j1 j2 : Nat} {d e t : Delta K} (h1 : DeltaOk w0 dwave j1 d) (h2 : DeltaOk w0 dwave j2 e)
    (ht : d.coadd sqrt nan eps dwave e = .ok t) {j : Nat} {p q : DPix K}
    (hp : pixAt j1 d.pix j = some p) (hq : pixAt j2 e.pix j = some q)
    (hw : 0 < p.weight ∧ q.weight = 0 ∨ p.weight = 0 ∧ 0 < q.weight) :
    ∃ r, pixAt (min j1 j2) t.pix j = some r ∧
      (0 < p.weight → r.delta = p.delta ∧ r.ivar = p.ivar ∧ r.cont = p.cont ∧
        r.weight = p.weight / 2) ∧
      (0 < q.weight → r.delta = q.delta ∧ r.ivar = q.ivar ∧ r.cont = q.cont ∧
        r.weight = q.weight / 2) := by
  obtain ⟨-, -, -, -, -, -, -, -, hpx⟩ := coadd_result sqrt nan eps hd h1 h2 ht
  have p1 := Delta.pix_length h1
  have hin : min j1 j2 ≤ j ∧ j < max (j1 + d.wave.length) (j2 + e.wave.length) := by
    have : ¬ (pixAt j1 d.pix j = none) := by rw [hp]; simp
    rw [pixAt_eq_none] at this
    omega
  refine ⟨_, by rw [hpx j, if_pos hin], ?_⟩
  have hb : both j1 j2 d e j = [p, q] := by simp [both, hp, hq]
  rw [hb]
  rcases hw with ⟨a, b⟩ | ⟨a, b⟩
  · rw [coaddPix_masked a ((h1.nonneg p (pixAt_mem hp)).2 a) b]
    exact ⟨fun _ => ⟨rfl, rfl, rfl, rfl⟩, fun h => absurd h (by rw [b]; exact lt_irrefl _)⟩
  · rw [coaddPix_perm (List.Perm.swap q p []),
      coaddPix_masked b ((h2.nonneg q (pixAt_mem hq)).2 b) a]
    exact ⟨fun h => absurd h (by rw [a]; exact lt_irrefl _), fun _ => ⟨rfl, rfl, rfl, rfl⟩⟩

/-- **C28.** For two deltas the order does not matter: every pixel is the same. -/
theorem C28_comm (sqrt : K → K) (nan eps : K) {w0 dwave : K} (hd : 0 < dwave)
    {j1 j2 : Nat} {d e t u : Delta K} (h1 : DeltaOk w0 dwave j1 d) (h2 : DeltaOk w0 dwave j2 e)
    (ht : d.coadd sqrt nan eps dwave e = .ok t) (hu : e.coadd sqrt nan eps dwave d = .ok u) (j : Nat) :
    pixAt (min j1 j2) t.pix j = pixAt (min j1 j2) u.pix j := by
  obtain ⟨-, -, -, -, -, -, -, -, hp⟩ := coadd_result sqrt nan eps hd h1 h2 ht
  obtain ⟨-, -, -, -, -, -, -, -, hq⟩ := coadd_result sqrt nan eps hd h2 h1 hu
  rw [min_comm j2 j1, max_comm (j2 + e.wave.length)] at hq
  rw [hp j, hq j]
  have : (both j1 j2 d e j).Perm (both j2 j1 e d j) := List.perm_append_comm
  rw [coaddPix_perm this]

/-- **C28, partial.** Any sequence of deltas that have weight equal to ivar (no added variance) and no
masked pixel, all covering some common wavelength: the result has in every pixel the inverse variance
average of all of them; it is there exactly if one of them covers it. Missing: with added variance or
masked pixels the result depends on the order, see `C28_not_associative`. -/
theorem C28_sequence_partial (sqrt : K → K) (nan eps : K) {w0 dwave : K} (hd : 0 < dwave) {m : Nat}
    {j0 : Nat} {d : Delta K} {l : List (Nat × Delta K)}
    (h : ∀ x ∈ (j0, d) :: l, GoodDelta w0 dwave m x.1 x.2) :
    ∃ t jt, (l.map Prod.snd).foldlM (fun a b => a.coadd sqrt nan eps dwave b) d = .ok t ∧
      (∀ x ∈ (j0, d) :: l, jt ≤ x.1) ∧ (∃ x ∈ (j0, d) :: l, jt = x.1) ∧
      OnGridFrom w0 dwave jt t.wave ∧ t.pix.length = t.wave.length ∧
      ∀ j, pixAt jt t.pix j = agg (allAt ((j0, d) :: l) j) := by
  obtain ⟨t, ht, g, -, hp⟩ := coadd_seq sqrt nan eps hd l (fun x hx => h x (by simp [hx]))
    (h (j0, d) (by simp))
  refine ⟨t, _, ht, ?_, ?_, g.ok.grid, Delta.pix_length g.ok, hp⟩
  · clear h ht g hp
    have key : ∀ (l : List (Nat × Delta K)) (a : Nat), l.foldl (fun a x => min a x.1) a ≤ a ∧
        ∀ x ∈ l, l.foldl (fun a x => min a x.1) a ≤ x.1 := by
      intro l
      induction l with
      | nil => intro a; simp
      | cons y l ih =>
        intro a
        rw [List.foldl_cons]
        have := ih (min a y.1)
        refine ⟨this.1.trans (min_le_left _ _), fun x hx => ?_⟩
        rcases List.mem_cons.mp hx with rfl | hx
        · exact this.1.trans (min_le_right _ _)
        · exact this.2 x hx
    intro x hx
    rcases List.mem_cons.mp hx with rfl | hx
    · exact (key l _).1
    · exact (key l _).2 x hx
  · clear h ht g hp
    have key : ∀ (l : List (Nat × Delta K)) (a : Nat), l.foldl (fun a x => min a x.1) a = a ∨
        ∃ x ∈ l, l.foldl (fun a x => min a x.1) a = x.1 := by
      intro l
      induction l with
      | nil => intro a; simp
      | cons y l ih =>
        intro a
        rw [List.foldl_cons]
        rcases ih (min a y.1) with h | ⟨x, hx, h⟩
        · rw [h]
          rcases min_choice a y.1 with h' | h'
          · exact Or.inl h'
          · exact Or.inr ⟨y, by simp, h'⟩
        · exact Or.inr ⟨x, by simp [hx], h⟩
    rcases key l j0 with h | ⟨x, hx, h⟩
    · exact ⟨(j0, d), by simp, h⟩
    · exact ⟨x, by simp [hx], h⟩

/-- **C28, partial.** So for such deltas any other order gives the same pixels. -/
theorem C28_order_partial (sqrt : K → K) (nan eps : K) {w0 dwave : K} (hd : 0 < dwave) {m : Nat}
    {x y : Nat × Delta K} {l l' : List (Nat × Delta K)} (hperm : (x :: l).Perm (y :: l'))
    (h : ∀ z ∈ x :: l, GoodDelta w0 dwave m z.1 z.2) {t u : Delta K}
    (ht : (l.map Prod.snd).foldlM (fun a b => a.coadd sqrt nan eps dwave b) x.2 = .ok t)
    (hu : (l'.map Prod.snd).foldlM (fun a b => a.coadd sqrt nan eps dwave b) y.2 = .ok u) :
    ∃ jt, OnGridFrom w0 dwave jt t.wave ∧ OnGridFrom w0 dwave jt u.wave ∧
      ∀ j, pixAt jt t.pix j = pixAt jt u.pix j := by
  obtain ⟨t', jt, ht', a1, ⟨b1, hb1, rfl⟩, g1, -, p1⟩ :=
    C28_sequence_partial sqrt nan eps hd (j0 := x.1) (d := x.2) (l := l) h
  obtain ⟨u', ju, hu', a2, ⟨b2, hb2, rfl⟩, g2, -, p2⟩ :=
    C28_sequence_partial sqrt nan eps hd (j0 := y.1) (d := y.2) (l := l')
      (fun z hz => h z (hperm.symm.subset hz))
  rw [ht] at ht'
  rw [hu] at hu'
  cases ht'
  cases hu'
  have e : b1.1 = b2.1 := le_antisymm (a1 b2 (hperm.symm.subset hb2)) (a2 b1 (hperm.subset hb1))
  refine ⟨b1.1, g1, e ▸ g2, fun j => ?_⟩
  rw [p1 j, e, p2 j]
  have hp : (allAt (x :: l) j).Perm (allAt (y :: l') j) := hperm.flatMap_right _
  unfold agg
  by_cases h0 : allAt (x :: l) j = []
  · have h0' : allAt (y :: l') j = [] := by rw [h0] at hp; exact hp.symm.eq_nil
    rw [if_pos h0, if_pos h0']
  · have h0' : ¬ allAt (y :: l') j = [] := by
      intro hc; rw [hc] at hp; exact h0 hp.eq_nil
    rw [if_neg h0, if_neg h0']
    unfold ivarMean dmean dweight
    simp only [(hp.map _).sum_eq]

/-- **C28.** The resolution: every entry is the weighted mean of the (centred) rows of the deltas that
cover the pixel, with weight `eps` for masked pixels. -/
theorem C28_resolution (sqrt : K → K) (nan eps : K) {w0 dwave : K} (hd : 0 < dwave) {j1 j2 : Nat}
    {d e : Delta K} (h1 : DeltaOk w0 dwave j1 d) (h2 : DeltaOk w0 dwave j2 e) {rd re : List (List K)}
    (hrd : d.reso = some rd) (hre : e.reso = some re)
    (fd : ∀ r ∈ rd, r.length = d.wave.length) (fe : ∀ r ∈ re, r.length = e.wave.length)
    (hpar : rd.length % 2 = re.length % 2) :
    ∃ t rt, d.coadd sqrt nan eps dwave e = .ok t ∧ t.reso = some rt ∧
      rt.length = max rd.length re.length ∧
      ∀ r j row, rt[r]? = some row → min j1 j2 ≤ j →
        j < max (j1 + d.wave.length) (j2 + e.wave.length) →
        let l := bothReso eps (max rd.length re.length) r j1 j2 (resoArm d rd) (resoArm e re) j
        pixAt (min j1 j2) row j = some (if sumWeight l = 0 then nan else meanFlux l) := by
  obtain ⟨lo, hi, hlo, hhi, hu, hv, hform⟩ := coadd_form sqrt nan eps hd h1 h2
  rw [hform, coaddDeltaReso_ok hd nan eps h1 h2 hlo hu hv (le_refl _) hrd hre fd fe hpar]
  refine ⟨_, _, rfl, rfl, by simp, ?_⟩
  intro r j row hrow hj1 hj2
  have hr : r < max rd.length re.length := by
    have := (List.getElem?_eq_some_iff.mp hrow).1
    simpa using this
  rw [List.getElem?_map, List.getElem?_range hr] at hrow
  simp only [Option.map_some, Option.some.injEq] at hrow
  subst hrow
  rw [pixAt_range (P := fun j =>
    let l := bothReso eps (max rd.length re.length) r j1 j2 (resoArm d rd) (resoArm e re) j
    if sumWeight l = 0 then nan else meanFlux l), if_pos (by omega)]

omit [FloorRing K] in
theorem coaddPix_weight_le {l : List (DPix K)} (h : ∀ p ∈ l, 0 ≤ p.weight ∧ p.weight ≤ p.ivar) :
    0 ≤ (coaddPix l).weight ∧ (coaddPix l).weight ≤ (coaddPix l).ivar := by
  have hok : PixOk l := fun p hp => ⟨(h p hp).1, fun hw => hw.trans_le (h p hp).2⟩
  rcases (dweight_nonneg hok).eq_or_lt with h0 | hW
  · rw [coaddPix_zero hok h0.symm]; simp
  have hi := (coaddPix_pos hok hW).2.2.2
  have hq : 0 ≤ (l.map (fun p => 1 - p.weight * dvar p)).sum := by
    apply List.sum_nonneg
    intro x hx
    obtain ⟨p, hp, rfl⟩ := List.mem_map.mp hx
    unfold dvar
    split
    · rename_i hc
      have : p.weight * (1 / p.ivar) ≤ 1 := by
        rw [mul_one_div, div_le_one hc.2]; exact (h p hp).2
      linarith
    · simp
  have hwt : (coaddPix l).weight = lssWeight (coaddPix l).ivar
      ((l.map (fun p => 1 - p.weight * dvar p)).sum / dweight l) := by
    unfold coaddPix
    dsimp only
    rw [if_pos hW, if_pos hW]
  have hL : 0 ≤ (l.map (fun p => 1 - p.weight * dvar p)).sum / dweight l := by positivity
  rw [hwt]
  unfold lssWeight
  have : 0 ≤ (coaddPix l).ivar * ((l.map (fun p => 1 - p.weight * dvar p)).sum / dweight l) := by
    positivity
  constructor
  · positivity
  · apply div_le_self hi.le
    linarith

/-- **C67, partial.** If in both deltas every weight is at most the ivar, the same holds for the coadded
delta and no weight is negative, so it can be coadded again. Missing: weights made with smoothed ivar
can exceed the ivar of the pixel, then a coadded weight can be negative, see
`C67_negative_weight_refuted`. -/
theorem C67_weights_partial (sqrt : K → K) (nan eps : K) {w0 dwave : K} (hd : 0 < dwave) {j1 j2 : Nat}
    {d e t : Delta K} (h1 : DeltaOk w0 dwave j1 d) (h2 : DeltaOk w0 dwave j2 e)
    (g1 : ∀ p ∈ d.pix, p.weight ≤ p.ivar) (g2 : ∀ p ∈ e.pix, p.weight ≤ p.ivar)
    (ht : d.coadd sqrt nan eps dwave e = .ok t) :
    DeltaOk w0 dwave (min j1 j2) t ∧ ∀ p ∈ t.pix, 0 ≤ p.weight ∧ p.weight ≤ p.ivar := by
  obtain ⟨g, l, l1, l2, l3, l4, -, -, hp⟩ := coadd_result sqrt nan eps hd h1 h2 ht
  have key : ∀ p ∈ t.pix, 0 ≤ p.weight ∧ p.weight ≤ p.ivar := by
    intro p hpm
    obtain ⟨i, hi⟩ := List.mem_iff_getElem?.mp hpm
    have h := hp (min j1 j2 + i)
    have e0 : pixAt (min j1 j2) t.pix (min j1 j2 + i) = some p := by
      unfold pixAt
      rw [if_pos (by omega), Nat.add_sub_cancel_left, hi]
    rw [e0] at h
    split at h
    · rw [Option.some.injEq] at h
      rw [h]
      apply coaddPix_weight_le
      intro q hq
      simp only [both, List.mem_append, Option.mem_toList] at hq
      rcases hq with hq | hq
      · exact ⟨(h1.nonneg q (pixAt_mem hq)).1, g1 q (pixAt_mem hq)⟩
      · exact ⟨(h2.nonneg q (pixAt_mem hq)).1, g2 q (pixAt_mem hq)⟩
    · simp at h
  have n1 := List.length_pos_of_ne_nil h1.nonempty
  refine ⟨⟨?_, pairwise_of_onGrid hd g, g, l1, l2, l3, l4, fun p hpm => ?_⟩, key⟩
  · apply List.ne_nil_of_length_pos; omega
  · have := key p hpm
    exact ⟨this.1, fun hw => hw.trans_le this.2⟩

/-! ### Cases -/

/-- A delta on the grid `100, 101, ...`. -/
def c28Delta (j : Nat) (l : List (DPix ℚ)) : Delta ℚ :=
  { header := [("TARGETID", .int 7)], targetid := .int 7, meanSnr := .num 1
    wave := (List.range l.length).map (fun i : Nat => 100 + ((j + i : Nat) : ℚ)), blinded := false
    delta := l.map (fun p => p.delta), ivar := l.map (fun p => p.ivar)
    weight := l.map (fun p => p.weight), cont := l.map (fun p => p.cont), reso := none }

theorem c28Delta_pix (j : Nat) (l : List (DPix ℚ)) : (c28Delta j l).pix = l := by
  unfold Delta.pix c28Delta
  simp only [List.zip_map', List.zipWith_map, List.zipWith_self]
  simp

theorem c28Delta_ok (j : Nat) {l : List (DPix ℚ)} (hl : l ≠ [])
    (h : ∀ p ∈ l, 0 ≤ p.weight ∧ (0 < p.weight → 0 < p.ivar)) : DeltaOk 100 1 j (c28Delta j l) := by
  have g : OnGridFrom (100 : ℚ) 1 j (c28Delta j l).wave := by
    intro i w hw
    simp only [c28Delta, List.getElem?_map, Option.map_eq_some_iff] at hw
    obtain ⟨a, ha, rfl⟩ := hw
    have ha' := List.getElem?_eq_some_iff.mp ha
    obtain ⟨hlt, hget⟩ := ha'
    rw [List.getElem_range] at hget
    subst hget
    norm_num
  refine ⟨?_, pairwise_of_onGrid one_pos g, g, ?_, ?_, ?_, ?_, ?_⟩
  · unfold c28Delta; simpa using hl
  · simp [c28Delta]
  · simp [c28Delta]
  · simp [c28Delta]
  · simp [c28Delta]
  · rw [c28Delta_pix]; exact h

/-- Two deltas: three pixels from number 0, two from number 2; pixel 2 is shared and masked in the
second. -/
def c28A : Delta ℚ := c28Delta 0 [⟨1, 2, 1, 1⟩, ⟨0, 0, 0, 1⟩, ⟨1 / 2, 2, 1, 3⟩]
def c28B : Delta ℚ := c28Delta 2 [⟨0, 0, 0, 5⟩, ⟨1 / 4, 4, 2, 7⟩]

example : DeltaOk 100 1 0 c28A ∧ DeltaOk 100 1 2 c28B ∧ ResoMatch c28A c28B ∧
    (∀ p ∈ c28A.pix, p.weight ≤ p.ivar) ∧ (∀ p ∈ c28B.pix, p.weight ≤ p.ivar) ∧
    pixAt 0 c28A.pix 2 = some ⟨1 / 2, 2, 1, 3⟩ ∧ pixAt 2 c28B.pix 2 = some ⟨0, 0, 0, 5⟩ ∧
    pixAt 0 c28A.pix 3 = none :=
  ⟨c28Delta_ok 0 (by simp) (by decide +kernel), c28Delta_ok 2 (by simp) (by decide +kernel),
    Or.inl rfl, by decide +kernel, by decide +kernel, by decide +kernel, by decide +kernel,
    by decide +kernel⟩

/-- Their coadd: pixel 2 of the result has lost half of its weight. -/
example : (c28A.coadd id 0 (1 / 100) 1 c28B).toOption.map (fun t => (t.wave, t.pix)) =
    some ([100, 101, 102, 103],
      [⟨1, 2, 1, 1⟩, ⟨0, 0, 0, 0⟩, ⟨1 / 2, 2, 1 / 2, 3⟩, ⟨1 / 4, 4, 2, 7⟩]) := by decide +kernel

/-- **C28, refuted.** A pixel in which the other delta has zero weight does not keep its weight. -/
theorem C28_masked_weight_refuted : ∃ d e t : Delta ℚ, ∃ p q r,
    DeltaOk 100 1 0 d ∧ DeltaOk 100 1 2 e ∧ d.coadd id 0 (1 / 100) 1 e = .ok t ∧
    pixAt 0 d.pix 2 = some p ∧ pixAt 2 e.pix 2 = some q ∧ q.weight = 0 ∧ 0 < p.weight ∧
    pixAt 0 t.pix 2 = some r ∧ r.weight ≠ p.weight := by
  have h1 : DeltaOk 100 1 0 c28A := c28Delta_ok 0 (by simp) (by decide +kernel)
  have h2 : DeltaOk 100 1 2 c28B := c28Delta_ok 2 (by simp) (by decide +kernel)
  obtain ⟨t, ht, -⟩ := C28_union_grid id 0 (1 / 100) one_pos h1 h2 (Or.inl rfl)
  have hp : pixAt 0 c28A.pix 2 = some ⟨1 / 2, 2, 1, 3⟩ := by decide +kernel
  have hq : pixAt 2 c28B.pix 2 = some ⟨0, 0, 0, 5⟩ := by decide +kernel
  obtain ⟨r, hr, hr1, -⟩ := C28_masked_partner_partial id 0 (1 / 100) one_pos h1 h2 ht hp hq
    (Or.inl ⟨by norm_num, rfl⟩)
  refine ⟨c28A, c28B, t, _, _, r, h1, h2, ht, hp, hq, rfl, by norm_num, hr, ?_⟩
  rw [(hr1 (by norm_num)).2.2.2]
  norm_num

/-- Three deltas of one pixel with added variance. -/
def c28One (x : ℚ) : Delta ℚ := c28Delta 0 [⟨x, 1, 1 / 2, 1⟩]

/-- **C28, refuted.** With added variance the result of three deltas depends on the order. -/
theorem C28_not_associative : ∃ a b c s t : Delta ℚ,
    DeltaOk 100 1 0 a ∧ DeltaOk 100 1 0 b ∧ DeltaOk 100 1 0 c ∧
    [b, c].foldlM (fun x y : Delta ℚ => x.coadd id 0 (1 / 100) 1 y) a = .ok s ∧
    [c, a].foldlM (fun x y : Delta ℚ => x.coadd id 0 (1 / 100) 1 y) b = .ok t ∧ s.delta ≠ t.delta := by
  have ok : ∀ x, DeltaOk 100 1 0 (c28One x) := fun x => c28Delta_ok 0 (by simp) (by simp)
  have w1 : ([c28One 0, c28One 0].foldlM (fun x y : Delta ℚ => x.coadd id 0 (1 / 100) 1 y)
      (c28One 1)).toOption.map (fun t => t.delta) = some [2 / 7] := by decide +kernel
  have w2 : ([c28One 0, c28One 1].foldlM (fun x y : Delta ℚ => x.coadd id 0 (1 / 100) 1 y)
      (c28One 0)).toOption.map (fun t => t.delta) = some [3 / 7] := by decide +kernel
  cases h1 : [c28One 0, c28One 0].foldlM (fun x y : Delta ℚ => x.coadd id 0 (1 / 100) 1 y) (c28One 1) with
  | error x => rw [h1] at w1; simp [Except.toOption] at w1
  | ok s =>
    cases h2 : [c28One 0, c28One 1].foldlM (fun x y : Delta ℚ => x.coadd id 0 (1 / 100) 1 y) (c28One 0) with
    | error x => rw [h2] at w2; simp [Except.toOption] at w2
    | ok t =>
      rw [h1] at w1
      rw [h2] at w2
      simp only [Except.toOption, Option.map_some, Option.some.injEq] at w1 w2
      refine ⟨_, _, _, s, t, ok 1, ok 0, ok 0, h1, h2, ?_⟩
      rw [w1, w2]
      norm_num

/-- Good deltas for the theorems on sequences. -/
example : ∃ l : List (Nat × Delta ℚ), 3 ≤ l.length ∧ (∀ x ∈ l, GoodDelta 100 1 2 x.1 x.2) ∧
    ∃ x ∈ l, ∃ y ∈ l, x.1 ≠ y.1 := by
  refine ⟨[(1, c28Delta 1 [⟨1, 2, 2, 1⟩, ⟨1 / 2, 1, 1, 1⟩]), (2, c28Delta 2 [⟨1, 3, 3, 1⟩]),
    (0, c28Delta 0 [⟨1, 2, 2, 1⟩, ⟨1, 1, 1, 1⟩, ⟨1, 1, 1, 4⟩])], by decide, ?_,
    _, List.mem_cons_self, _, List.mem_cons_of_mem _ List.mem_cons_self, by decide⟩
  have key : ∀ (j : Nat) (l : List (DPix ℚ)), j ≤ 2 → 2 < j + l.length →
      (∀ p ∈ l, 0 < p.ivar ∧ p.weight = p.ivar) → GoodDelta 100 1 2 j (c28Delta j l) := by
    intro j l h1 h2 h
    refine ⟨c28Delta_ok j (by rintro rfl; simp at h2; omega) (fun p hp => ?_), ?_, rfl, h1, ?_⟩
    · have := h p hp
      exact ⟨by rw [this.2]; exact this.1.le, fun _ => this.1⟩
    · rw [c28Delta_pix]; exact h
    · simpa [c28Delta] using h2
  intro x hx
  simp only [List.mem_cons, List.not_mem_nil, or_false] at hx
  rcases hx with rfl | rfl | rfl
  · exact key 1 _ (by omega) (by decide) (by decide +kernel)
  · exact key 2 _ (by omega) (by decide) (by decide +kernel)
  · exact key 0 _ (by omega) (by decide) (by decide +kernel)

/-- Deltas with resolution matrices of one and three rows. -/
example : ∃ d e : Delta ℚ, ∃ rd re, DeltaOk 100 1 0 d ∧ DeltaOk 100 1 1 e ∧ d.reso = some rd ∧
    e.reso = some re ∧ (∀ r ∈ rd, r.length = d.wave.length) ∧
    (∀ r ∈ re, r.length = e.wave.length) ∧ rd.length % 2 = re.length % 2 ∧ rd.length ≠ re.length ∧
    (d.coadd id 0 (1 / 100) 1 e).toOption.map (fun t => t.reso) =
      some (some [[0, 5, 10], [1, 11 / 2, 9], [0, 3, 6]]) := by
  refine ⟨{ c28Delta 0 [⟨1, 2, 2, 1⟩, ⟨1 / 2, 1, 1, 1⟩] with reso := some [[1, 2]] },
    { c28Delta 1 [⟨1, 2, 1, 1⟩, ⟨1 / 2, 1, 1, 1⟩] with reso := some [[10, 10], [9, 9], [6, 6]] },
    [[1, 2]], [[10, 10], [9, 9], [6, 6]], ?_, ?_, rfl, rfl, by decide +kernel, by decide +kernel,
    by decide, by decide, by decide +kernel⟩
  · have := c28Delta_ok 0 (l := [⟨1, 2, 2, 1⟩, ⟨1 / 2, 1, 1, 1⟩]) (by simp) (by decide +kernel)
    exact ⟨this.1, this.2, this.3, this.4, this.5, this.6, this.7, this.8⟩
  · have := c28Delta_ok 1 (l := [⟨1, 2, 1, 1⟩, ⟨1 / 2, 1, 1, 1⟩]) (by simp) (by decide +kernel)
    exact ⟨this.1, this.2, this.3, this.4, this.5, this.6, this.7, this.8⟩

/-- **C67, refuted.** With a weight above the ivar of the pixel the coadded weight can be negative. -/
theorem C67_negative_weight_refuted : ∃ d e t : Delta ℚ, DeltaOk 100 1 0 d ∧ DeltaOk 100 1 0 e ∧
    d.coadd id 0 (1 / 100) 1 e = .ok t ∧ ∃ p ∈ t.pix, p.weight < 0 := by
  have h1 : DeltaOk 100 1 0 (c28Delta 0 [⟨0, 1 / 4, 1, 1⟩]) := c28Delta_ok 0 (by simp) (by decide +kernel)
  have h2 : DeltaOk 100 1 0 (c28Delta 0 [⟨0, 1, 1, 1⟩]) := c28Delta_ok 0 (by simp) (by decide +kernel)
  obtain ⟨t, ht, -⟩ := C28_union_grid id 0 (1 / 100) one_pos h1 h2 (Or.inl rfl)
  refine ⟨_, _, t, h1, h2, ht, ⟨0, 4 / 5, -4, 1⟩, ?_, by norm_num⟩
  have : ((c28Delta 0 [⟨0, 1 / 4, 1, 1⟩]).coadd id 0 (1 / 100) 1
      (c28Delta 0 [⟨0, 1, 1, 1⟩])).toOption.map (fun t => t.pix) = some [⟨0, 4 / 5, -4, 1⟩] := by
    decide +kernel
  rw [ht] at this
  simp only [Except.toOption, Option.map_some, Option.some.injEq] at this
  rw [this]
  simp

end Verif.Props
