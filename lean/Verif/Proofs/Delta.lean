import Verif.Spec.Delta
import Verif.Proofs.CoaddReso
import Mathlib.Tactic.Positivity

/-! Lemmas about coadding deltas. -/

namespace Verif.Proofs
open Verif.Np Verif.Model Verif.Spec List

variable {K : Type} [Field K] [LinearOrder K] [IsStrictOrderedRing K] [FloorRing K]

omit [LinearOrder K] [IsStrictOrderedRing K] [FloorRing K] in
theorem addSlice_ok {n i0 : Nat} (F : Nat → K) {v : List K} (h : i0 + v.length ≤ n) :
    addSlice ((List.range n).map F) i0 v =
      .ok ((List.range n).map (fun k => F k + if i0 ≤ k then v.getD (k - i0) 0 else 0)) := by
  unfold addSlice
  rw [if_pos (by simpa using h)]
  congr 1
  apply List.ext_getElem?
  intro k
  by_cases h1 : k < i0
  · rw [List.append_assoc, List.getElem?_append_left (by simp; omega), List.getElem?_take]
    simp [h1, show k < n by omega, show ¬ i0 ≤ k by omega]
  · have hl1 : ((((List.range n).map F).take i0) ++ List.zipWith (· + ·)
        (slice ((List.range n).map F) i0 (i0 + v.length)) v).length = i0 + v.length := by
      simp [slice]; omega
    by_cases h2 : k < i0 + v.length
    · rw [List.getElem?_append_left (by omega),
        List.getElem?_append_right (by simp; omega)]
      have hmin : ((List.range n).map F |>.take i0).length = i0 := by simp; omega
      rw [hmin, List.getElem?_zipWith]
      unfold slice
      rw [List.getElem?_drop, List.getElem?_take, if_pos (by omega)]
      have e : i0 + (k - i0) = k := by omega
      rw [e]
      have hv : k - i0 < v.length := by omega
      rw [List.getElem?_eq_getElem hv]
      simp only [List.getElem?_map, show k < n by omega, List.getElem?_range, Option.map_some]
      rw [if_pos (by omega), List.getD_eq_getElem _ _ hv]
    · rw [List.getElem?_append_right (by omega), hl1, List.getElem?_drop]
      have e : i0 + v.length + (k - (i0 + v.length)) = k := by omega
      rw [e]
      by_cases h3 : k < n
      · simp only [List.getElem?_map, h3, List.getElem?_range, Option.map_some]
        rw [if_pos (by omega), List.getD_eq_default _ _ (by omega), add_zero]
      · rw [List.getElem?_eq_none (by simp; omega), List.getElem?_eq_none (by simp; omega)]

theorem getD_map_pixAt {α : Type} (f : α → K) (l : List α) (i0 k : Nat) :
    (if i0 ≤ k then (l.map f).getD (k - i0) 0 else 0) = ((pixAt i0 l k).toList.map f).sum := by
  unfold pixAt
  split
  · rw [List.getD_eq_getElem?_getD, List.getElem?_map]
    cases l[k - i0]? <;> simp
  · simp

theorem Delta.pix_length {w0 dwave : K} {j : Nat} {d : Delta K} (h : DeltaOk w0 dwave j d) :
    d.pix.length = d.wave.length := by
  unfold Delta.pix
  simp [h.delta, h.ivar, h.weight, h.cont]

/-- Offset of a delta on the grid. -/
theorem offset_eq {w0 dwave lo w : K} {j0 j : Nat} (hd : 0 < dwave)
    (hlo : |lo - (w0 + (j0 : K) * dwave)| < dwave / 20) (hj : j0 ≤ j)
    (hw : |w - (w0 + (j : K) * dwave)| < dwave / 20) (hle : lo ≤ w) :
    (truncInt ((w - lo) / dwave + 1 / 10)).toNat = j - j0 := by
  have h1 := coaddIdx_eq_iff hd hle (j - j0)
  have : InCell lo dwave (j - j0) w := by
    obtain ⟨i, rfl⟩ := Nat.exists_eq_add_of_le hj
    rw [abs_lt] at hlo hw
    push_cast at hw
    have e : ∀ m : K, ∀ x : K, (m + x) * dwave = m * dwave + x * dwave := fun m x => by ring
    have e2 : ((j0 + i - j0 : Nat) : K) = (i : K) := by congr 1; omega
    unfold InCell
    rw [e2]
    constructor <;> linarith
  have := h1.mpr this
  unfold coaddIdx at this
  rw [this]
  simp

theorem daccStep_ok {w0 dwave lo : K} {j0 j n : Nat} (hd : 0 < dwave)
    (hlo : |lo - (w0 + (j0 : K) * dwave)| < dwave / 20) (hj : j0 ≤ j) {d : Delta K}
    (h : DeltaOk w0 dwave j d) (hle : ∀ w ∈ d.wave, lo ≤ w) (hn : j - j0 + d.wave.length ≤ n)
    (A B C D E : Nat → K) :
    daccStep lo dwave ⟨(List.range n).map A, (List.range n).map B, (List.range n).map C,
      (List.range n).map D, (List.range n).map E⟩ d =
    .ok ⟨(List.range n).map (fun k => A k +
            ((pixAt (j - j0) d.pix k).toList.map (fun p => p.weight * p.delta)).sum),
         (List.range n).map (fun k => B k +
            ((pixAt (j - j0) d.pix k).toList.map (fun p => p.weight * p.cont)).sum),
         (List.range n).map (fun k => C k +
            ((pixAt (j - j0) d.pix k).toList.map (fun p => p.weight ^ 2 * dvar p)).sum),
         (List.range n).map (fun k => D k +
            ((pixAt (j - j0) d.pix k).toList.map (fun p => 1 - p.weight * dvar p)).sum),
         (List.range n).map (fun k => E k +
            ((pixAt (j - j0) d.pix k).toList.map (fun p => p.weight)).sum)⟩ := by
  obtain ⟨w, ws, hw⟩ := List.exists_cons_of_ne_nil h.nonempty
  have h0 : firstElem d.wave = .ok w := by rw [hw]; rfl
  have hoff : (truncInt ((w - lo) / dwave + 1 / 10)).toNat = j - j0 :=
    offset_eq hd hlo hj (by simpa using h.grid 0 w (by rw [hw]; rfl)) (hle w (by rw [hw]; simp))
  have hlen : ∀ f : DPix K → K, j - j0 + (d.pix.map f).length ≤ n := by
    intro f
    rw [List.length_map, Delta.pix_length h]
    exact hn
  unfold daccStep
  rw [h0, except_bind_ok]
  dsimp only
  rw [hoff, addSlice_ok _ (hlen _), except_bind_ok, addSlice_ok _ (hlen _), except_bind_ok,
    addSlice_ok _ (hlen _), except_bind_ok, addSlice_ok _ (hlen _), except_bind_ok,
    addSlice_ok _ (hlen _), except_bind_ok, except_pure]
  simp only [getD_map_pixAt]

/-- The last wavelength and its grid number. -/
theorem last_on_grid {w0 dwave : K} {j : Nat} {wave : List K} (hg : OnGridFrom w0 dwave j wave)
    {x : K} (hx : wave.getLast? = some x) :
    |x - (w0 + ((j + (wave.length - 1) : Nat) : K) * dwave)| < dwave / 20 := by
  refine hg _ _ ?_
  rw [← hx, List.getLast?_eq_getElem?]

theorem lt_of_onGrid {w0 dwave : K} (hd : 0 < dwave) {a b : K} {i j : Nat}
    (ha : |a - (w0 + (i : K) * dwave)| < dwave / 20) (hb : |b - (w0 + (j : K) * dwave)| < dwave / 20)
    (h : i < j) : a < b := by
  obtain ⟨m, rfl⟩ := Nat.exists_eq_add_of_lt h
  rw [abs_lt] at ha hb
  push_cast at hb
  have hm : (0 : K) ≤ (m : K) * dwave := by positivity
  have e : (((i : K) + (m : K) + 1) * dwave) = (i : K) * dwave + (m : K) * dwave + dwave := by ring
  rw [e] at hb
  linarith

/-- The grid of two deltas. -/
theorem forestGrid_two {w0 dwave : K} (hd : 0 < dwave) {u v : List K} {j1 j2 : Nat}
    (hu : u ≠ []) (hv : v ≠ []) (su : u.Pairwise (· < ·)) (sv : v.Pairwise (· < ·))
    (gu : OnGridFrom w0 dwave j1 u) (gv : OnGridFrom w0 dwave j2 v) :
    ∃ lo hi, forestGrid dwave [u, v] =
        .ok (lo, hi, max (j1 + u.length) (j2 + v.length) - min j1 j2) ∧
      |lo - (w0 + ((min j1 j2 : Nat) : K) * dwave)| < dwave / 20 ∧
      |hi - (w0 + ((max (j1 + u.length) (j2 + v.length) - 1 : Nat) : K) * dwave)| < dwave / 20 ∧
      (∀ w ∈ u, lo ≤ w ∧ w ≤ hi) ∧ (∀ w ∈ v, lo ≤ w ∧ w ≤ hi) := by
  have lu : 0 < u.length := List.length_pos_of_ne_nil hu
  have lv : 0 < v.length := List.length_pos_of_ne_nil hv
  obtain ⟨lo, hi, n, hg, ⟨la, hla, hlo⟩, ⟨lb, hlb, hhi⟩, hin, hn, -⟩ :=
    forestGrid_ok hd (waves := [u, v]) (by simp) (by simp [hu, hv]) (by simp [su, sv])
  have inu := hin u (by simp)
  have inv := hin v (by simp)
  -- the first elements
  obtain ⟨u0, us, rfl⟩ := List.exists_cons_of_ne_nil hu
  obtain ⟨v0, vs, rfl⟩ := List.exists_cons_of_ne_nil hv
  have gu0 : |u0 - (w0 + (j1 : K) * dwave)| < dwave / 20 := by simpa using gu 0 u0 rfl
  have gv0 : |v0 - (w0 + (j2 : K) * dwave)| < dwave / 20 := by simpa using gv 0 v0 rfl
  obtain ⟨ul, hul⟩ : ∃ x, (u0 :: us).getLast? = some x := ⟨_, List.getLast?_eq_getLast_of_ne_nil hu⟩
  obtain ⟨vl, hvl⟩ : ∃ x, (v0 :: vs).getLast? = some x := ⟨_, List.getLast?_eq_getLast_of_ne_nil hv⟩
  have gul := last_on_grid gu hul
  have gvl := last_on_grid gv hvl
  have lo_num : ∃ i : Nat, |lo - (w0 + (i : K) * dwave)| < dwave / 20 ∧ min j1 j2 ≤ i := by
    simp only [List.mem_cons, List.not_mem_nil, or_false] at hla
    rcases hla with rfl | rfl
    · obtain ⟨i, hi'⟩ := List.mem_iff_getElem?.mp hlo
      exact ⟨j1 + i, gu i lo hi', by omega⟩
    · obtain ⟨i, hi'⟩ := List.mem_iff_getElem?.mp hlo
      exact ⟨j2 + i, gv i lo hi', by omega⟩
  have hlo' : |lo - (w0 + ((min j1 j2 : Nat) : K) * dwave)| < dwave / 20 := by
    obtain ⟨i, hi1, hi2⟩ := lo_num
    have : ¬ min j1 j2 < i := by
      intro hlt
      rcases min_choice j1 j2 with h | h
      · rw [h] at hlt
        have := lt_of_onGrid hd gu0 hi1 hlt
        exact absurd (inu u0 (by simp)).1 (not_le.mpr this)
      · rw [h] at hlt
        have := lt_of_onGrid hd gv0 hi1 hlt
        exact absurd (inv v0 (by simp)).1 (not_le.mpr this)
    have : i = min j1 j2 := by omega
    rw [← this]; exact hi1
  have hi_num : ∃ i : Nat, |hi - (w0 + (i : K) * dwave)| < dwave / 20 ∧
      i ≤ max (j1 + (u0 :: us).length) (j2 + (v0 :: vs).length) - 1 := by
    simp only [List.mem_cons, List.not_mem_nil, or_false] at hlb
    rcases hlb with rfl | rfl
    · obtain ⟨i, hi'⟩ := List.mem_iff_getElem?.mp hhi
      have := (List.getElem?_eq_some_iff.mp hi').1
      exact ⟨j1 + i, gu i hi hi', by omega⟩
    · obtain ⟨i, hi'⟩ := List.mem_iff_getElem?.mp hhi
      have := (List.getElem?_eq_some_iff.mp hi').1
      exact ⟨j2 + i, gv i hi hi', by omega⟩
  have hhi' : |hi - (w0 + ((max (j1 + (u0 :: us).length) (j2 + (v0 :: vs).length) - 1 : Nat) : K) *
      dwave)| < dwave / 20 := by
    obtain ⟨i, hi1, hi2⟩ := hi_num
    have : ¬ i < max (j1 + (u0 :: us).length) (j2 + (v0 :: vs).length) - 1 := by
      intro hlt
      rcases max_choice (j1 + (u0 :: us).length) (j2 + (v0 :: vs).length) with h | h
      · rw [h] at hlt
        have e : j1 + (u0 :: us).length - 1 = j1 + ((u0 :: us).length - 1) := by omega
        rw [e] at hlt
        have := lt_of_onGrid hd hi1 gul hlt
        exact absurd (inu ul (List.mem_of_getLast? hul)).2 (not_le.mpr this)
      · rw [h] at hlt
        have e : j2 + (v0 :: vs).length - 1 = j2 + ((v0 :: vs).length - 1) := by omega
        rw [e] at hlt
        have := lt_of_onGrid hd hi1 gvl hlt
        exact absurd (inv vl (List.mem_of_getLast? hvl)).2 (not_le.mpr this)
    have : i = max (j1 + (u0 :: us).length) (j2 + (v0 :: vs).length) - 1 := by omega
    rw [← this]; exact hi1
  have hlohi : lo ≤ hi := (inu u0 (by simp)).1.trans (inu u0 (by simp)).2
  have hidx := offset_eq hd hlo' (j := max (j1 + (u0 :: us).length) (j2 + (v0 :: vs).length) - 1)
    (by omega) hhi' hlohi
  refine ⟨lo, hi, ?_, hlo', hhi', inu, inv⟩
  rw [hg, hn]
  congr 3
  unfold cellIdx coaddIdx
  rw [hidx]
  omega

omit [FloorRing K] in
/-- The wavelengths of `linspace` are on the grid if both ends are. -/
theorem linspace_onGrid {w0 dwave lo hi : K} {j n : Nat}
    (hlo : |lo - (w0 + (j : K) * dwave)| < dwave / 20)
    (hhi : |hi - (w0 + ((j + n : Nat) : K) * dwave)| < dwave / 20) :
    OnGridFrom w0 dwave j (linspace lo hi (n + 1)) := by
  intro i w hw
  unfold linspace at hw
  rw [List.getElem?_map, Nat.add_sub_cancel] at hw
  by_cases hi' : i < n + 1
  · rw [List.getElem?_range hi'] at hw
    simp only [Option.map_some, Option.some.injEq] at hw
    subst hw
    rcases Nat.eq_zero_or_pos n with hn | hn
    · have : i = 0 := by omega
      subst this
      simpa using hlo
    · have hn' : (0 : K) < (n : K) := by exact_mod_cast hn
      set t : K := (i : K) / (n : K) with ht
      have ht0 : 0 ≤ t := by positivity
      have ht1 : t ≤ 1 := by
        rw [ht, div_le_one hn']
        exact_mod_cast (by omega : i ≤ n)
      have hi_eq : (i : K) = t * n := by rw [ht]; field_simp
      have e1 : (i : K) * ((hi - lo) / (n : K)) = t * (hi - lo) := by rw [ht]; ring
      rw [abs_lt] at hlo hhi ⊢
      push_cast at hhi ⊢
      rw [e1, hi_eq]
      set a := lo - (w0 + (j : K) * dwave) with ha
      set b := hi - (w0 + ((j : K) + (n : K)) * dwave) with hb
      have e2 : lo + t * (hi - lo) - (w0 + ((j : K) + t * n) * dwave) = (1 - t) * a + t * b := by
        rw [ha, hb]; ring
      rw [e2]
      have h1t : 0 ≤ 1 - t := by linarith
      constructor
      · rcases ht0.eq_or_lt with h | h
        · rw [← h]; linarith [hlo.1]
        · nlinarith [mul_lt_mul_of_pos_left hhi.1 h, mul_le_mul_of_nonneg_left hlo.1.le h1t]
      · rcases ht0.eq_or_lt with h | h
        · rw [← h]; linarith [hlo.2]
        · nlinarith [mul_lt_mul_of_pos_left hhi.2 h, mul_le_mul_of_nonneg_left hlo.2.le h1t]
  · rw [List.getElem?_eq_none (by simp; omega)] at hw
    simp at hw

omit [IsStrictOrderedRing K] in
theorem pairwise_of_onGrid [IsStrictOrderedRing K] {w0 dwave : K} (hd : 0 < dwave) {j : Nat} {l : List K}
    (h : OnGridFrom w0 dwave j l) : l.Pairwise (· < ·) := by
  rw [List.pairwise_iff_getElem]
  intro a b ha hb hab
  exact lt_of_onGrid hd (h a _ (List.getElem?_eq_getElem ha)) (h b _ (List.getElem?_eq_getElem hb))
    (by omega)

/-- What the code computes from the pixels with one grid number. -/
def coaddPix (l : List (DPix K)) : DPix K :=
  let n := dweight l
  let v := (l.map (fun p => p.weight ^ 2 * dvar p)).sum
  let q := (l.map (fun p => 1 - p.weight * dvar p)).sum
  let x := (l.map (fun p => p.weight * p.delta)).sum
  let c := (l.map (fun p => p.weight * p.cont)).sum
  let iv := if 0 < n then n ^ 2 / v else v
  ⟨if 0 < n then x / n else x, iv, lssWeight iv (if 0 < n then q / n else q),
    if 0 < n then c / n else c⟩

omit [Field K] [LinearOrder K] [IsStrictOrderedRing K] [FloorRing K] in
theorem pixAt_shift {α : Type} {j0 j : Nat} (h : j0 ≤ j) (l : List α) (k : Nat) :
    pixAt (j - j0) l k = pixAt j l (j0 + k) := by
  unfold pixAt
  have e : j0 + k - j = k - (j - j0) := by omega
  by_cases h1 : j - j0 ≤ k
  · rw [if_pos h1, if_pos (by omega), e]
  · rw [if_neg h1, if_neg (by omega)]

omit [LinearOrder K] [IsStrictOrderedRing K] [FloorRing K] in
theorem sum_both (f : DPix K → K) (j1 j2 : Nat) (d e : Delta K) (j : Nat) :
    ((both j1 j2 d e j).map f).sum =
      0 + ((pixAt j1 d.pix j).toList.map f).sum + ((pixAt j2 e.pix j).toList.map f).sum := by
  simp [both]

omit [IsStrictOrderedRing K] [FloorRing K] in
theorem divWhere_map (n : Nat) (A B : Nat → K) :
    divWhere ((List.range n).map A) ((List.range n).map B) =
      (List.range n).map (fun k => if 0 < B k then A k / B k else A k) := by
  unfold divWhere
  rw [List.zipWith_map, List.zipWith_self]

/-- The pixels of a delta given by arrays over a range. -/
theorem pix_of_maps {d : Delta K} {n : Nat} (P : Nat → DPix K)
    (h1 : d.delta = (List.range n).map (fun k => (P k).delta))
    (h2 : d.ivar = (List.range n).map (fun k => (P k).ivar))
    (h3 : d.weight = (List.range n).map (fun k => (P k).weight))
    (h4 : d.cont = (List.range n).map (fun k => (P k).cont)) :
    d.pix = (List.range n).map P := by
  unfold Delta.pix
  rw [h1, h2, h3, h4, List.zip_map', List.zip_map', List.zipWith_map, List.zipWith_self]

/-- `Delta.coadd` of two deltas on one grid, up to the resolution. -/
theorem coadd_form (sqrt : K → K) (nan eps : K) {w0 dwave : K} (hd : 0 < dwave) {j1 j2 : Nat}
    {d e : Delta K} (h1 : DeltaOk w0 dwave j1 d) (h2 : DeltaOk w0 dwave j2 e) :
    ∃ lo hi,
      |lo - (w0 + ((min j1 j2 : Nat) : K) * dwave)| < dwave / 20 ∧
      |hi - (w0 + ((max (j1 + d.wave.length) (j2 + e.wave.length) - 1 : Nat) : K) * dwave)|
        < dwave / 20 ∧
      (∀ w ∈ d.wave, lo ≤ w) ∧ (∀ w ∈ e.wave, lo ≤ w) ∧
      d.coadd sqrt nan eps dwave e =
        (coaddDeltaReso nan eps lo dwave
          (max (j1 + d.wave.length) (j2 + e.wave.length) - min j1 j2) d e).map (fun r =>
        let n := max (j1 + d.wave.length) (j2 + e.wave.length) - min j1 j2
        let P := fun k => coaddPix (both j1 j2 d e (min j1 j2 + k))
        let delta := (List.range n).map (fun k => (P k).delta)
        let ivar := (List.range n).map (fun k => (P k).ivar)
        let snr := HVal.num (deltaSnr sqrt nan delta ivar)
        { d with
          wave := linspace lo hi n, delta := delta, ivar := ivar
          weight := (List.range n).map (fun k => (P k).weight)
          cont := (List.range n).map (fun k => (P k).cont), reso := r, meanSnr := snr
          header := d.header.set "MEANSNR" snr }) := by
  obtain ⟨lo, hi, hg, hlo, hhi, hu, hv⟩ := forestGrid_two hd h1.nonempty h2.nonempty h1.sorted
    h2.sorted h1.grid h2.grid
  refine ⟨lo, hi, hlo, hhi, fun w hw => (hu w hw).1, fun w hw => (hv w hw).1, ?_⟩
  generalize hn : max (j1 + d.wave.length) (j2 + e.wave.length) - min j1 j2 = n at hg ⊢
  unfold Delta.coadd
  rw [hg, except_bind_ok]
  dsimp only
  rw [replicate_eq_map_range,
    daccStep_ok hd hlo (by omega) h1 (fun w hw => (hu w hw).1) (by omega), except_bind_ok,
    daccStep_ok hd hlo (by omega) h2 (fun w hw => (hv w hw).1) (by omega), except_bind_ok]
  simp only [pixAt_shift (show min j1 j2 ≤ j1 by omega), pixAt_shift (show min j1 j2 ≤ j2 by omega)]
  simp only [← sum_both, divWhere_map, List.zipWith_map, List.zipWith_self]
  cases coaddDeltaReso nan eps lo dwave n d e with
  | error x => rfl
  | ok r => rfl

/-! ### One grid number -/

/-- The pixels can be averaged. -/
def PixOk (l : List (DPix K)) : Prop := ∀ p ∈ l, 0 ≤ p.weight ∧ (0 < p.weight → 0 < p.ivar)

omit [IsStrictOrderedRing K] [FloorRing K] in
theorem weight_dvar {p : DPix K} (h0 : 0 ≤ p.weight) (hp : 0 < p.weight → 0 < p.ivar) :
    p.weight ^ 2 * dvar p = if 0 < p.weight then p.weight ^ 2 / p.ivar else 0 := by
  unfold dvar
  by_cases h : 0 < p.weight
  · rw [if_pos ⟨h, hp h⟩, if_pos h]; ring
  · have : p.weight = 0 := le_antisymm (not_lt.mp h) h0
    rw [if_neg h, this]; ring

omit [IsStrictOrderedRing K] [FloorRing K] in
theorem sum_sq_dvar {l : List (DPix K)} (h : PixOk l) :
    (l.map (fun p => p.weight ^ 2 * dvar p)).sum =
      ((l.filter (fun p => decide (0 < p.weight))).map (fun p => p.weight ^ 2 / p.ivar)).sum := by
  induction l with
  | nil => rfl
  | cons p l ih =>
    have ⟨hp, hl⟩ := List.forall_mem_cons.mp h
    rw [List.map_cons, List.sum_cons, ih hl, weight_dvar hp.1 hp.2, List.filter_cons]
    by_cases hw : 0 < p.weight
    · simp [hw]
    · simp [hw]

omit [FloorRing K] in
theorem dweight_nonneg {l : List (DPix K)} (h : PixOk l) : 0 ≤ dweight l := by
  unfold dweight
  apply List.sum_nonneg
  intro x hx
  obtain ⟨p, hp, rfl⟩ := List.mem_map.mp hx
  exact (h p hp).1

omit [FloorRing K] in
theorem weights_zero {l : List (DPix K)} (h : PixOk l) (h0 : dweight l = 0) :
    ∀ p ∈ l, p.weight = 0 := by
  intro p hp
  refine le_antisymm ?_ (h p hp).1
  rw [← h0]
  unfold dweight
  apply List.single_le_sum (l := l.map (fun p => p.weight))
  · intro x hx
    obtain ⟨q, hq, rfl⟩ := List.mem_map.mp hx
    exact (h q hq).1
  · exact List.mem_map_of_mem hp

omit [FloorRing K] in
theorem sum_sq_pos {l : List (DPix K)} (h : PixOk l) (hW : 0 < dweight l) :
    0 < (l.map (fun p => p.weight ^ 2 * dvar p)).sum := by
  have hnn : ∀ x ∈ l.map (fun p => p.weight ^ 2 * dvar p), 0 ≤ x := by
    intro x hx
    obtain ⟨p, hp, rfl⟩ := List.mem_map.mp hx
    rw [weight_dvar (h p hp).1 (h p hp).2]
    split
    · rename_i hw
      have := (h p hp).2 hw
      positivity
    · exact le_refl _
  have : ∃ p ∈ l, 0 < p.weight := by
    by_contra hc
    push Not at hc
    have : dweight l = 0 := by
      unfold dweight
      apply List.sum_eq_zero
      intro x hx
      obtain ⟨p, hp, rfl⟩ := List.mem_map.mp hx
      exact le_antisymm (hc p hp) (h p hp).1
    rw [this] at hW
    exact lt_irrefl _ hW
  obtain ⟨p, hp, hw⟩ := this
  have h1 := List.single_le_sum hnn _ (List.mem_map_of_mem (f := fun p => p.weight ^ 2 * dvar p) hp)
  refine lt_of_lt_of_le ?_ h1
  rw [weight_dvar (h p hp).1 (h p hp).2, if_pos hw]
  have := (h p hp).2 hw
  positivity

omit [FloorRing K] in
theorem coaddPix_zero {l : List (DPix K)} (h : PixOk l) (h0 : dweight l = 0) :
    coaddPix l = ⟨0, 0, 0, 0⟩ := by
  have hz := weights_zero h h0
  have key : ∀ f : DPix K → K, (∀ p, p.weight = 0 → f p = 0) → (l.map f).sum = 0 := by
    intro f hf
    apply List.sum_eq_zero
    intro x hx
    obtain ⟨p, hp, rfl⟩ := List.mem_map.mp hx
    exact hf p (hz p hp)
  have k1 := key (fun p => p.weight * p.delta) (fun p hp => by simp [hp])
  have k2 := key (fun p => p.weight * p.cont) (fun p hp => by simp [hp])
  have k3 := key (fun p => p.weight ^ 2 * dvar p) (fun p hp => by simp [hp])
  unfold coaddPix
  dsimp only
  rw [h0, k1, k2, k3]
  simp [lssWeight]

omit [FloorRing K] in
theorem coaddPix_pos {l : List (DPix K)} (h : PixOk l) (hW : 0 < dweight l) :
    (coaddPix l).delta = dmean (fun p => p.delta) l ∧
    (coaddPix l).cont = dmean (fun p => p.cont) l ∧
    (coaddPix l).ivar = 1 / dmeanVar l ∧ 0 < (coaddPix l).ivar := by
  have hs := sum_sq_pos h hW
  unfold coaddPix dmean dmeanVar
  dsimp only
  rw [if_pos hW, if_pos hW, if_pos hW, ← sum_sq_dvar h]
  refine ⟨rfl, rfl, ?_, by positivity⟩
  rw [one_div, inv_div]

omit [IsStrictOrderedRing K] [FloorRing K] in
theorem coaddPix_perm {l m : List (DPix K)} (h : l.Perm m) : coaddPix l = coaddPix m := by
  unfold coaddPix dweight
  simp only [(h.map _).sum_eq]

omit [FloorRing K] in
/-- A single good pixel is kept. -/
theorem coaddPix_single {p : DPix K} (hw : 0 < p.weight) (hi : 0 < p.ivar) : coaddPix [p] = p := by
  have h1 : p.weight ≠ 0 := hw.ne'
  have h2 : p.ivar ≠ 0 := hi.ne'
  have e : p.weight ^ 2 / (p.weight ^ 2 * (1 / p.ivar)) = p.ivar := by field_simp
  have e2 : p.ivar / (1 + p.ivar * ((1 - p.weight * (1 / p.ivar)) / p.weight)) = p.weight := by
    have : 1 + p.ivar * ((1 - p.weight * (1 / p.ivar)) / p.weight) = p.ivar / p.weight := by
      field_simp; ring
    rw [this]; field_simp
  cases p
  simp only at h1 h2 hw hi e e2
  unfold coaddPix dweight dvar lssWeight
  simp only [List.map_cons, List.map_nil, List.sum_cons, List.sum_nil, add_zero, hw, hi, and_self,
    if_true, e, e2]
  congr 1 <;> field_simp

omit [FloorRing K] in
/-- A good pixel and a masked one: everything is kept but the weight, which is halved. -/
theorem coaddPix_masked {p q : DPix K} (hw : 0 < p.weight) (hi : 0 < p.ivar) (hq : q.weight = 0) :
    coaddPix [p, q] = ⟨p.delta, p.ivar, p.weight / 2, p.cont⟩ := by
  have h1 : p.weight ≠ 0 := hw.ne'
  have h2 : p.ivar ≠ 0 := hi.ne'
  have e : p.weight ^ 2 / (p.weight ^ 2 * (1 / p.ivar)) = p.ivar := by field_simp
  have e2 : p.ivar / (1 + p.ivar * ((1 - p.weight * (1 / p.ivar) + 1) / p.weight)) =
      p.weight / 2 := by
    have : 1 + p.ivar * ((1 - p.weight * (1 / p.ivar) + 1) / p.weight) = 2 * p.ivar / p.weight := by
      field_simp; ring
    rw [this]; field_simp
  cases p
  cases q
  simp only at h1 h2 hw hi e e2 hq
  subst hq
  unfold coaddPix dweight dvar lssWeight
  simp only [List.map_cons, List.map_nil, List.sum_cons, List.sum_nil, add_zero, hw, hi, and_self,
    if_true, zero_mul, lt_self_iff_false, false_and, if_false, mul_zero, sub_zero, e, e2]
  congr 1 <;> field_simp

omit [FloorRing K] in
/-- Without added variance the result is the inverse variance average. -/
theorem coaddPix_pure {l : List (DPix K)} (h : ∀ p ∈ l, 0 < p.ivar ∧ p.weight = p.ivar) (hl : l ≠ []) :
    coaddPix l = ⟨dmean (fun p => p.delta) l, dweight l, dweight l, dmean (fun p => p.cont) l⟩ := by
  have hok : PixOk l := fun p hp => ⟨by rw [(h p hp).2]; exact (h p hp).1.le, fun _ => (h p hp).1⟩
  have hW : 0 < dweight l := by
    refine lt_of_le_of_ne (dweight_nonneg hok) (fun hc => ?_)
    obtain ⟨p, l', rfl⟩ := List.exists_cons_of_ne_nil hl
    have := weights_zero hok hc.symm p (by simp)
    rw [(h p (by simp)).2] at this
    exact (h p (by simp)).1.ne' this
  have e1 : (l.map (fun p => p.weight ^ 2 * dvar p)).sum = dweight l := by
    unfold dweight
    congr 1
    apply List.map_congr_left
    intro p hp
    have := (h p hp).1
    unfold dvar
    rw [(h p hp).2, if_pos ⟨this, this⟩]
    field_simp
  have e2 : (l.map (fun p => 1 - p.weight * dvar p)).sum = 0 := by
    apply List.sum_eq_zero
    intro x hx
    obtain ⟨p, hp, rfl⟩ := List.mem_map.mp hx
    have := (h p hp).1
    unfold dvar
    rw [(h p hp).2, if_pos ⟨this, this⟩]
    field_simp
    ring
  have e3 : dweight l ^ 2 / dweight l = dweight l := by field_simp
  unfold coaddPix lssWeight dmean
  dsimp only
  rw [if_pos hW, if_pos hW, if_pos hW, if_pos hW, e1, e2, e3]
  simp

/-! ### Resolution -/

theorem mapM_addSlice {m n i0 : Nat} (G : Nat → Nat → K) (R : Nat → List (Pix K)) (npix : Nat)
    (hR : ∀ r, (R r).length = npix) (h : i0 + npix ≤ n) (w : List K)
    (C : Nat → List K) (hC : ∀ r, List.zipWith (· * ·) w (C r) =
      (R r).map (fun p => p.weight * p.flux)) :
    (((List.range m).map (fun r => (List.range n).map (G r))).zip ((List.range m).map C)).mapM
      (fun p => addSlice p.1 i0 (List.zipWith (· * ·) w p.2)) =
    .ok ((List.range m).map (fun r => (List.range n).map (fun k => G r k +
      ((pixAt i0 (R r) k).toList.map (fun p => p.weight * p.flux)).sum))) := by
  rw [List.zip_map', List.mapM_map]
  apply mapM_eq_ok
  intro r _
  simp only [Function.comp_apply]
  rw [hC r, addSlice_ok _ (by simpa [hR r] using h)]
  simp only [getD_map_pixAt]

theorem resoStep_ok {w0 dwave lo : K} {j0 j n m : Nat} (hd : 0 < dwave) (eps : K)
    (hlo : |lo - (w0 + (j0 : K) * dwave)| < dwave / 20) (hj : j0 ≤ j) {d : Delta K}
    (h : DeltaOk w0 dwave j d) (hle : ∀ w ∈ d.wave, lo ≤ w) (hn : j - j0 + d.wave.length ≤ n)
    {rows : List (List K)} (hf : ResoFits m (resoArm d rows)) (G : Nat → Nat → K) (N : Nat → K) :
    resoStep eps lo dwave m ((List.range m).map (fun r => (List.range n).map (G r)),
      (List.range n).map N) d rows =
    .ok ((List.range m).map (fun r => (List.range n).map (fun k => G r k +
          ((pixAt (j - j0) (resoPix eps m r (resoArm d rows)) k).toList.map
            (fun p => p.weight * p.flux)).sum)),
        (List.range n).map (fun k => N k +
          ((pixAt (j - j0) (resoPix eps m 0 (resoArm d rows)) k).toList.map
            (fun p => p.weight)).sum)) := by
  obtain ⟨w, ws, hw⟩ := List.exists_cons_of_ne_nil h.nonempty
  have h0 : firstElem d.wave = .ok w := by rw [hw]; rfl
  have hoff : (truncInt ((w - lo) / dwave + 1 / 10)).toNat = j - j0 :=
    offset_eq hd hlo hj (by simpa using h.grid 0 w (by rw [hw]; rfl)) (hle w (by rw [hw]; simp))
  have hlen : ∀ r, (resoPix eps m r (resoArm d rows)).length = d.wave.length := by
    intro r
    have := congrArg List.length (resoPix_maps hf eps r).1
    simpa [resoArm] using this
  unfold resoStep
  rw [h0, except_bind_ok]
  dsimp only
  have hp := padRows_eq (npix := d.wave.length) hf.rows
  simp only [resoArm] at hp
  rw [hoff, hp]
  have hs : sameShape ((List.range m).map (centredRow m d.wave.length rows)).length
      ((List.range m).map (fun r => (List.range n).map (G r))).length = .ok () := by
    simp [sameShape]
  rw [hs, except_bind_ok,
    mapM_addSlice G (fun r => resoPix eps m r (resoArm d rows)) _ hlen hn (d.weight.map (resoWeight eps))
      (centredRow m d.wave.length rows) (fun r => (resoPix_maps hf eps r).2.2.symm), except_bind_ok]
  have hw2 : d.weight.map (resoWeight eps) = (resoPix eps m 0 (resoArm d rows)).map (fun p => p.weight) :=
    (resoPix_maps hf eps 0).2.1.symm
  rw [hw2, addSlice_ok _ (by simpa [hlen 0] using hn), except_bind_ok, except_pure]
  simp only [getD_map_pixAt]

theorem pixAt_weights {eps : K} {m : Nat} {a : ResoArm K} (hf : ResoFits m a) (r j0 j : Nat) :
    ((pixAt j0 (resoPix eps m r a) j).toList.map (fun p => p.weight)).sum =
      ((pixAt j0 (resoPix eps m 0 a) j).toList.map (fun p => p.weight)).sum := by
  rw [← getD_map_pixAt, ← getD_map_pixAt, (resoPix_maps hf eps r).2.1, (resoPix_maps hf eps 0).2.1]

theorem coaddDeltaReso_ok {w0 dwave lo : K} {j1 j2 n : Nat} (hd : 0 < dwave) (nan eps : K)
    {d e : Delta K} (h1 : DeltaOk w0 dwave j1 d) (h2 : DeltaOk w0 dwave j2 e)
    (hlo : |lo - (w0 + ((min j1 j2 : Nat) : K) * dwave)| < dwave / 20)
    (hu : ∀ w ∈ d.wave, lo ≤ w) (hv : ∀ w ∈ e.wave, lo ≤ w)
    (hn : max (j1 + d.wave.length) (j2 + e.wave.length) - min j1 j2 ≤ n)
    {rd re : List (List K)} (hrd : d.reso = some rd) (hre : e.reso = some re)
    (fd : ∀ r ∈ rd, r.length = d.wave.length) (fe : ∀ r ∈ re, r.length = e.wave.length)
    (hpar : rd.length % 2 = re.length % 2) :
    coaddDeltaReso nan eps lo dwave n d e = .ok (some
      ((List.range (max rd.length re.length)).map (fun r => (List.range n).map (fun k =>
        let l := bothReso eps (max rd.length re.length) r j1 j2 (resoArm d rd) (resoArm e re)
          (min j1 j2 + k)
        if sumWeight l = 0 then nan else meanFlux l)))) := by
  have hfd : ResoFits (max rd.length re.length) (resoArm d rd) :=
    ⟨by simp only [resoArm]; omega, h1.weight, fd⟩
  have hfe : ResoFits (max rd.length re.length) (resoArm e re) :=
    ⟨by simp only [resoArm]; omega, h2.weight, fe⟩
  unfold coaddDeltaReso
  rw [hrd, hre]
  dsimp only
  have hz : List.replicate (max rd.length re.length) (List.replicate n (0 : K)) =
      (List.range (max rd.length re.length)).map (fun r => (List.range n).map (fun k => 0)) := by
    rw [replicate_eq_map_range, replicate_eq_map_range]
  rw [hz, replicate_eq_map_range,
    resoStep_ok hd eps hlo (by omega) h1 hu (by omega) hfd, except_bind_ok,
    resoStep_ok hd eps hlo (by omega) h2 hv (by omega) hfe, except_bind_ok, except_pure]
  simp only [pixAt_shift (show min j1 j2 ≤ j1 by omega), pixAt_shift (show min j1 j2 ≤ j2 by omega)]
  congr 2
  rw [List.map_map]
  apply List.map_congr_left
  intro r _
  simp only [Function.comp_apply]
  unfold divRow
  rw [List.zipWith_map, List.zipWith_self]
  apply List.map_congr_left
  intro k _
  unfold meanFlux sumWeight bothReso
  simp only [List.map_append, List.sum_append, zero_add]
  rw [pixAt_weights hfd r, pixAt_weights hfe r]

/-! ### Sequences -/

omit [FloorRing K] in
/-- Averaging an average with further pixels is averaging all pixels. -/
theorem ivarMean_append {l m : List (DPix K)} (hl : 0 < dweight l) (h : m = [] ∨ 0 < dweight m) :
    ivarMean (ivarMean l :: m) = ivarMean (l ++ m) := by
  have e : ∀ f : DPix K → K, dweight l * dmean f l = (l.map (fun p => p.weight * f p)).sum := by
    intro f
    unfold dmean
    field_simp
  have e1 := e (fun p => p.delta)
  have e2 := e (fun p => p.cont)
  unfold ivarMean dmean dweight at *
  simp only [List.map_cons, List.sum_cons, List.map_append, List.sum_append] at *
  rw [e1, e2]

omit [FloorRing K] in
theorem ivarMean_single {p : DPix K} (h : 0 < p.ivar) (hw : p.weight = p.ivar) : ivarMean [p] = p := by
  cases p
  simp only at h hw
  subst hw
  simp only [ivarMean, dmean, dweight, List.map_cons, List.map_nil, List.sum_cons, List.sum_nil,
    add_zero]
  congr 1 <;> field_simp

omit [LinearOrder K] [IsStrictOrderedRing K] [FloorRing K] [Field K] in
theorem pixAt_range {α : Type} {j0 n : Nat} (P : Nat → α) (j : Nat) :
    pixAt j0 ((List.range n).map (fun k => P (j0 + k))) j =
      if j0 ≤ j ∧ j < j0 + n then some (P j) else none := by
  unfold pixAt
  by_cases h : j0 ≤ j
  · rw [if_pos h, List.getElem?_map]
    by_cases h2 : j - j0 < n
    · rw [List.getElem?_range h2, if_pos ⟨h, by omega⟩]
      simp [show j0 + (j - j0) = j by omega]
    · rw [List.getElem?_eq_none (by simpa using h2), if_neg (by omega)]
      rfl
  · rw [if_neg h, if_neg (by omega)]

omit [Field K] [LinearOrder K] [IsStrictOrderedRing K] [FloorRing K] in
theorem pixAt_eq_none {α : Type} {j0 : Nat} {l : List α} {j : Nat} :
    pixAt j0 l j = none ↔ j < j0 ∨ j0 + l.length ≤ j := by
  unfold pixAt
  by_cases h : j0 ≤ j
  · rw [if_pos h, List.getElem?_eq_none_iff]; omega
  · rw [if_neg h]; simp; omega

omit [Field K] [LinearOrder K] [IsStrictOrderedRing K] [FloorRing K] in
theorem pixAt_mem {α : Type} {j0 : Nat} {l : List α} {j : Nat} {p : α} (h : pixAt j0 l j = some p) :
    p ∈ l := by
  unfold pixAt at h
  split at h
  · exact List.mem_of_getElem? h
  · simp at h

/-- The result of a coadd, summarised. -/
theorem coadd_result (sqrt : K → K) (nan eps : K) {w0 dwave : K} (hd : 0 < dwave) {j1 j2 : Nat}
    {d e t : Delta K} (h1 : DeltaOk w0 dwave j1 d) (h2 : DeltaOk w0 dwave j2 e)
    (ht : d.coadd sqrt nan eps dwave e = .ok t) :
    OnGridFrom w0 dwave (min j1 j2) t.wave ∧
    t.wave.length = max (j1 + d.wave.length) (j2 + e.wave.length) - min j1 j2 ∧
    t.delta.length = t.wave.length ∧ t.ivar.length = t.wave.length ∧
    t.weight.length = t.wave.length ∧ t.cont.length = t.wave.length ∧
    t.blinded = d.blinded ∧ t.targetid = d.targetid ∧
    (∀ j, pixAt (min j1 j2) t.pix j =
      if min j1 j2 ≤ j ∧ j < max (j1 + d.wave.length) (j2 + e.wave.length) then
        some (coaddPix (both j1 j2 d e j)) else none) := by
  have l1 := List.length_pos_of_ne_nil h1.nonempty
  have l2 := List.length_pos_of_ne_nil h2.nonempty
  obtain ⟨lo, hi, hlo, hhi, -, -, hform⟩ := coadd_form sqrt nan eps hd h1 h2
  rw [hform] at ht
  cases hr : coaddDeltaReso nan eps lo dwave
      (max (j1 + d.wave.length) (j2 + e.wave.length) - min j1 j2) d e with
  | error x => rw [hr] at ht; simp [Except.map] at ht
  | ok r =>
    rw [hr] at ht
    simp only [Except.map, Except.ok.injEq] at ht
    generalize hn : max (j1 + d.wave.length) (j2 + e.wave.length) - min j1 j2 = n at ht ⊢
    have hn0 : n = (n - 1) + 1 := by omega
    have hpix : t.pix = (List.range n).map (fun k => coaddPix (both j1 j2 d e (min j1 j2 + k))) :=
      pix_of_maps _ (by rw [← ht]) (by rw [← ht]) (by rw [← ht]) (by rw [← ht])
    have hw : t.wave = linspace lo hi n := by rw [← ht]
    have hwl : t.wave.length = n := by rw [hw]; simp [linspace]
    refine ⟨?_, hwl, ?_, ?_, ?_, ?_, by rw [← ht], by rw [← ht], ?_⟩
    · rw [hw, hn0]
      refine linspace_onGrid hlo ?_
      have : min j1 j2 + (n - 1) = max (j1 + d.wave.length) (j2 + e.wave.length) - 1 := by omega
      rw [this]
      exact hhi
    · rw [hwl, ← ht]; simp
    · rw [hwl, ← ht]; simp
    · rw [hwl, ← ht]; simp
    · rw [hwl, ← ht]; simp
    · intro j
      rw [hpix, pixAt_range (P := fun j => coaddPix (both j1 j2 d e j))]
      have : min j1 j2 + n = max (j1 + d.wave.length) (j2 + e.wave.length) := by omega
      rw [this]

theorem coadd_ok_of_noReso (sqrt : K → K) (nan eps : K) {w0 dwave : K} (hd : 0 < dwave) {j1 j2 : Nat}
    {d e : Delta K} (h1 : DeltaOk w0 dwave j1 d) (h2 : DeltaOk w0 dwave j2 e) (hr : d.reso = none) :
    ∃ t, d.coadd sqrt nan eps dwave e = .ok t ∧ t.reso = none := by
  obtain ⟨lo, hi, -, -, -, -, hform⟩ := coadd_form sqrt nan eps hd h1 h2
  rw [hform]
  have : ∀ n, coaddDeltaReso nan eps lo dwave n d e = .ok none := by
    intro n; unfold coaddDeltaReso; rw [hr]
  rw [this]
  exact ⟨_, rfl, rfl⟩

omit [FloorRing K] in
theorem agg_both {l m : List (DPix K)} (hl : ∀ p ∈ l, 0 < p.ivar ∧ p.weight = p.ivar)
    (hm : ∀ p ∈ m, 0 < p.ivar ∧ p.weight = p.ivar) :
    agg ((agg l).toList ++ m) = agg (l ++ m) := by
  have hW : ∀ l : List (DPix K), l ≠ [] → (∀ p ∈ l, 0 < p.ivar ∧ p.weight = p.ivar) →
      0 < dweight l := by
    intro l hne h
    obtain ⟨p, l', rfl⟩ := List.exists_cons_of_ne_nil hne
    unfold dweight
    rw [List.map_cons, List.sum_cons]
    have h1 : 0 < p.weight := by rw [(h p (by simp)).2]; exact (h p (by simp)).1
    have h2 : 0 ≤ (l'.map (fun p => p.weight)).sum := by
      apply List.sum_nonneg
      intro x hx
      obtain ⟨q, hq, rfl⟩ := List.mem_map.mp hx
      have := h q (by simp [hq])
      rw [this.2]; exact this.1.le
    linarith
  by_cases hl0 : l = []
  · subst hl0; simp [agg]
  · have e1 : agg l = some (ivarMean l) := by simp [agg, hl0]
    rw [e1]
    simp only [Option.toList_some, List.singleton_append]
    unfold agg
    rw [if_neg (by simp), if_neg (by simp [hl0])]
    congr 1
    apply ivarMean_append (hW l hl0 hl)
    by_cases hm0 : m = []
    · exact Or.inl hm0
    · exact Or.inr (hW m hm0 hm)

omit [FloorRing K] in
theorem ivarMean_good {l : List (DPix K)} (hne : l ≠ []) (h : ∀ p ∈ l, 0 < p.ivar ∧ p.weight = p.ivar) :
    0 < (ivarMean l).ivar ∧ (ivarMean l).weight = (ivarMean l).ivar := by
  refine ⟨?_, rfl⟩
  obtain ⟨p, l', rfl⟩ := List.exists_cons_of_ne_nil hne
  simp only [ivarMean, dweight, List.map_cons, List.sum_cons]
  have h1 : 0 < p.weight := by rw [(h p (by simp)).2]; exact (h p (by simp)).1
  have h2 : 0 ≤ (l'.map (fun p => p.weight)).sum := by
    apply List.sum_nonneg
    intro x hx
    obtain ⟨q, hq, rfl⟩ := List.mem_map.mp hx
    have := h q (by simp [hq])
    rw [this.2]; exact this.1.le
  linarith

/-- Coadding one delta to a good one. -/
theorem coadd_good (sqrt : K → K) (nan eps : K) {w0 dwave : K} (hd : 0 < dwave) {m : Nat} {j1 j2 : Nat}
    {d e : Delta K} (h1 : GoodDelta w0 dwave m j1 d) (h2 : GoodDelta w0 dwave m j2 e) :
    ∃ t, d.coadd sqrt nan eps dwave e = .ok t ∧ GoodDelta w0 dwave m (min j1 j2) t ∧
      t.targetid = d.targetid ∧
      ∀ j, pixAt (min j1 j2) t.pix j = agg (both j1 j2 d e j) := by
  obtain ⟨t, ht, hr⟩ := coadd_ok_of_noReso sqrt nan eps hd h1.ok h2.ok h1.reso
  obtain ⟨g, hl, l1, l2, l3, l4, -, htid, hp⟩ := coadd_result sqrt nan eps hd h1.ok h2.ok ht
  have p1 := Delta.pix_length h1.ok
  have p2 := Delta.pix_length h2.ok
  have s1 := h1.shared
  have s2 := h2.shared
  have good : ∀ j, ∀ p ∈ both j1 j2 d e j, 0 < p.ivar ∧ p.weight = p.ivar := by
    intro j p hp
    simp only [both, List.mem_append, Option.mem_toList, Option.mem_def] at hp
    rcases hp with hp | hp
    · exact h1.good p (pixAt_mem hp)
    · exact h2.good p (pixAt_mem hp)
  have hempty : ∀ j, both j1 j2 d e j = [] ↔
      ¬ (min j1 j2 ≤ j ∧ j < max (j1 + d.wave.length) (j2 + e.wave.length)) := by
    intro j
    simp only [both, List.append_eq_nil_iff, Option.toList_eq_nil_iff, pixAt_eq_none]
    omega
  have hp' : ∀ j, pixAt (min j1 j2) t.pix j = agg (both j1 j2 d e j) := by
    intro j
    rw [hp j]
    unfold agg
    by_cases hj : min j1 j2 ≤ j ∧ j < max (j1 + d.wave.length) (j2 + e.wave.length)
    · have hne : both j1 j2 d e j ≠ [] := fun hc => (hempty j).mp hc hj
      rw [if_pos hj, if_neg hne, coaddPix_pure (good j) hne]
      rfl
    · rw [if_neg hj, if_pos ((hempty j).mpr hj)]
  have tlen : t.pix.length = t.wave.length := by
    unfold Delta.pix; simp [l1, l2, l3, l4]
  have hgood : ∀ p ∈ t.pix, 0 < p.ivar ∧ p.weight = p.ivar := by
    intro p hpm
    obtain ⟨i, hi⟩ := List.mem_iff_getElem?.mp hpm
    have h := hp' (min j1 j2 + i)
    have e0 : pixAt (min j1 j2) t.pix (min j1 j2 + i) = some p := by
      unfold pixAt
      rw [if_pos (by omega), Nat.add_sub_cancel_left, hi]
    rw [e0] at h
    unfold agg at h
    split at h
    · simp at h
    · rename_i hne
      rw [Option.some.injEq] at h
      rw [h]
      exact ivarMean_good hne (good _)
  refine ⟨t, ht, ⟨⟨?_, pairwise_of_onGrid hd g, g, l1, l2, l3, l4, ?_⟩, hgood, hr, ?_⟩, htid, hp'⟩
  · apply List.ne_nil_of_length_pos; omega
  · intro p hpm
    have := hgood p hpm
    exact ⟨by rw [this.2]; exact this.1.le, fun _ => this.1⟩
  · omega

/-- Coadding a sequence of good deltas. -/
theorem coadd_seq (sqrt : K → K) (nan eps : K) {w0 dwave : K} (hd : 0 < dwave) {m : Nat}
    (l : List (Nat × Delta K)) (hl : ∀ x ∈ l, GoodDelta w0 dwave m x.1 x.2) {j0 : Nat} {d : Delta K}
    (h : GoodDelta w0 dwave m j0 d) :
    ∃ t, (l.map Prod.snd).foldlM (fun a b => a.coadd sqrt nan eps dwave b) d = .ok t ∧
      GoodDelta w0 dwave m (l.foldl (fun a x => min a x.1) j0) t ∧
      t.targetid = d.targetid ∧
      ∀ j, pixAt (l.foldl (fun a x => min a x.1) j0) t.pix j = agg (allAt ((j0, d) :: l) j) := by
  induction l generalizing j0 d with
  | nil =>
    refine ⟨d, rfl, h, rfl, fun j => ?_⟩
    simp only [List.foldl_nil, allAt, List.flatMap_cons, List.flatMap_nil, List.append_nil]
    cases hp : pixAt j0 d.pix j with
    | none => simp [agg]
    | some p =>
      have := h.good p (pixAt_mem hp)
      simp [agg, ivarMean_single this.1 this.2]
  | cons x l ih =>
    have hx := hl x (by simp)
    obtain ⟨t1, ht1, g1, id1, p1⟩ := coadd_good sqrt nan eps hd h hx
    obtain ⟨t, ht, g, idt, p⟩ := ih (fun y hy => hl y (by simp [hy])) g1
    refine ⟨t, ?_, g, by rw [idt, id1], fun j => ?_⟩
    · rw [List.map_cons, List.foldlM_cons, ht1, except_bind_ok, ht]
    · rw [List.foldl_cons, p j]
      simp only [allAt, List.flatMap_cons]
      rw [p1 j]
      have gd : ∀ y : Nat × Delta K, GoodDelta w0 dwave m y.1 y.2 →
          ∀ q ∈ (pixAt y.1 y.2.pix j).toList, 0 < q.ivar ∧ q.weight = q.ivar := by
        intro y hy q hq
        rw [Option.mem_toList] at hq
        exact hy.good q (pixAt_mem hq)
      rw [agg_both]
      · simp [both]
      · intro q hq
        simp only [both, List.mem_append] at hq
        rcases hq with hq | hq
        · exact gd (j0, d) h q hq
        · exact gd x hx q hq
      · intro q hq
        rw [List.mem_flatMap] at hq
        obtain ⟨y, hy, hq⟩ := hq
        exact gd y (hl y (by simp [hy])) q hq

end Verif.Proofs
