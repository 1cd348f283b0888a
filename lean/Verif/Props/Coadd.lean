import Verif.Proofs.CoaddReso
import Verif.Proofs.Spectrum
import Mathlib.Algebra.Order.Ring.Rat
import Mathlib.Algebra.Order.Field.Rat
import Mathlib.Data.Rat.Floor
import Mathlib.Order.Bounds.Basic
import Mathlib.Algebra.Order.BigOperators.Group.List
import Mathlib.Tactic.Positivity

/-!
# C26, C27: coadding the arms of a spectrum
-/

namespace Verif.Props
open Verif.Np Verif.Model Verif.Proofs Verif.Spec List Spectrum

variable {K : Type} [Field K] [LinearOrder K] [IsStrictOrderedRing K] [FloorRing K]

section helpers

omit [Field K] [LinearOrder K] [IsStrictOrderedRing K] [FloorRing K] in
theorem pixelsOf_wave {wave weight flux ivar : List K} (h1 : weight.length = wave.length)
    (h2 : flux.length = wave.length) (h3 : ivar.length = wave.length) :
    (pixelsOf wave weight flux ivar).map (fun p => p.wave) = wave := by
  unfold pixelsOf
  induction wave generalizing weight flux ivar with
  | nil => simp
  | cons w wave ih =>
    cases weight with
    | nil => simp at h1
    | cons a weight =>
      cases flux with
      | nil => simp at h2
      | cons b flux =>
        cases ivar with
        | nil => simp at h3
        | cons c ivar =>
          simp only [List.zip_cons_cons, List.zipWith_cons_cons, List.map_cons]
          rw [ih (by simpa using h1) (by simpa using h2) (by simpa using h3)]

theorem forestPix_wave {s : Spectrum K} (h : ForestOk s) {x : String × List K} (hx : x ∈ s.fwave) :
    (s.forestPix x.1).map (fun p => p.wave) = x.2 := by
  have hl : s.fwave.arr x.1 = x.2 := arr_of_lookup (lookup_of_mem h.nodup hx)
  unfold forestPix
  rw [hl]
  exact pixelsOf_wave (h.weight x hx) (h.flux x hx) (h.ivar x hx)

omit [IsStrictOrderedRing K] in
theorem foldl_max_parity {l : List Nat} (hp : ∀ a ∈ l, ∀ b ∈ l, a % 2 = b % 2) :
    ∀ a ∈ l, a + 2 * ((l.foldl max 0 - a) / 2) = l.foldl max 0 := by
  have key : ∀ (l : List Nat) (x : Nat), x ≤ l.foldl max x ∧ (∀ y ∈ l, y ≤ l.foldl max x) ∧
      (l.foldl max x = x ∨ l.foldl max x ∈ l) := by
    intro l
    induction l with
    | nil => simp
    | cons y l ih =>
      intro x
      obtain ⟨h1, h2, h3⟩ := ih (max x y)
      rw [List.foldl_cons]
      refine ⟨(le_max_left _ _).trans h1, fun z hz => ?_, ?_⟩
      · rcases List.mem_cons.mp hz with rfl | hz
        · exact (le_max_right _ _).trans h1
        · exact h2 z hz
      · rcases h3 with h3 | h3
        · rcases max_choice x y with h | h
          · left; rw [h3, h]
          · right; rw [h3, h]; simp
        · right; simp [h3]
  intro a ha
  obtain ⟨-, h2, h3⟩ := key l 0
  have hle := h2 a ha
  rcases h3 with h3 | h3
  · omega
  · have := hp a ha _ h3
    omega

omit [LinearOrder K] [IsStrictOrderedRing K] [FloorRing K] in
theorem linspace_succ (a b : K) (n : Nat) : linspace a b (n + 1) =
    (List.range (n + 1)).map (fun k : Nat => a + (k : K) * ((b - a) / (n : K))) := by
  unfold linspace
  refine List.map_congr_left fun k _ => ?_
  rw [Nat.add_sub_cancel]

/-- The value of the coadded pixel: the mean, or 0. -/
theorem coaddArms_value {minWave dwave : K} (hd : 0 < dwave) {n : Nat} {arms : List (List (Pix K))}
    (hw : ∀ a ∈ arms, ∀ p ∈ a, minWave ≤ p.wave)
    (hn : ∀ a ∈ arms, ∀ p ∈ a, cellIdx minWave dwave p.wave < n)
    (h1 : OnePerCell minWave dwave arms) (h0 : ∀ a ∈ arms, ∀ p ∈ a, 0 ≤ p.weight) :
    coaddArms minWave dwave n arms = .ok
      ((List.range n).map (fun k => if 0 < sumWeight (cell minWave dwave arms k) then
          meanFlux (cell minWave dwave arms k) else 0),
       (List.range n).map (fun k => if 0 < sumWeight (cell minWave dwave arms k) then
          1 / meanVar (cell minWave dwave arms k) else 0)) := by
  rw [coaddArms_eq hd hw hn h1]
  have hc : ∀ k, ∀ p ∈ cell minWave dwave arms k, 0 ≤ p.weight := by
    intro k p hp
    obtain ⟨a, ha, hpa⟩ := List.mem_flatten.mp (List.mem_filter.mp hp).1
    exact h0 a ha p hpa
  congr 2
  · refine List.map_congr_left fun k _ => ?_
    by_cases hs : 0 < sumWeight (cell minWave dwave arms k)
    · rw [if_pos hs, if_pos hs]; rfl
    · rw [if_neg hs, if_neg hs]
      refine List.sum_eq_zero fun x hx => ?_
      obtain ⟨p, hp, rfl⟩ := List.mem_map.mp hx
      rw [sum_eq_zero_weights (hc k) hs p hp, zero_mul]
  · refine List.map_congr_left fun k _ => ?_
    by_cases hs : 0 < sumWeight (cell minWave dwave arms k)
    · rw [if_pos hs, if_pos hs, sum_varOf]
      unfold meanVar
      rw [one_div_div]
    · rw [if_neg hs, if_neg hs]
      refine List.sum_eq_zero fun x hx => ?_
      obtain ⟨p, hp, rfl⟩ := List.mem_map.mp hx
      rw [sum_eq_zero_weights (hc k) hs p hp]
      simp

end helpers

/-! ### C26 -/

/-- **C26.** `coadd_arms_forest` on arms with at most one pixel each per grid cell: the result has one
arm `brz`, from the smallest to the largest wavelength. Flux and ivar of its pixel `k` are the
weighted mean of the flux of all arm pixels in the cell and the inverse of the variance of that mean,
and zero where the weights are zero. Resolution: the weighted mean of the rows (weight `eps` for
pixels of zero weight). Continuum: that of the last arm with a pixel in the cell. There is no other
outcome (no index out of range). -/
theorem C26_coadd_arms {s : Spectrum K} (h : ForestOk s) {lo hi : K} (hlo : IsLeast (allWaves s.fwave) lo)
    (hhi : IsGreatest (allWaves s.fwave) hi) {n : Nat} (hn : InCell lo s.dwave n hi)
    (h1 : OnePerCell lo s.dwave (s.fwave.map (fun x => s.forestPix x.1)))
    (sqrt : K → K) (smooth : List K → K → List K) (junk : Nat → K) (nan eps : K)
    (varlss eta : K → K) :
    let C := cell lo s.dwave (s.fwave.map (fun x => s.forestPix x.1))
    ∃ t, s.coaddArmsForest sqrt smooth junk nan eps varlss eta = .ok t ∧
      t.fwave = [("brz", (List.range (n + 1)).map (fun k : Nat => lo + (k : K) * ((hi - lo) / (n : K))))] ∧
      t.fflux = [("brz", (List.range (n + 1)).map (fun k =>
        if 0 < sumWeight (C k) then meanFlux (C k) else 0))] ∧
      t.fivar = [("brz", (List.range (n + 1)).map (fun k =>
        if 0 < sumWeight (C k) then 1 / meanVar (C k) else 0))] ∧
      (s.cont = [] → t.cont = []) ∧
      (s.cont ≠ [] → t.cont = [("brz", (List.range (n + 1)).map (fun k =>
        (lastIn lo s.dwave (s.fwave.flatMap (fun x => x.2.zip (s.cont.arr x.1))) k).getD
          (junk k)))]) ∧
      (s.freso = [] → t.freso = []) ∧
      (s.freso ≠ [] → ∃ m, (∀ x ∈ s.freso, x.2.length ≤ m) ∧ (∃ x ∈ s.freso, x.2.length = m) ∧
        let R := fun r => cell lo s.dwave (s.freso.map (fun x =>
          resoPix eps m r ⟨s.fwave.arr x.1, s.fweight.arr x.1, x.2⟩))
        t.freso = [("brz", (List.range m).map (fun r => (List.range (n + 1)).map (fun k =>
          if sumWeight (R 0 k) = 0 then nan
          else ((R r k).map (fun p => p.weight * p.flux)).sum / sumWeight (R 0 k))))]) := by
  intro C
  obtain ⟨⟨x0, hx0, hlo0⟩, hlol⟩ := hlo
  obtain ⟨⟨x1, hx1, hhi1⟩, hhil⟩ := hhi
  have hne : s.fwave ≠ [] := List.ne_nil_of_mem hx0
  obtain ⟨a, b, n', hg, ⟨la, hla, ham⟩, ⟨lb, hlb, hbm⟩, hin, hn', hcell⟩ :=
    forestGrid_ok h.dwave (waves := s.fwave.map Prod.snd) (by simpa using hne)
      (fun w hw => by
        obtain ⟨x, hx, rfl⟩ := List.mem_map.mp hw
        exact (h.sorted x hx).1)
      (fun w hw => by
        obtain ⟨x, hx, rfl⟩ := List.mem_map.mp hw
        exact (h.sorted x hx).2)
  obtain ⟨xa, hxa, rfl⟩ := List.mem_map.mp hla
  obtain ⟨xb, hxb, rfl⟩ := List.mem_map.mp hlb
  have ha : a = lo := le_antisymm (hin x0.2 (List.mem_map.mpr ⟨x0, hx0, rfl⟩) lo hlo0).1
    (hlol ⟨xa, hxa, ham⟩)
  have hb : b = hi := le_antisymm (hhil ⟨xb, hxb, hbm⟩)
    (hin x1.2 (List.mem_map.mpr ⟨x1, hx1, rfl⟩) hi hhi1).2
  subst ha hb
  have hab : a ≤ b := hlol ⟨xb, hxb, hbm⟩
  have hnn : cellIdx a s.dwave b = n := (cellIdx_eq_iff h.dwave hab n).mpr hn
  rw [hnn] at hn'
  subst hn'
  have hpw : ∀ x ∈ s.fwave, ∀ p ∈ s.forestPix x.1, p.wave ∈ x.2 := by
    intro x hx p hp
    rw [← forestPix_wave h hx]
    exact List.mem_map.mpr ⟨p, hp, rfl⟩
  have hin' : ∀ x ∈ s.fwave, ∀ w ∈ x.2, a ≤ w ∧ cellIdx a s.dwave w < n + 1 := fun x hx w hw =>
    ⟨(hin x.2 (List.mem_map.mpr ⟨x, hx, rfl⟩) w hw).1,
      hcell x.2 (List.mem_map.mpr ⟨x, hx, rfl⟩) w hw⟩
  have hval := coaddArms_value h.dwave (n := n + 1) (arms := s.fwave.map (fun x => s.forestPix x.1))
    (minWave := a)
    (by
      intro l hl p hp
      obtain ⟨x, hx, rfl⟩ := List.mem_map.mp hl
      exact (hin' x hx _ (hpw x hx p hp)).1)
    (by
      intro l hl p hp
      obtain ⟨x, hx, rfl⟩ := List.mem_map.mp hl
      exact (hin' x hx _ (hpw x hx p hp)).2) h1
    (by
      intro l hl p hp
      obtain ⟨x, hx, rfl⟩ := List.mem_map.mp hl
      exact (h.nonneg x hx p hp).1)
  have hcont : ∃ c, s.newCont junk a (n + 1) = .ok c ∧ (s.cont = [] → c = []) ∧
      (s.cont ≠ [] → c = [("brz", (List.range (n + 1)).map (fun k =>
        (lastIn a s.dwave (s.fwave.flatMap (fun x => x.2.zip (s.cont.arr x.1))) k).getD
          (junk k)))]) := by
    unfold newCont
    by_cases hc : s.cont = []
    · exact ⟨[], by rw [if_pos hc], fun _ => rfl, fun h => absurd hc h⟩
    · refine ⟨_, ?_, fun h => absurd h hc, fun _ => rfl⟩
      rw [if_neg hc, coaddCont_eq h.dwave (by
        intro c hc w hw
        obtain ⟨x, hx, rfl⟩ := List.mem_map.mp hc
        exact (hin' x hx w hw).1) (by
        intro c hc w hw
        obtain ⟨x, hx, rfl⟩ := List.mem_map.mp hc
        exact (hin' x hx w hw).2), except_bind_ok, except_pure, List.flatMap_map]
  have hreso : ∃ c, s.newReso nan eps a (n + 1) = .ok c ∧ (s.freso = [] → c = []) ∧
      (s.freso ≠ [] → ∃ m, (∀ x ∈ s.freso, x.2.length ≤ m) ∧ (∃ x ∈ s.freso, x.2.length = m) ∧
        let R := fun r => cell a s.dwave (s.freso.map (fun x =>
          resoPix eps m r ⟨s.fwave.arr x.1, s.fweight.arr x.1, x.2⟩))
        c = [("brz", (List.range m).map (fun r => (List.range (n + 1)).map (fun k =>
          if sumWeight (R 0 k) = 0 then nan
          else ((R r k).map (fun p => p.weight * p.flux)).sum / sumWeight (R 0 k))))]) := by
    unfold newReso
    by_cases hc : s.freso = []
    · exact ⟨[], by rw [if_pos hc], fun _ => rfl, fun h => absurd hc h⟩
    · set m := (s.freso.map (fun x => x.2.length)).foldl max 0 with hm
      have hparity := foldl_max_parity (l := s.freso.map (fun x => x.2.length)) (by
        intro u hu v hv
        obtain ⟨x, hx, rfl⟩ := List.mem_map.mp hu
        obtain ⟨y, hy, rfl⟩ := List.mem_map.mp hv
        exact h.resoParity x hx y hy)
      rw [← hm] at hparity
      have harm : ∀ x ∈ s.freso, ∃ w, (x.1, w) ∈ s.fwave ∧ s.fwave.arr x.1 = w ∧
          ∀ row ∈ x.2, row.length = w.length := by
        intro x hx
        obtain ⟨w, hw, hrow⟩ := h.resoArm x hx
        exact ⟨w, hw, arr_of_lookup (lookup_of_mem h.nodup hw), hrow⟩
      have hmax : m = 0 ∨ ∃ x ∈ s.freso, x.2.length = m := by
        have : ∀ (l : List Nat) (x : Nat), l.foldl max x = x ∨ l.foldl max x ∈ l := by
          intro l
          induction l with
          | nil => simp
          | cons y l ih =>
            intro x
            rw [List.foldl_cons]
            rcases ih (max x y) with h3 | h3
            · rcases max_choice x y with h | h
              · left; rw [h3, h]
              · right; rw [h3, h]; simp
            · right; simp [h3]
        rcases this (s.freso.map (fun x => x.2.length)) 0 with h3 | h3
        · exact Or.inl h3
        · obtain ⟨x, hx, he⟩ := List.mem_map.mp h3
          exact Or.inr ⟨x, hx, he⟩
      have hle : ∀ x ∈ s.freso, x.2.length ≤ m := by
        intro x hx
        have := hparity x.2.length (List.mem_map.mpr ⟨x, hx, rfl⟩)
        omega
      refine ⟨_, ?_, fun h => absurd h hc, fun _ => ⟨m, hle, ?_, rfl⟩⟩
      · have := coaddReso_eq (nan := nan) (eps := eps) (minWave := a) h.dwave (n := n + 1) (m := m)
          (arms := s.freso.map (fun x => (⟨s.fwave.arr x.1, s.fweight.arr x.1, x.2⟩ : ResoArm K)))
          (by rw [List.map_map]; rfl)
          (by
            intro r hr
            obtain ⟨x, hx, rfl⟩ := List.mem_map.mp hr
            obtain ⟨w, hw, he, hrow⟩ := harm x hx
            refine ⟨hparity x.2.length (List.mem_map.mpr ⟨x, hx, rfl⟩), ?_, ?_⟩
            · show (s.fweight.arr x.1).length = (s.fwave.arr x.1).length
              rw [he]
              exact h.weight _ hw
            · intro row hr
              show row.length = (s.fwave.arr x.1).length
              rw [he]
              exact hrow row hr)
          (by
            intro r hr w' hw'
            obtain ⟨x, hx, rfl⟩ := List.mem_map.mp hr
            obtain ⟨w, hw, he, hrow⟩ := harm x hx
            replace hw' : w' ∈ s.fwave.arr x.1 := hw'
            rw [he] at hw'
            exact (hin' _ hw w' hw').1)
          (by
            intro r hr w' hw'
            obtain ⟨x, hx, rfl⟩ := List.mem_map.mp hr
            obtain ⟨w, hw, he, hrow⟩ := harm x hx
            replace hw' : w' ∈ s.fwave.arr x.1 := hw'
            rw [he] at hw'
            exact (hin' _ hw w' hw').2)
          (by
            intro r hr
            obtain ⟨x, hx, rfl⟩ := List.mem_map.mp hr
            obtain ⟨w, hw, he, hrow⟩ := harm x hx
            show (s.fwave.arr x.1).Pairwise _
            rw [he]
            have := h1 (s.forestPix x.1) (List.mem_map.mpr ⟨_, hw, rfl⟩)
            have e := forestPix_wave h hw
            simp only at e
            rw [← e, List.pairwise_map]
            exact this)
        rw [if_neg hc, this, except_bind_ok, except_pure]
        simp only [List.map_map]
        rfl
      · rcases hmax with h3 | h3
        · obtain ⟨x, hx⟩ := List.exists_mem_of_ne_nil _ hc
          exact ⟨x, hx, by have := hle x hx; omega⟩
        · exact h3
  obtain ⟨c, hc, hc0, hc1⟩ := hcont
  obtain ⟨r, hr, hr0, hr1⟩ := hreso
  refine ⟨_, by
    unfold coaddArmsForest
    rw [hg, except_bind_ok]
    dsimp only
    rw [hval, except_bind_ok, hc, except_bind_ok, hr, except_bind_ok, except_pure], ?_⟩
  have setters : ∀ (t : Spectrum K) (x : K),
      let u := ((t.setSmoothForestivar smooth s.smoothing).setForestWeight varlss eta).withSnr x
      u.fwave = t.fwave ∧ u.fflux = t.fflux ∧ u.fivar = t.fivar ∧ u.cont = t.cont ∧
        u.freso = t.freso := by
    intro t x
    unfold withSnr setForestWeight setSmoothForestivar
    split <;> split <;> exact ⟨rfl, rfl, rfl, rfl, rfl⟩
  obtain ⟨e1, e2, e3, e4, e5⟩ := setters (s.replaceForest (linspace a b (n + 1))
    ((List.range (n + 1)).map (fun k => if 0 < sumWeight (C k) then meanFlux (C k) else 0))
    ((List.range (n + 1)).map (fun k => if 0 < sumWeight (C k) then 1 / meanVar (C k) else 0)) c r)
    (coaddSnr sqrt nan
      ((List.range (n + 1)).map (fun k => if 0 < sumWeight (C k) then meanFlux (C k) else 0))
      ((List.range (n + 1)).map (fun k => if 0 < sumWeight (C k) then 1 / meanVar (C k) else 0)))
  have hlin := linspace_succ a b n
  refine ⟨e1.trans (by rw [← hlin]; rfl), e2, e3, ?_, ?_, ?_, ?_⟩
  · intro h'; rw [e4]; exact hc0 h'
  · intro h'; rw [e4]; exact hc1 h'
  · intro h'; rw [e5]; exact hr0 h'
  · intro h'
    obtain ⟨m, hm1, hm2, hm3⟩ := hr1 h'
    exact ⟨m, hm1, hm2, by rw [e5]; exact hm3⟩

/-- **C26.** Arms on a common wavelength grid, up to rounding errors of a twentieth of the spacing,
have at most one pixel per cell, and pixels of different arms are in the same cell exactly if they are
the same pixel of the common grid; so the hypothesis of `C26_coadd_arms` holds. -/
theorem C26_common_grid {w0 dwave lo : K} {j0 : Nat} (hd : 0 < dwave)
    (hlo : |lo - (w0 + (j0 : K) * dwave)| < dwave / 20) {w : K} {j : Nat} (hj : j0 ≤ j)
    (hw : |w - (w0 + (j : K) * dwave)| < dwave / 20) (k : Nat) :
    InCell lo dwave k w ↔ j = j0 + k := by
  obtain ⟨i, rfl⟩ := Nat.exists_eq_add_of_le hj
  rw [abs_lt] at hlo hw
  push_cast at hw
  have e : ∀ m : K, ∀ x : K, (m + x) * dwave = m * dwave + x * dwave := fun m x => by ring
  unfold InCell
  constructor
  · rintro ⟨h1, h2⟩
    have hk1 : (k : K) * dwave < ((i : K) + 1) * dwave := by linarith
    have hk2 : (i : K) * dwave < ((k : K) + 1) * dwave := by linarith
    have hk1' : (k : K) < ((i + 1 : Nat) : K) := by
      push_cast; exact lt_of_mul_lt_mul_right hk1 hd.le
    have hk2' : (i : K) < ((k + 1 : Nat) : K) := by
      push_cast; exact lt_of_mul_lt_mul_right hk2 hd.le
    rw [Nat.cast_lt] at hk1' hk2'
    omega
  · intro h
    have : i = k := by omega
    subst this
    constructor <;> linarith

/-- **C26.** Such arms satisfy the hypothesis of `C26_coadd_arms` on the cells. -/
theorem C26_common_grid_one_per_cell {s : Spectrum K} (h : ForestOk s) {w0 lo : K} {j0 : Nat}
    (hlo : |lo - (w0 + (j0 : K) * s.dwave)| < s.dwave / 20)
    (hg : ∀ x ∈ s.fwave, ∃ j, j0 ≤ j ∧ OnGridFrom w0 s.dwave j x.2) :
    OnePerCell lo s.dwave (s.fwave.map (fun x => s.forestPix x.1)) := by
  intro a ha
  obtain ⟨x, hx, rfl⟩ := List.mem_map.mp ha
  obtain ⟨j, hj, hon⟩ := hg x hx
  have : x.2.Pairwise (fun v w => ∀ k, InCell lo s.dwave k v → ¬ InCell lo s.dwave k w) := by
    rw [List.pairwise_iff_getElem]
    intro i i' hi hi' hlt k h1 h2
    have g1 := hon i _ (List.getElem?_eq_getElem hi)
    have g2 := hon i' _ (List.getElem?_eq_getElem hi')
    have := (C26_common_grid h.dwave hlo (by omega) g1 k).mp h1
    have := (C26_common_grid h.dwave hlo (by omega) g2 k).mp h2
    omega
  rw [← forestPix_wave h hx, List.pairwise_map] at this
  exact this

omit [IsStrictOrderedRing K] [FloorRing K] in
theorem sumWeight_perm {l m : List (Pix K)} (h : l.Perm m) : sumWeight l = sumWeight m :=
  (h.map _).sum_eq

omit [IsStrictOrderedRing K] [FloorRing K] in
theorem meanFlux_perm {l m : List (Pix K)} (h : l.Perm m) : meanFlux l = meanFlux m := by
  unfold meanFlux
  rw [(h.map _).sum_eq, sumWeight_perm h]

omit [IsStrictOrderedRing K] [FloorRing K] in
theorem meanVar_perm {l m : List (Pix K)} (h : l.Perm m) : meanVar l = meanVar m := by
  unfold meanVar
  rw [((h.filter _).map _).sum_eq, sumWeight_perm h]

/-- **C26.** The order of the arms does not matter for wavelength, flux and ivar. -/
theorem C26_order {s s' : Spectrum K} (h : ForestOk s) (h' : ForestOk s')
    (hd : s'.dwave = s.dwave) (hp : s'.fwave.Perm s.fwave)
    (hx : ∀ x ∈ s.fwave, s'.fflux.arr x.1 = s.fflux.arr x.1 ∧ s'.fivar.arr x.1 = s.fivar.arr x.1 ∧
      s'.fweight.arr x.1 = s.fweight.arr x.1)
    {lo hi : K} (hlo : IsLeast (allWaves s.fwave) lo)
    (hhi : IsGreatest (allWaves s.fwave) hi) {n : Nat} (hn : InCell lo s.dwave n hi)
    (h1 : OnePerCell lo s.dwave (s.fwave.map (fun x => s.forestPix x.1)))
    (sqrt : K → K) (smooth : List K → K → List K) (junk : Nat → K) (nan eps : K)
    (varlss eta : K → K) :
    ∃ t t', s.coaddArmsForest sqrt smooth junk nan eps varlss eta = .ok t ∧
      s'.coaddArmsForest sqrt smooth junk nan eps varlss eta = .ok t' ∧
      t'.fwave = t.fwave ∧ t'.fflux = t.fflux ∧ t'.fivar = t.fivar := by
  have hall : allWaves s'.fwave = allWaves s.fwave := by
    ext w
    unfold allWaves
    simp only [Set.mem_setOf_eq, hp.mem_iff]
  have hpix : ∀ x ∈ s.fwave, s'.forestPix x.1 = s.forestPix x.1 := by
    intro x hx'
    obtain ⟨a, b, c⟩ := hx x hx'
    have e : s'.fwave.arr x.1 = s.fwave.arr x.1 := by
      rw [arr_of_lookup (lookup_of_mem h.nodup hx'),
        arr_of_lookup (lookup_of_mem h'.nodup (hp.mem_iff.mpr hx'))]
    unfold forestPix
    rw [a, b, c, e]
  have hperm : (s'.fwave.map (fun x => s'.forestPix x.1)).Perm
      (s.fwave.map (fun x => s.forestPix x.1)) := by
    refine (hp.map _).trans ?_
    rw [List.map_congr_left hpix]
  obtain ⟨t, ht, e1, e2, e3, -⟩ := C26_coadd_arms h hlo hhi hn h1 sqrt smooth junk nan eps varlss eta
  obtain ⟨t', ht', e1', e2', e3', -⟩ := C26_coadd_arms h' (hall ▸ hlo) (hall ▸ hhi) (hd ▸ hn)
    (by
      rw [hd]
      intro a ha
      exact h1 a (hperm.mem_iff.mp ha)) sqrt smooth junk nan eps varlss eta
  have hcell : ∀ k, (cell lo s'.dwave (s'.fwave.map (fun x => s'.forestPix x.1)) k).Perm
      (cell lo s.dwave (s.fwave.map (fun x => s.forestPix x.1)) k) := by
    intro k
    rw [hd]
    exact (hperm.flatten).filter _
  refine ⟨t, t', ht, ht', by rw [e1, e1'], ?_, ?_⟩
  · rw [e2, e2']
    congr 3
    funext k
    rw [sumWeight_perm (hcell k), meanFlux_perm (hcell k)]
  · rw [e3, e3']
    congr 3
    funext k
    rw [sumWeight_perm (hcell k), meanVar_perm (hcell k)]

/-- **C26.** The weighted mean lies between bounds on the flux of the pixels with weight. -/
theorem C26_mean_between {l : List (Pix K)} (h0 : ∀ p ∈ l, 0 ≤ p.weight) (hs : 0 < sumWeight l)
    {a b : K} (hab : ∀ p ∈ l, 0 < p.weight → a ≤ p.flux ∧ p.flux ≤ b) :
    a ≤ meanFlux l ∧ meanFlux l ≤ b := by
  have key : ∀ l : List (Pix K), (∀ p ∈ l, 0 ≤ p.weight) →
      (∀ p ∈ l, 0 < p.weight → a ≤ p.flux ∧ p.flux ≤ b) →
      a * sumWeight l ≤ (l.map (fun p => p.weight * p.flux)).sum ∧
        (l.map (fun p => p.weight * p.flux)).sum ≤ b * sumWeight l := by
    intro l
    induction l with
    | nil => intro _ _; simp [sumWeight]
    | cons p l ih =>
      intro g0 g1
      obtain ⟨i1, i2⟩ := ih (fun q hq => g0 q (by simp [hq])) (fun q hq => g1 q (by simp [hq]))
      have e : sumWeight (p :: l) = p.weight + sumWeight l := by simp [sumWeight]
      rw [e, List.map_cons, List.sum_cons]
      rcases (g0 p (by simp)).eq_or_lt with hz | hz
      · rw [← hz]; constructor <;> linarith
      · obtain ⟨c1, c2⟩ := g1 p (by simp) hz
        have := mul_le_mul_of_nonneg_left c1 hz.le
        have := mul_le_mul_of_nonneg_left c2 hz.le
        constructor <;> linarith
  obtain ⟨h1, h2⟩ := key l h0 hab
  unfold meanFlux
  exact ⟨(le_div_iff₀ hs).mpr h1, (div_le_iff₀ hs).mpr h2⟩

/-- **C26.** With the ivar as weight (no continuum, or `simple_coadd`) the coadded ivar is the sum of
the ivar. -/
theorem C26_ivar_adds {l : List (Pix K)} (h0 : ∀ p ∈ l, 0 ≤ p.ivar)
    (hw : ∀ p ∈ l, p.weight = p.ivar) (hs : 0 < sumWeight l) :
    1 / meanVar l = (l.map (fun p => p.ivar)).sum := by
  have key : ∀ l : List (Pix K), (∀ p ∈ l, 0 ≤ p.ivar) → (∀ p ∈ l, p.weight = p.ivar) →
      ((l.filter (fun p => decide (0 < p.ivar))).map (fun p => p.weight ^ 2 / p.ivar)).sum =
        sumWeight l := by
    intro l
    induction l with
    | nil => intro _ _; simp [sumWeight]
    | cons p l ih =>
      intro g0 g1
      have i := ih (fun q hq => g0 q (by simp [hq])) (fun q hq => g1 q (by simp [hq]))
      have e : sumWeight (p :: l) = p.weight + sumWeight l := by simp [sumWeight]
      rw [e, List.filter_cons, g1 p (by simp)]
      rcases (g0 p (by simp)).eq_or_lt with hz | hz
      · simp [← hz, i]
      · simp only [hz, decide_true, if_true, List.map_cons, List.sum_cons, i, g1 p (by simp)]
        congr 1
        field_simp
  unfold meanVar
  rw [key l h0 hw, one_div_div]
  have e : sumWeight l = (l.map (fun p => p.ivar)).sum := by
    unfold sumWeight
    rw [List.map_congr_left hw]
  rw [← e]
  field_simp

omit [FloorRing K] in
theorem var_sum_nonneg (l : List (Pix K)) :
    0 ≤ ((l.filter (fun p => decide (0 < p.ivar))).map (fun p => p.weight ^ 2 / p.ivar)).sum := by
  refine List.sum_nonneg fun x hx => ?_
  obtain ⟨p, hp, rfl⟩ := List.mem_map.mp hx
  have : 0 < p.ivar := by simpa using (List.mem_filter.mp hp).2
  positivity

omit [FloorRing K] in
theorem var_sum_pos {l : List (Pix K)} (h0 : ∀ p ∈ l, 0 ≤ p.weight)
    (hi : ∀ p ∈ l, 0 < p.weight → 0 < p.ivar) (hs : 0 < sumWeight l) :
    0 < ((l.filter (fun p => decide (0 < p.ivar))).map (fun p => p.weight ^ 2 / p.ivar)).sum := by
  induction l with
  | nil => simp [sumWeight] at hs
  | cons p l ih =>
    have e : sumWeight (p :: l) = p.weight + sumWeight l := by simp [sumWeight]
    rw [e] at hs
    rcases (h0 p (by simp)).eq_or_lt with hz | hz
    · have := ih (fun q hq => h0 q (by simp [hq])) (fun q hq => hi q (by simp [hq]))
        (by rw [← hz] at hs; linarith)
      rw [List.filter_cons]
      split
      · rename_i hp
        have hp' : 0 < p.ivar := by simpa using hp
        rw [List.map_cons, List.sum_cons]
        have : 0 ≤ p.weight ^ 2 / p.ivar := by positivity
        linarith
      · exact this
    · have hp := hi p (by simp) hz
      have := var_sum_nonneg l
      rw [List.filter_cons]
      simp only [hp, decide_true, if_true, List.map_cons, List.sum_cons]
      have : 0 < p.weight ^ 2 / p.ivar := by positivity
      linarith

/-- **C26.** Coadding never claims more information than the pixels have: the coadded ivar is at most
the sum of the ivar, whatever the weights. -/
theorem C26_ivar_le_sum {l : List (Pix K)} (h0 : ∀ p ∈ l, 0 ≤ p.weight)
    (hi : ∀ p ∈ l, 0 < p.weight → 0 < p.ivar) (hiv : ∀ p ∈ l, 0 ≤ p.ivar) (hs : 0 < sumWeight l) :
    1 / meanVar l ≤ (l.map (fun p => p.ivar)).sum := by
  have key : ∀ l : List (Pix K), (∀ p ∈ l, 0 ≤ p.weight) → (∀ p ∈ l, 0 < p.weight → 0 < p.ivar) →
      (∀ p ∈ l, 0 ≤ p.ivar) →
      sumWeight l ^ 2 ≤ (l.map (fun p => p.ivar)).sum *
      ((l.filter (fun p => decide (0 < p.ivar))).map (fun p => p.weight ^ 2 / p.ivar)).sum := by
    intro l
    induction l with
    | nil => intro _ _ _; simp [sumWeight]
    | cons p l ih =>
      intro g0 g1 g2
      have i := ih (fun q hq => g0 q (by simp [hq])) (fun q hq => g1 q (by simp [hq]))
        (fun q hq => g2 q (by simp [hq]))
      have e : sumWeight (p :: l) = p.weight + sumWeight l := by simp [sumWeight]
      have hS : 0 ≤ (l.map (fun p => p.ivar)).sum := List.sum_nonneg fun x hx => by
        obtain ⟨q, hq, rfl⟩ := List.mem_map.mp hx
        exact g2 q (by simp [hq])
      have hV := var_sum_nonneg l
      set S := (l.map (fun p => p.ivar)).sum
      set V := ((l.filter (fun p => decide (0 < p.ivar))).map (fun p => p.weight ^ 2 / p.ivar)).sum
      rw [e, List.filter_cons, List.map_cons, List.sum_cons]
      by_cases hp : 0 < p.ivar
      · simp only [hp, decide_true, if_true, List.map_cons, List.sum_cons]
        set W := sumWeight l
        set u := p.weight
        set v := p.ivar
        have hq : v * (u ^ 2 / v) = u ^ 2 := by field_simp
        have hq2 : S * (u ^ 2 / v) = S * u ^ 2 / v := by ring
        have hvne : v ≠ 0 := hp.ne'
        -- (S u²/v) + v V ≥ 2 u W
        have : 2 * u * W ≤ S * (u ^ 2 / v) + v * V := by
          by_contra hc
          push Not at hc
          have hx : 0 ≤ S * (u ^ 2 / v) := by positivity
          have hy : 0 ≤ v * V := by positivity
          have h1 : (S * (u ^ 2 / v) + v * V) ^ 2 < (2 * u * W) ^ 2 := by
            apply pow_lt_pow_left₀ hc (by linarith) (by norm_num)
          have h2 : (S * (u ^ 2 / v)) * (v * V) = u ^ 2 * (S * V) := by
            field_simp
          have h3 : u ^ 2 * W ^ 2 ≤ u ^ 2 * (S * V) :=
            mul_le_mul_of_nonneg_left i (sq_nonneg u)
          nlinarith [sq_nonneg (S * (u ^ 2 / v) - v * V)]
        nlinarith
      · have hz : p.weight = 0 := by
          by_contra hne
          exact hp (g1 p (by simp) (lt_of_le_of_ne (g0 p (by simp)) (Ne.symm hne)))
        have hz' : p.ivar = 0 := le_antisymm (not_lt.mp hp) (g2 p (by simp))
        rw [hz, hz', if_neg (by simpa using hp)]
        simpa using i
  have hpos := var_sum_pos h0 hi hs
  unfold meanVar
  rw [one_div_div, div_le_iff₀ hpos]
  exact key l h0 hi hiv

/-- **C26.** `simple_coadd` on the grid of `_set_coadd_wave`: ivar-weighted mean flux, and the sum of
the ivar, in every cell of the grid. Resolution: the mean of the rows, also weighted with the ivar
(weight `eps` for pixels of zero ivar). -/
theorem C26_simple_coadd {s : Spectrum K} (hd : 0 < s.dwave) (hn : s.wave.keys.Nodup)
    (hne : s.wave ≠ [])
    (hs : ∀ x ∈ s.wave, x.2 ≠ [] ∧ x.2.Pairwise (· < ·))
    (hl : ∀ x ∈ s.wave, (s.flux.arr x.1).length = x.2.length ∧ (s.ivar.arr x.1).length = x.2.length)
    (h0 : ∀ x ∈ s.wave, ∀ v ∈ s.ivar.arr x.1, 0 ≤ v)
    (hre : ∀ x ∈ s.reso, ∃ w, (x.1, w) ∈ s.wave ∧ ∀ row ∈ x.2, row.length = w.length)
    (hrp : ∀ x ∈ s.reso, ∀ y ∈ s.reso, x.2.length % 2 = y.2.length % 2)
    {r : K → Int} (hr : ∀ x, ⌊x⌋ ≤ r x) (nan eps : K) :
    ∃ lo n, coaddWaveGrid r s.dwave (s.wave.map Prod.snd) = .ok (lo, n) ∧
      IsLeast (allWaves s.wave) lo ∧
      (OnePerCell lo s.dwave (s.wave.map (fun x => s.simplePix x.1)) →
      let C := cell lo s.dwave (s.wave.map (fun x => s.simplePix x.1))
      ∃ t, s.simpleCoadd nan eps lo n = .ok t ∧
        (∀ x ∈ s.wave, ∀ w ∈ x.2, ∃ k < n, InCell lo s.dwave k w) ∧
        t.wave = [("brz", (List.range n).map (fun i : Nat => lo + (i : K) * s.dwave))] ∧
        t.flux = [("brz", (List.range n).map (fun k =>
          if 0 < sumWeight (C k) then meanFlux (C k) else 0))] ∧
        t.ivar = [("brz", (List.range n).map (fun k => ((C k).map (fun p => p.ivar)).sum))] ∧
        (s.reso = [] → t.reso = []) ∧
        (s.reso ≠ [] → ∃ m, (∀ x ∈ s.reso, x.2.length ≤ m) ∧ (∃ x ∈ s.reso, x.2.length = m) ∧
          let R := fun r => cell lo s.dwave (s.reso.map (fun x =>
            resoPix eps m r ⟨s.wave.arr x.1, s.ivar.arr x.1, x.2⟩))
          t.reso = [("brz", (List.range m).map (fun r => (List.range n).map (fun k =>
            if sumWeight (R 0 k) = 0 then nan
            else ((R r k).map (fun p => p.weight * p.flux)).sum / sumWeight (R 0 k))))])) := by
  obtain ⟨a, b, n', hg, ⟨la, hla, ham⟩, ⟨lb, hlb, hbm⟩, hin, hn', hcell⟩ :=
    forestGrid_ok hd (waves := s.wave.map Prod.snd) (by simpa using hne)
      (fun w hw => by
        obtain ⟨x, hx, rfl⟩ := List.mem_map.mp hw
        exact (hs x hx).1)
      (fun w hw => by
        obtain ⟨x, hx, rfl⟩ := List.mem_map.mp hw
        exact (hs x hx).2)
  obtain ⟨xa, hxa, rfl⟩ := List.mem_map.mp hla
  obtain ⟨xb, hxb, rfl⟩ := List.mem_map.mp hlb
  have hab : a ≤ b := (hin _ hlb b hbm).1
  have hgrid : coaddWaveGrid r s.dwave (s.wave.map Prod.snd) =
      .ok (a, (r ((b - a) / s.dwave + 1 / 10) + 1).toNat) := by
    unfold forestGrid at hg
    unfold coaddWaveGrid
    cases e1 : (s.wave.map Prod.snd).mapM firstElem with
    | error e => rw [e1] at hg; simp at hg
    | ok f =>
      rw [e1, except_bind_ok] at hg
      rw [except_bind_ok]
      cases e2 : listMin f with
      | error e => rw [e2] at hg; simp at hg
      | ok m1 =>
        rw [e2, except_bind_ok] at hg
        rw [except_bind_ok]
        cases e3 : (s.wave.map Prod.snd).mapM lastElem with
        | error e => rw [e3] at hg; simp at hg
        | ok g =>
          rw [e3, except_bind_ok] at hg
          rw [except_bind_ok]
          cases e4 : listMax g with
          | error e => rw [e4] at hg; simp at hg
          | ok m2 =>
            rw [e4, except_bind_ok, except_pure] at hg
            rw [except_bind_ok, except_pure]
            simp only [Except.ok.injEq, Prod.mk.injEq] at hg
            obtain ⟨rfl, rfl, -⟩ := hg
            rfl
  have hle : cellIdx a s.dwave b + 1 ≤ (r ((b - a) / s.dwave + 1 / 10) + 1).toNat := by
    have h1 := coaddIdx_eq_cellIdx hd hab
    have h0' : 0 ≤ (b - a) / s.dwave + 1 / 10 := by
      have := div_nonneg (sub_nonneg.mpr hab) hd.le
      linarith
    unfold coaddIdx truncInt at h1
    rw [if_pos h0'] at h1
    have := hr ((b - a) / s.dwave + 1 / 10)
    omega
  refine ⟨a, _, hgrid, ⟨⟨xa, hxa, ham⟩, ?_⟩, ?_⟩
  · rintro w ⟨x, hx, hw⟩
    exact (hin x.2 (List.mem_map.mpr ⟨x, hx, rfl⟩) w hw).1
  intro h1 C
  set n := (r ((b - a) / s.dwave + 1 / 10) + 1).toNat with hndef
  have harr : ∀ x ∈ s.wave, s.wave.arr x.1 = x.2 := fun x hx =>
    arr_of_lookup (lookup_of_mem hn hx)
  have hpw : ∀ x ∈ s.wave, (s.simplePix x.1).map (fun p => p.wave) = x.2 := by
    intro x hx
    unfold simplePix
    rw [harr x hx]
    exact pixelsOf_wave (hl x hx).2 (hl x hx).1 (hl x hx).2
  have hpi : ∀ x ∈ s.wave, ∀ p ∈ s.simplePix x.1, p.weight = p.ivar ∧ 0 ≤ p.ivar := by
    intro x hx p hp
    have key : ∀ (wave iv flux : List K), (∀ v ∈ iv, 0 ≤ v) → ∀ p ∈ pixelsOf wave iv flux iv,
        p.weight = p.ivar ∧ 0 ≤ p.ivar := by
      intro wave iv
      unfold pixelsOf
      induction wave generalizing iv with
      | nil => intro flux _ p hp; simp at hp
      | cons w wave ih =>
        intro flux hv p hp
        cases iv with
        | nil => simp at hp
        | cons v iv =>
          cases flux with
          | nil => simp at hp
          | cons f flux =>
            simp only [List.zip_cons_cons, List.zipWith_cons_cons, List.mem_cons] at hp
            rcases hp with rfl | hp
            · exact ⟨rfl, hv v (by simp)⟩
            · exact ih iv flux (fun v hv' => hv v (by simp [hv'])) p hp
    exact key _ _ _ (h0 x hx) p hp
  have hmem : ∀ x ∈ s.wave, ∀ p ∈ s.simplePix x.1, p.wave ∈ x.2 := by
    intro x hx p hp
    rw [← hpw x hx]
    exact List.mem_map.mpr ⟨p, hp, rfl⟩
  have hval := coaddArms_value hd (n := n) (arms := s.wave.map (fun x => s.simplePix x.1))
    (minWave := a)
    (by
      intro l hl p hp
      obtain ⟨x, hx, rfl⟩ := List.mem_map.mp hl
      exact (hin x.2 (List.mem_map.mpr ⟨x, hx, rfl⟩) _ (hmem x hx p hp)).1)
    (by
      intro l hl p hp
      obtain ⟨x, hx, rfl⟩ := List.mem_map.mp hl
      have := hcell x.2 (List.mem_map.mpr ⟨x, hx, rfl⟩) _ (hmem x hx p hp)
      omega) h1
    (by
      intro l hl p hp
      obtain ⟨x, hx, rfl⟩ := List.mem_map.mp hl
      rw [(hpi x hx p hp).1]
      exact (hpi x hx p hp).2)
  have hc : ∀ k, ∀ p ∈ C k, p.weight = p.ivar ∧ 0 ≤ p.ivar := by
    intro k p hp
    obtain ⟨l, hl', hpa⟩ := List.mem_flatten.mp (List.mem_filter.mp hp).1
    obtain ⟨x, hx, rfl⟩ := List.mem_map.mp hl'
    exact hpi x hx p hpa
  have hin' : ∀ x ∈ s.wave, ∀ w ∈ x.2, a ≤ w ∧ cellIdx a s.dwave w < n := by
    intro x hx w hw
    have := hcell x.2 (List.mem_map.mpr ⟨x, hx, rfl⟩) w hw
    exact ⟨(hin x.2 (List.mem_map.mpr ⟨x, hx, rfl⟩) w hw).1, by omega⟩
  have hreso : ∃ c, s.simpleReso nan eps a n = .ok c ∧ (s.reso = [] → c = []) ∧
      (s.reso ≠ [] → ∃ m, (∀ x ∈ s.reso, x.2.length ≤ m) ∧ (∃ x ∈ s.reso, x.2.length = m) ∧
        let R := fun r => cell a s.dwave (s.reso.map (fun x =>
          resoPix eps m r ⟨s.wave.arr x.1, s.ivar.arr x.1, x.2⟩))
        c = [("brz", (List.range m).map (fun r => (List.range n).map (fun k =>
          if sumWeight (R 0 k) = 0 then nan
          else ((R r k).map (fun p => p.weight * p.flux)).sum / sumWeight (R 0 k))))]) := by
    unfold simpleReso
    by_cases hc : s.reso = []
    · exact ⟨[], by rw [if_pos hc], fun _ => rfl, fun h => absurd hc h⟩
    · set m := (s.reso.map (fun x => x.2.length)).foldl max 0 with hm
      have hparity := foldl_max_parity (l := s.reso.map (fun x => x.2.length)) (by
        intro u hu v hv
        obtain ⟨x, hx, rfl⟩ := List.mem_map.mp hu
        obtain ⟨y, hy, rfl⟩ := List.mem_map.mp hv
        exact hrp x hx y hy)
      rw [← hm] at hparity
      have harm : ∀ x ∈ s.reso, ∃ w, (x.1, w) ∈ s.wave ∧ s.wave.arr x.1 = w ∧
          ∀ row ∈ x.2, row.length = w.length := by
        intro x hx
        obtain ⟨w, hw, hrow⟩ := hre x hx
        exact ⟨w, hw, arr_of_lookup (lookup_of_mem hn hw), hrow⟩
      have hmax : m = 0 ∨ ∃ x ∈ s.reso, x.2.length = m := by
        have : ∀ (l : List Nat) (x : Nat), l.foldl max x = x ∨ l.foldl max x ∈ l := by
          intro l
          induction l with
          | nil => simp
          | cons y l ih =>
            intro x
            rw [List.foldl_cons]
            rcases ih (max x y) with h3 | h3
            · rcases max_choice x y with h | h
              · left; rw [h3, h]
              · right; rw [h3, h]; simp
            · right; simp [h3]
        rcases this (s.reso.map (fun x => x.2.length)) 0 with h3 | h3
        · exact Or.inl h3
        · obtain ⟨x, hx, he⟩ := List.mem_map.mp h3
          exact Or.inr ⟨x, hx, he⟩
      have hle : ∀ x ∈ s.reso, x.2.length ≤ m := by
        intro x hx
        have := hparity x.2.length (List.mem_map.mpr ⟨x, hx, rfl⟩)
        omega
      refine ⟨_, ?_, fun h => absurd h hc, fun _ => ⟨m, hle, ?_, rfl⟩⟩
      · have := coaddReso_eq (nan := nan) (eps := eps) (minWave := a) hd (n := n) (m := m)
          (arms := s.reso.map (fun x => (⟨s.wave.arr x.1, s.ivar.arr x.1, x.2⟩ : ResoArm K)))
          (by rw [List.map_map]; rfl)
          (by
            intro r hr
            obtain ⟨x, hx, rfl⟩ := List.mem_map.mp hr
            obtain ⟨w, hw, he, hrow⟩ := harm x hx
            refine ⟨hparity x.2.length (List.mem_map.mpr ⟨x, hx, rfl⟩), ?_, ?_⟩
            · show (s.ivar.arr x.1).length = (s.wave.arr x.1).length
              rw [he]
              exact (hl _ hw).2
            · intro row hr
              show row.length = (s.wave.arr x.1).length
              rw [he]
              exact hrow row hr)
          (by
            intro r hr w' hw'
            obtain ⟨x, hx, rfl⟩ := List.mem_map.mp hr
            obtain ⟨w, hw, he, hrow⟩ := harm x hx
            replace hw' : w' ∈ s.wave.arr x.1 := hw'
            rw [he] at hw'
            exact (hin' _ hw w' hw').1)
          (by
            intro r hr w' hw'
            obtain ⟨x, hx, rfl⟩ := List.mem_map.mp hr
            obtain ⟨w, hw, he, hrow⟩ := harm x hx
            replace hw' : w' ∈ s.wave.arr x.1 := hw'
            rw [he] at hw'
            exact (hin' _ hw w' hw').2)
          (by
            intro r hr
            obtain ⟨x, hx, rfl⟩ := List.mem_map.mp hr
            obtain ⟨w, hw, he, hrow⟩ := harm x hx
            show (s.wave.arr x.1).Pairwise _
            rw [he]
            have := h1 (s.simplePix x.1) (List.mem_map.mpr ⟨_, hw, rfl⟩)
            have e := hpw _ hw
            simp only at e
            rw [← e, List.pairwise_map]
            exact this)
        rw [if_neg hc, this, except_bind_ok, except_pure]
        simp only [List.map_map]
        rfl
      · rcases hmax with h3 | h3
        · obtain ⟨x, hx⟩ := List.exists_mem_of_ne_nil _ hc
          exact ⟨x, hx, by have := hle x hx; omega⟩
        · exact h3
  obtain ⟨c, hc', hc0, hc1⟩ := hreso
  refine ⟨_, by
    unfold simpleCoadd
    rw [hval, except_bind_ok, hc', except_bind_ok, except_pure], ?_, rfl, rfl, ?_, hc0, hc1⟩
  · intro x hx w hw
    have g := hin x.2 (List.mem_map.mpr ⟨x, hx, rfl⟩) w hw
    have := hcell x.2 (List.mem_map.mpr ⟨x, hx, rfl⟩) w hw
    exact ⟨cellIdx a s.dwave w, by omega, (cellIdx_eq_iff hd g.1 _).mp rfl⟩
  · dsimp only
    congr 2
    refine List.map_congr_left fun k _ => ?_
    by_cases hs' : 0 < sumWeight (C k)
    · rw [if_pos hs']
      exact C26_ivar_adds (fun p hp => (hc k p hp).2) (fun p hp => (hc k p hp).1) hs'
    · rw [if_neg hs']
      symm
      refine List.sum_eq_zero fun y hy => ?_
      obtain ⟨p, hp, rfl⟩ := List.mem_map.mp hy
      rw [← (hc k p hp).1]
      exact sum_eq_zero_weights (fun p hp => by rw [(hc k p hp).1]; exact (hc k p hp).2) hs' p hp

/-! ### C27 -/

/-- **C27.** A pixel of the coadded grid is masked (zero flux and ivar) if no arm pixel in its cell has
weight, and good (positive ivar, so no division by zero) if one has. -/
theorem C27_gaps {s : Spectrum K} (h : ForestOk s) {lo hi : K} (hlo : IsLeast (allWaves s.fwave) lo)
    (hhi : IsGreatest (allWaves s.fwave) hi) {n : Nat} (hn : InCell lo s.dwave n hi)
    (h1 : OnePerCell lo s.dwave (s.fwave.map (fun x => s.forestPix x.1)))
    (sqrt : K → K) (smooth : List K → K → List K) (junk : Nat → K) (nan eps : K)
    (varlss eta : K → K) :
    ∃ t flux ivar, s.coaddArmsForest sqrt smooth junk nan eps varlss eta = .ok t ∧
      t.fflux = [("brz", flux)] ∧ t.fivar = [("brz", ivar)] ∧
      flux.length = n + 1 ∧ ivar.length = n + 1 ∧
      ∀ k ≤ n,
        ((∀ x ∈ s.fwave, ∀ p ∈ s.forestPix x.1, InCell lo s.dwave k p.wave → p.weight = 0) →
          flux[k]? = some 0 ∧ ivar[k]? = some 0) ∧
        ((∃ x ∈ s.fwave, ∃ p ∈ s.forestPix x.1, InCell lo s.dwave k p.wave ∧ 0 < p.weight) →
          ∃ v, ivar[k]? = some v ∧ 0 < v) := by
  obtain ⟨t, ht, -, e2, e3, -⟩ := C26_coadd_arms h hlo hhi hn h1 sqrt smooth junk nan eps varlss eta
  refine ⟨t, _, _, ht, e2, e3, by simp, by simp, fun k hk => ⟨fun hz => ?_, fun ⟨x, hx, p, hp, hc, hw⟩ => ?_⟩⟩
  · have hzero : ∀ p ∈ cell lo s.dwave (s.fwave.map (fun x => s.forestPix x.1)) k, p.weight = 0 := by
      intro p hp
      obtain ⟨hp1, hp2⟩ := List.mem_filter.mp hp
      obtain ⟨l, hl, hpl⟩ := List.mem_flatten.mp hp1
      obtain ⟨x, hx, rfl⟩ := List.mem_map.mp hl
      exact hz x hx p hpl (by simpa using hp2)
    have : sumWeight (cell lo s.dwave (s.fwave.map (fun x => s.forestPix x.1)) k) = 0 :=
      List.sum_eq_zero fun y hy => by
        obtain ⟨p, hp, rfl⟩ := List.mem_map.mp hy
        exact hzero p hp
    simp [this, show k < n + 1 by omega]
  · have hc0 : ∀ p ∈ cell lo s.dwave (s.fwave.map (fun x => s.forestPix x.1)) k,
        0 ≤ p.weight ∧ (0 < p.weight → 0 < p.ivar) := by
      intro p hp
      obtain ⟨l, hl, hpl⟩ := List.mem_flatten.mp (List.mem_filter.mp hp).1
      obtain ⟨x, hx, rfl⟩ := List.mem_map.mp hl
      exact h.nonneg x hx p hpl
    have hpc : p ∈ cell lo s.dwave (s.fwave.map (fun x => s.forestPix x.1)) k :=
      List.mem_filter.mpr ⟨List.mem_flatten.mpr ⟨_, List.mem_map.mpr ⟨x, hx, rfl⟩, hp⟩,
        by simpa using hc⟩
    have hs : 0 < sumWeight (cell lo s.dwave (s.fwave.map (fun x => s.forestPix x.1)) k) := by
      by_contra hs
      have := sum_eq_zero_weights (fun p hp => (hc0 p hp).1) hs p hpc
      linarith
    refine ⟨1 / meanVar (cell lo s.dwave (s.fwave.map (fun x => s.forestPix x.1)) k), ?_, ?_⟩
    · simp [hs, show k < n + 1 by omega]
    · unfold meanVar
      have := var_sum_pos (fun p hp => (hc0 p hp).1) (fun p hp => (hc0 p hp).2) hs
      positivity

/-- **C27**, partial: the continuum in a gap of the coadded grid is memory that was not initialised
(parameter `junk`), and the resolution there is `0 / 0` (parameter `nan`); flux, ivar and hence weight
are zero (`C27_gaps`). Missing for the full claim: a defined continuum and resolution in gaps, which
the code does not give. Where an arm has a pixel, the continuum is that of an arm pixel of the same
cell. -/
theorem C27_continuum_partial {s : Spectrum K} (h : ForestOk s) {lo hi : K}
    (hlo : IsLeast (allWaves s.fwave) lo)
    (hhi : IsGreatest (allWaves s.fwave) hi) {n : Nat} (hn : InCell lo s.dwave n hi)
    (h1 : OnePerCell lo s.dwave (s.fwave.map (fun x => s.forestPix x.1))) (hc : s.cont ≠ [])
    (hcl : ∀ x ∈ s.fwave, (s.cont.arr x.1).length = x.2.length)
    (sqrt : K → K) (smooth : List K → K → List K) (junk : Nat → K) (nan eps : K)
    (varlss eta : K → K) :
    ∃ t cont, s.coaddArmsForest sqrt smooth junk nan eps varlss eta = .ok t ∧
      t.cont = [("brz", cont)] ∧ cont.length = n + 1 ∧ ∀ k ≤ n,
        ((∃ x ∈ s.fwave, ∃ w ∈ x.2, InCell lo s.dwave k w) →
          ∃ x ∈ s.fwave, ∃ (i : Nat) (w c : K), x.2[i]? = some w ∧ (s.cont.arr x.1)[i]? = some c ∧
            InCell lo s.dwave k w ∧ cont[k]? = some c) ∧
        ((∀ x ∈ s.fwave, ∀ w ∈ x.2, ¬ InCell lo s.dwave k w) → cont[k]? = some (junk k)) := by
  obtain ⟨t, ht, -, -, -, -, e4, -⟩ :=
    C26_coadd_arms h hlo hhi hn h1 sqrt smooth junk nan eps varlss eta
  refine ⟨t, _, ht, e4 hc, by simp, fun k hk => ⟨fun ⟨x, hx, w, hw, hcell⟩ => ?_, fun hz => ?_⟩⟩
  · obtain ⟨i, hi⟩ := List.mem_iff_getElem?.mp hw
    have hci : ∃ c, (s.cont.arr x.1)[i]? = some c := by
      have hil : i < x.2.length := (List.getElem?_eq_some_iff.mp hi).1
      rw [← hcl x hx] at hil
      exact ⟨_, List.getElem?_eq_getElem hil⟩
    obtain ⟨c, hci⟩ := hci
    have hmem : (w, c) ∈ (s.fwave.flatMap (fun x => x.2.zip (s.cont.arr x.1))).filter
        (fun p => decide (InCell lo s.dwave k p.1)) := by
      refine List.mem_filter.mpr ⟨List.mem_flatMap.mpr ⟨x, hx, ?_⟩, by simpa using hcell⟩
      refine List.mem_iff_getElem?.mpr ⟨i, ?_⟩
      rw [List.getElem?_zip_eq_some]
      exact ⟨hi, hci⟩
    obtain ⟨q, hq⟩ : ∃ q, ((s.fwave.flatMap (fun x => x.2.zip (s.cont.arr x.1))).filter
        (fun p => decide (InCell lo s.dwave k p.1))).getLast? = some q :=
      ⟨_, List.getLast?_eq_getLast_of_ne_nil (List.ne_nil_of_mem hmem)⟩
    obtain ⟨hq1, hq2⟩ := List.mem_filter.mp (List.mem_of_getLast? hq)
    obtain ⟨y, hy, hq3⟩ := List.mem_flatMap.mp hq1
    obtain ⟨j, hj⟩ := List.mem_iff_getElem?.mp hq3
    rw [List.getElem?_zip_eq_some] at hj
    refine ⟨y, hy, j, q.1, q.2, hj.1, hj.2, by simpa using hq2, ?_⟩
    rw [List.getElem?_map, List.getElem?_range (by omega)]
    simp only [Option.map_some, lastIn, hq, Option.getD_some]
  · have hnil : (s.fwave.flatMap (fun x => x.2.zip (s.cont.arr x.1))).filter
        (fun p => decide (InCell lo s.dwave k p.1)) = [] := by
      rw [List.filter_eq_nil_iff]
      intro q hq
      obtain ⟨y, hy, hq3⟩ := List.mem_flatMap.mp hq
      simpa using hz y hy q.1 (List.of_mem_zip hq3).1
    rw [List.getElem?_map, List.getElem?_range (by omega)]
    simp only [Option.map_some, lastIn, hnil, List.getLast?_nil, Option.map_none, Option.getD_none]

/-! ### Examples -/

/-- Three arms, the first two with a shared pixel (number 2), and a gap (number 4). -/
def c26Spec : Spectrum ℚ :=
  { z := 2, dwave := 1, wave := [], flux := [], ivar := [], reso := []
    fwave := [("B", [100, 101, 102]), ("R", [102, 103]), ("Z", [105, 106])]
    fflux := [("B", [1, 2, 1]), ("R", [4, 2]), ("Z", [3, 7])]
    fivar := [("B", [1, 1, 2]), ("R", [1, 0]), ("Z", [2, 1])]
    freso := [("B", [[1, 1, 1]]), ("R", [[1, 2], [3, 4], [5, 6]])]
    ivarSm := none, weight := none, smoothing := 0, meanSnr := []
    cont := [("B", [9, 9, 9]), ("R", [8, 8]), ("Z", [7, 7])], valid := true, chi2 := 0, x0 := 1 }

theorem c26Spec_ok : ForestOk c26Spec := by
  constructor <;> try decide +kernel
  · intro r hr
    simp only [c26Spec, List.mem_cons, List.not_mem_nil, or_false] at hr
    rcases hr with rfl | rfl
    · exact ⟨[100, 101, 102], by decide +kernel, by decide +kernel⟩
    · exact ⟨[102, 103], by decide +kernel, by decide +kernel⟩

theorem c26Spec_grid : ∀ x ∈ c26Spec.fwave, ∃ j, 0 ≤ j ∧ OnGridFrom 100 c26Spec.dwave j x.2 := by
  intro x hx
  simp only [c26Spec, List.mem_cons, List.not_mem_nil, or_false] at hx
  rcases hx with rfl | rfl | rfl
  · refine ⟨0, by omega, fun i w h => ?_⟩
    match i with
    | 0 => simp at h; subst h; decide +kernel
    | 1 => simp at h; subst h; decide +kernel
    | 2 => simp at h; subst h; decide +kernel
    | i + 3 => simp at h
  · refine ⟨2, by omega, fun i w h => ?_⟩
    match i with
    | 0 => simp at h; subst h; decide +kernel
    | 1 => simp at h; subst h; decide +kernel
    | i + 2 => simp at h
  · refine ⟨5, by omega, fun i w h => ?_⟩
    match i with
    | 0 => simp at h; subst h; decide +kernel
    | 1 => simp at h; subst h; decide +kernel
    | i + 2 => simp at h

/-- The hypotheses of the theorems on `coadd_arms_forest` hold for this spectrum. -/
example : ForestOk c26Spec ∧
    IsLeast (allWaves c26Spec.fwave) 100 ∧ IsGreatest (allWaves c26Spec.fwave) 106 ∧
    InCell 100 c26Spec.dwave 6 106 ∧
    OnePerCell 100 c26Spec.dwave (c26Spec.fwave.map (fun x => c26Spec.forestPix x.1)) ∧
    c26Spec.cont ≠ [] ∧
    (∀ x ∈ c26Spec.fwave, (c26Spec.cont.arr x.1).length = x.2.length) ∧
    (∀ x ∈ c26Spec.fwave, ∀ w ∈ x.2, ¬ InCell 100 c26Spec.dwave 4 w) := by
  refine ⟨c26Spec_ok, ⟨⟨("B", [100, 101, 102]), by decide +kernel, by decide +kernel⟩, ?_⟩,
    ⟨⟨("Z", [105, 106]), by decide +kernel, by decide +kernel⟩, ?_⟩, by decide +kernel,
    C26_common_grid_one_per_cell (w0 := 100) (j0 := 0) c26Spec_ok (by decide +kernel) c26Spec_grid,
    by decide +kernel, by decide +kernel, by decide +kernel⟩
  · rintro w ⟨x, hx, hw⟩
    exact (by decide +kernel : ∀ x ∈ c26Spec.fwave, ∀ w ∈ x.2, (100 : ℚ) ≤ w) x hx w hw
  · rintro w ⟨x, hx, hw⟩
    exact (by decide +kernel : ∀ x ∈ c26Spec.fwave, ∀ w ∈ x.2, w ≤ (106 : ℚ)) x hx w hw

/-- What the function gives for it: the shared pixel is the mean `(2 * 1 + 1 * 4) / 3` with ivar `3`,
the masked pixel and the gap are zero, the resolution of the gap is `nan`. -/
example : (c26Spec.coaddArmsForest id (fun v _ => v) (fun _ => -1) (-5) (1 / 100) (fun _ => 0)
      (fun _ => 1)).toOption.map (fun t => (t.fflux, t.fivar, t.cont)) =
    some ([("brz", [1, 2, 2, 0, 0, 3, 7])], [("brz", [1, 1, 3, 0, 0, 2, 1])],
      [("brz", [9, 9, 8, 8, -1, 7, 7])]) := by decide +kernel

/-- A full spectrum for `simple_coadd`. -/
def c26Full : Spectrum ℚ :=
  { c26Spec with
    wave := [("B", [100, 101, 102]), ("R", [102, 103])]
    flux := [("B", [1, 2, 1]), ("R", [4, 2])]
    ivar := [("B", [1, 1, 2]), ("R", [1, 0])]
    reso := [("B", [[4, 5, 6]]), ("R", [[1, 2], [3, 4], [5, 6]])] }

example : 0 < c26Full.dwave ∧ c26Full.wave.keys.Nodup ∧ c26Full.wave ≠ [] ∧
    (∀ x ∈ c26Full.wave, x.2 ≠ [] ∧ x.2.Pairwise (· < ·)) ∧
    (∀ x ∈ c26Full.wave, (c26Full.flux.arr x.1).length = x.2.length ∧
      (c26Full.ivar.arr x.1).length = x.2.length) ∧
    (∀ x ∈ c26Full.wave, ∀ v ∈ c26Full.ivar.arr x.1, 0 ≤ v) ∧
    (∀ x ∈ c26Full.reso, ∃ w, (x.1, w) ∈ c26Full.wave ∧ ∀ row ∈ x.2, row.length = w.length) ∧
    (∀ x ∈ c26Full.reso, ∀ y ∈ c26Full.reso, x.2.length % 2 = y.2.length % 2) ∧
    c26Full.reso ≠ [] ∧ (∀ x : ℚ, ⌊x⌋ ≤ ⌊x + 1 / 2⌋) := by
  refine ⟨?_, ?_, ?_, ?_, ?_, ?_, ?_, ?_, ?_, fun x => Int.floor_le_floor (by linarith)⟩
  case refine_7 =>
    intro x hx
    simp only [c26Full, List.mem_cons, List.not_mem_nil, or_false] at hx
    rcases hx with rfl | rfl
    · exact ⟨[100, 101, 102], by decide +kernel, by decide +kernel⟩
    · exact ⟨[102, 103], by decide +kernel, by decide +kernel⟩
  all_goals decide +kernel

/-- At 102 the weights are 2 and 1; the single diagonal of arm `B` is the middle one. -/
example : (c26Full.simpleCoadd (-5) (1 / 100) 100 4).toOption.map (fun t => (t.flux, t.reso)) =
    some ([("brz", [1, 2, 2, 0])],
      [("brz", [[0, 0, 1 / 3, 2], [4, 5, 5, 4], [0, 0, 5 / 3, 6]])]) := by decide +kernel

/-- Pixels for the statements on one cell. -/
example : ∃ l : List (Pix ℚ), (∀ p ∈ l, 0 ≤ p.weight) ∧ (∀ p ∈ l, 0 < p.weight → 0 < p.ivar) ∧
    (∀ p ∈ l, 0 ≤ p.ivar) ∧ 0 < sumWeight l ∧ 1 / meanVar l < (l.map (fun p => p.ivar)).sum ∧
    meanFlux l = 3 ∧ 2 ≤ l.length :=
  ⟨[⟨100, 1, 2, 3⟩, ⟨100, 1, 4, 1⟩, ⟨100, 0, 9, 0⟩], by decide +kernel⟩

end Verif.Props
