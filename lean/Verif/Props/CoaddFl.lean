import Verif.Spec.CoaddFl
import Verif.Props.VarLssFl
import Verif.Props.DeltaFl

/-!
# C128: special values when arms are coadded
-/

namespace Verif.Props
open Verif Verif.Np Verif.Model Verif.Spec Verif.Proofs

variable {K : Type} [Field K] [LinearOrder K] [IsStrictOrderedRing K]

/-- The inverse variance of the pixel when it counts, else zero. -/
def goodIvar (p : FilePix K) : K := ((goodPix p).map Prod.snd).getD 0

/-- Weight times flux of the pixel when it counts, else zero. -/
def goodFlux (p : FilePix K) : K := ((goodPix p).map (fun g => g.2 * g.1)).getD 0

omit [IsStrictOrderedRing K] in
theorem sum_getD {α β : Type} (g : α → Option β) (h : β → K) (l : List α) :
    (l.map (fun p => ((g p).map h).getD 0)).sum = ((l.filterMap g).map h).sum := by
  induction l with
  | nil => rfl
  | cons a l ih =>
    rw [List.map_cons, List.sum_cons, ih]
    cases e : g a with
    | none => rw [List.filterMap_cons_none e]; simp
    | some b => rw [List.filterMap_cons_some e]; simp

/-- The pixel has no infinite inverse variance, and an infinite flux only with inverse variance zero. -/
def Tame (p : FilePix K) : Prop :=
  p.mask = 0 → p.ivar ≠ .pinf ∧ (p.flux = .pinf ∨ p.flux = .ninf → p.ivar = .fin 0)

omit [IsStrictOrderedRing K] in
theorem tame_ivar {p : FilePix K} (h : Tame p) : p.rIvar = .fin (goodIvar p) ∧ 0 ≤ goodIvar p := by
  obtain ⟨m, f, v⟩ := p
  unfold Tame at h
  dsimp only at h
  by_cases hm : m = 0
  · obtain ⟨h1, h2⟩ := h hm
    cases f with
    | nan => cases v <;> simp [FilePix.rIvar, badPixel, zeroBad, goodIvar, goodPix, Fl.isNan]
    | pinf =>
      have := h2 (.inl rfl)
      subst this
      simp [FilePix.rIvar, badPixel, zeroBad, goodIvar, goodPix]
    | ninf =>
      have := h2 (.inr rfl)
      subst this
      simp [FilePix.rIvar, badPixel, zeroBad, goodIvar, goodPix]
    | fin f =>
      cases v with
      | nan => simp [FilePix.rIvar, badPixel, zeroBad, goodIvar, goodPix, Fl.isNan]
      | pinf => exact absurd rfl h1
      | ninf => simp [FilePix.rIvar, badPixel, zeroBad, goodIvar, goodPix, Fl.lt]
      | fin v =>
        rcases lt_trichotomy v 0 with hv | hv | hv
        · simp [FilePix.rIvar, badPixel, zeroBad, goodIvar, goodPix, Fl.lt, hv, hv.not_gt]
        · subst hv
          simp [FilePix.rIvar, badPixel, zeroBad, goodIvar, goodPix]
        · simp [FilePix.rIvar, badPixel, zeroBad, goodIvar, goodPix, Fl.lt, Fl.isNan, hm, hv, hv.not_gt, hv.le]
  · cases f <;> cases v <;> simp [FilePix.rIvar, badPixel, zeroBad, goodIvar, goodPix, hm]

omit [IsStrictOrderedRing K] in
theorem tame_flux {p : FilePix K} (h : Tame p) (hf : p.mask = 0 → p.flux ≠ .pinf ∧ p.flux ≠ .ninf) :
    Fl.mul p.rIvar p.rFlux = .fin (goodFlux p) := by
  rw [(tame_ivar h).1]
  obtain ⟨m, f, v⟩ := p
  dsimp only at hf
  by_cases hm : m = 0
  · obtain ⟨h1, h2⟩ := hf hm
    cases f with
    | nan => cases v <;> simp [FilePix.rFlux, badPixel, zeroBad, goodIvar, goodFlux, goodPix, Fl.isNan, Fl.mul]
    | pinf => exact absurd rfl h1
    | ninf => exact absurd rfl h2
    | fin f =>
      have e : ∃ y, (FilePix.mk m (.fin f) v).rFlux = .fin y ∧ (goodPix ⟨m, .fin f, v⟩ ≠ none → y = f) := by
        unfold FilePix.rFlux zeroBad
        dsimp only
        split_ifs with hb
        · refine ⟨0, rfl, fun hn => ?_⟩
          exfalso
          cases v with
          | fin v =>
            by_cases hv : 0 < v
            · simp [badPixel, hm, Fl.isNan, Fl.lt, hv.not_gt] at hb
            · exact hn (by simp [goodPix, hv])
          | _ => exact hn rfl
        · exact ⟨f, rfl, fun _ => rfl⟩
      obtain ⟨y, e1, e2⟩ := e
      rw [e1]
      simp only [Fl.mul, goodIvar, goodFlux]
      cases hg : goodPix (FilePix.mk m (.fin f) v) with
      | none => simp
      | some g =>
        have : g.1 = f := by
          cases v with
          | fin v =>
            simp only [goodPix] at hg
            split_ifs at hg
            cases hg
            rfl
          | _ => cases hg
        rw [e2 (by rw [hg]; simp), ← this]
        rfl
  · cases f <;> cases v <;>
      simp [FilePix.rFlux, badPixel, zeroBad, goodIvar, goodFlux, goodPix, hm, Fl.mul]

/-- Norm and inverse variance of the cell. -/
theorem tame_cell {l : List (FilePix K)} (h : ∀ p ∈ l, Tame p) :
    CellPix.norm (simpleCell l) = .fin ((l.filterMap goodPix).map Prod.snd).sum ∧
    CellPix.coIvar (simpleCell l) = .fin ((l.filterMap goodPix).map Prod.snd).sum := by
  have e1 : CellPix.norm (simpleCell l) = .fin ((l.filterMap goodPix).map Prod.snd).sum := by
    unfold CellPix.norm simpleCell
    rw [List.map_map, ← sum_getD goodPix Prod.snd, ← Fl.sum_fin]
    congr 1
    exact List.map_congr_left fun p hp => (tame_ivar (h p hp)).1
  refine ⟨e1, ?_⟩
  have e2 : Fl.sum ((simpleCell l).map (fun p => Fl.mul (Fl.mul p.weight p.weight) p.var)) =
      .fin ((l.filterMap goodPix).map Prod.snd).sum := by
    unfold simpleCell
    rw [List.map_map, ← sum_getD goodPix Prod.snd, ← Fl.sum_fin]
    congr 1
    refine List.map_congr_left fun p hp => ?_
    obtain ⟨t1, t2⟩ := tame_ivar (h p hp)
    change Fl.mul (Fl.mul p.rIvar p.rIvar) (if Fl.lt (.fin 0) p.rIvar then Fl.div (.fin 1) p.rIvar else .fin 0) =
      .fin (goodIvar p)
    rw [t1]
    rcases t2.eq_or_lt with z | z
    · rw [← z]; simp [Fl.mul, Fl.lt]
    · simp only [Fl.lt, decide_eq_true_eq, if_pos z, Fl.div, if_neg z.ne', Fl.mul]
      congr 1
      field_simp
  unfold CellPix.coIvar
  dsimp only
  rw [e2, e1]
  split_ifs with hp
  · have hp : 0 < ((l.filterMap goodPix).map Prod.snd).sum := by simpa [Fl.lt] using hp
    simp only [Fl.mul, Fl.div, if_neg hp.ne']
    congr 1
    field_simp
  · rfl

theorem good_pos {l : List (FilePix K)} {g : K × K} (h : g ∈ l.filterMap goodPix) : 0 < g.2 := by
  obtain ⟨p, -, e⟩ := List.mem_filterMap.mp h
  unfold goodPix at e
  split at e
  · split_ifs at e with h1
    cases e
    exact h1.2
  · cases e

theorem sum_good_pos {l : List (FilePix K)} (h : l.filterMap goodPix ≠ []) :
    0 < ((l.filterMap goodPix).map Prod.snd).sum := by
  refine List.sum_pos _ (fun x hx => ?_) (by simpa using h)
  obtain ⟨g, hg, rfl⟩ := List.mem_map.mp hx
  exact good_pos hg

/-- C128. Coadding the arms of a spectrum before the fit: whatever the masks are, and whatever NaN and negative values
are in the file, flux and inverse variance of a coadded pixel are the weighted mean and the sum over the good pixels in
its cell, and zero if there is none. What is missing: infinities in pixels that are not masked, see
`C128_infinite_ivar_refuted` and `C128_infinite_flux_refuted`. -/
theorem C128_partial (l : List (FilePix K))
    (h : ∀ p ∈ l, p.mask = 0 → p.flux ≠ .pinf ∧ p.flux ≠ .ninf ∧ p.ivar ≠ .pinf) :
    CellPix.coIvar (simpleCell l) = .fin ((l.filterMap goodPix).map (fun g => g.2)).sum ∧
    (l.filterMap goodPix = [] → CellPix.coFlux (simpleCell l) = .fin 0) ∧
    (l.filterMap goodPix ≠ [] → CellPix.coFlux (simpleCell l) =
      .fin (((l.filterMap goodPix).map (fun g => g.2 * g.1)).sum / ((l.filterMap goodPix).map (fun g => g.2)).sum)) := by
  have ht : ∀ p ∈ l, Tame p := fun p hp hm =>
    ⟨(h p hp hm).2.2, fun e => by rcases e with e | e; exacts [absurd e (h p hp hm).1, absurd e (h p hp hm).2.1]⟩
  obtain ⟨e1, e2⟩ := tame_cell ht
  have e3 : Fl.sum ((simpleCell l).map (fun p => Fl.mul p.weight p.flux)) =
      .fin ((l.filterMap goodPix).map (fun g => g.2 * g.1)).sum := by
    unfold simpleCell
    rw [List.map_map, ← sum_getD goodPix (fun g => g.2 * g.1), ← Fl.sum_fin]
    congr 1
    exact List.map_congr_left fun p hp => tame_flux (ht p hp) (fun hm => ⟨(h p hp hm).1, (h p hp hm).2.1⟩)
  refine ⟨e2, fun hn => ?_, fun hn => ?_⟩
  · unfold CellPix.coFlux
    dsimp only
    rw [e1, e3, hn]
    simp [Fl.lt]
  · have hp := sum_good_pos hn
    unfold CellPix.coFlux
    dsimp only
    rw [e1, e3]
    simp only [Fl.lt, decide_eq_true_eq, if_pos hp, Fl.div, if_neg hp.ne']

/-- C128, the negation for infinite fluxes: a pixel of one arm that has inverse variance zero but infinite flux makes the
flux of the coadded pixel NaN, although the inverse variance is that of the good pixels of the other arms. -/
theorem C128_infinite_flux_refuted {l : List (FilePix K)} (h : ∀ p ∈ l, Tame p) {p : FilePix K} (hp : p ∈ l)
    (hm : p.mask = 0) (hf : p.flux = .pinf ∨ p.flux = .ninf) (hg : l.filterMap goodPix ≠ []) :
    CellPix.coFlux (simpleCell l) = .nan ∧
    ∃ v, CellPix.coIvar (simpleCell l) = .fin v ∧ 0 < v ∧ v = ((l.filterMap goodPix).map (fun g => g.2)).sum := by
  refine ⟨?_, _, (tame_cell h).2, sum_good_pos hg, rfl⟩
  have hz := ((h p hp) hm).2 hf
  have : Fl.sum ((simpleCell l).map (fun p => Fl.mul p.weight p.flux)) = .nan := by
    refine Fl.sum_nan ?_
    unfold simpleCell
    rw [List.map_map]
    refine List.mem_map.mpr ⟨p, hp, ?_⟩
    obtain ⟨m, f, v⟩ := p
    dsimp only at hm hf hz
    subst hm hz
    rcases hf with rfl | rfl <;>
      simp [FilePix.rFlux, FilePix.rIvar, badPixel, zeroBad, Fl.isNan, Fl.lt, Fl.mul, Fl.infMul]
  unfold CellPix.coFlux
  dsimp only
  rw [this]
  split_ifs
  · cases CellPix.norm (simpleCell l) <;> rfl
  · rfl

omit [IsStrictOrderedRing K] in
/-- The inverse variance after reading is not NaN and not negative. -/
theorem rIvar_cases (p : FilePix K) : p.rIvar = .pinf ∨ ∃ x, p.rIvar = .fin x := by
  obtain ⟨m, f, v⟩ := p
  unfold FilePix.rIvar zeroBad
  dsimp only
  split_ifs with hb
  · exact .inr ⟨0, rfl⟩
  · cases v with
    | nan => simp [badPixel, Fl.isNan] at hb
    | ninf => simp [badPixel, Fl.lt] at hb
    | pinf => exact .inl rfl
    | fin x => exact .inr ⟨x, rfl⟩

/-- C128, the negation for infinite inverse variances: with one such pixel that is not masked in the cell, flux and
inverse variance of the coadded pixel are NaN, whatever the pixels of the other arms are. -/
theorem C128_infinite_ivar_refuted {l : List (FilePix K)} {p : FilePix K} (hp : p ∈ l) (hm : p.mask = 0)
    (hf : p.flux ≠ .nan) (hv : p.ivar = .pinf) :
    CellPix.coFlux (simpleCell l) = .nan ∧ CellPix.coIvar (simpleCell l) = .nan := by
  have hi : p.rIvar = .pinf ∧ p.rFlux = p.flux := by
    obtain ⟨m, f, v⟩ := p
    dsimp only at hm hf hv
    subst hm hv
    cases f with
    | nan => exact absurd rfl hf
    | _ => simp [FilePix.rIvar, FilePix.rFlux, badPixel, zeroBad, Fl.isNan, Fl.lt]
  have hn : CellPix.norm (simpleCell l) = .pinf := by
    unfold CellPix.norm simpleCell
    rw [List.map_map]
    change Fl.sum (l.map (fun p => p.rIvar)) = _
    have key : ∀ m : List (FilePix K), Fl.sum (m.map (fun p => p.rIvar)) = .pinf ∨
        ∃ x, Fl.sum (m.map (fun p => p.rIvar)) = .fin x := by
      intro m
      induction m with
      | nil => exact .inr ⟨0, rfl⟩
      | cons q m ih =>
        rw [List.map_cons, Fl.sum_cons]
        rcases rIvar_cases q with e | ⟨x, e⟩ <;> rcases ih with i | ⟨y, i⟩ <;> rw [e, i]
        · exact .inl rfl
        · exact .inl rfl
        · exact .inl rfl
        · exact .inr ⟨x + y, rfl⟩
    rcases key l with e | ⟨x, e⟩
    · exact e
    · obtain ⟨y, hy⟩ := sum_eq_fin e p.rIvar (List.mem_map_of_mem hp)
      rw [hi.1] at hy
      cases hy
  constructor
  · unfold CellPix.coFlux
    dsimp only
    rw [hn, if_pos (show Fl.lt (.fin 0) (Fl.pinf : Fl K) = true from rfl)]
    cases e : Fl.sum ((simpleCell l).map (fun p => Fl.mul p.weight p.flux)) with
    | fin x =>
      obtain ⟨y, hy⟩ := sum_eq_fin e (Fl.mul p.rIvar p.rFlux) (by
        unfold simpleCell
        rw [List.map_map]
        exact List.mem_map.mpr ⟨p, hp, rfl⟩)
      rw [hi.1, hi.2] at hy
      cases hq : p.flux with
      | fin z => rw [hq] at hy; simp only [Fl.mul, Fl.infMul] at hy; split_ifs at hy
      | _ => rw [hq] at hy; cases hy
    | _ => rfl
  · unfold CellPix.coIvar
    dsimp only
    rw [hn, if_pos (show Fl.lt (.fin 0) (Fl.pinf : Fl K) = true from rfl)]
    have : Fl.sum ((simpleCell l).map (fun p => Fl.mul (Fl.mul p.weight p.weight) p.var)) = .nan := by
      refine Fl.sum_nan ?_
      unfold simpleCell
      rw [List.map_map]
      refine List.mem_map.mpr ⟨p, hp, ?_⟩
      change Fl.mul (Fl.mul p.rIvar p.rIvar) (if Fl.lt (.fin 0) p.rIvar then Fl.div (.fin 1) p.rIvar else .fin 0) = _
      rw [hi.1]
      simp [Fl.mul, Fl.lt, Fl.div, Fl.infMul]
    rw [this]
    rfl

/-- A pixel of numbers. -/
def numCell (p : K × K × K) : CellPix K := ⟨.fin p.1, .fin p.2.1, .fin p.2.2⟩

/-- C128, for coadding after the fit: pixels of numbers (flux, inverse variance, weight), where only pixels with positive
inverse variance have a weight, give numbers; there is no division by zero. What is missing: special values among the
weights. -/
theorem C128_forest_partial (l : List (K × K × K)) (h0 : ∀ p ∈ l, 0 ≤ p.2.2) (hi : ∀ p ∈ l, 0 < p.2.2 → 0 < p.2.1) :
    (0 < (l.map (fun p => p.2.2)).sum →
      CellPix.coFlux (l.map numCell) = .fin ((l.map (fun p => p.2.2 * p.1)).sum / (l.map (fun p => p.2.2)).sum) ∧
      CellPix.coIvar (l.map numCell) = .fin ((l.map (fun p => p.2.2)).sum ^ 2 /
        ((l.filter (fun p => decide (0 < p.2.1))).map (fun p => p.2.2 ^ 2 / p.2.1)).sum) ∧
      0 < ((l.filter (fun p => decide (0 < p.2.1))).map (fun p => p.2.2 ^ 2 / p.2.1)).sum) ∧
    (¬ 0 < (l.map (fun p => p.2.2)).sum →
      CellPix.coFlux (l.map numCell) = .fin 0 ∧ CellPix.coIvar (l.map numCell) = .fin 0) := by
  have e1 : CellPix.norm (l.map numCell) = .fin (l.map (fun p => p.2.2)).sum := by
    unfold CellPix.norm
    rw [List.map_map, ← Fl.sum_fin]
    rfl
  have e2 : Fl.sum ((l.map numCell).map (fun p => Fl.mul p.weight p.flux)) =
      .fin (l.map (fun p => p.2.2 * p.1)).sum := by
    rw [List.map_map, ← Fl.sum_fin]
    rfl
  have e3 : Fl.sum ((l.map numCell).map (fun p => Fl.mul (Fl.mul p.weight p.weight) p.var)) =
      .fin ((l.filter (fun p => decide (0 < p.2.1))).map (fun p => p.2.2 ^ 2 / p.2.1)).sum := by
    clear e1 e2 h0 hi
    induction l with
    | nil => rfl
    | cons p l ih =>
      rw [List.map_cons, List.map_cons, Fl.sum_cons, ih]
      have : CellPix.var (numCell p) = .fin (if 0 < p.2.1 then 1 / p.2.1 else 0) := by
        unfold CellPix.var numCell
        dsimp only
        simp only [Fl.lt, decide_eq_true_eq]
        split_ifs with hv
        · simp only [Fl.div, if_neg hv.ne']
        · rfl
      rw [this, List.filter_cons]
      simp only [numCell, Fl.mul, Fl.add, decide_eq_true_eq]
      split_ifs with hv
      · rw [List.map_cons, List.sum_cons]
        congr 2
        ring
      · simp
  constructor
  · intro hs
    have hpos : 0 < ((l.filter (fun p => decide (0 < p.2.1))).map (fun p => p.2.2 ^ 2 / p.2.1)).sum := by
      obtain ⟨p, hp, hpw⟩ : ∃ p ∈ l, 0 < p.2.2 := by
        by_contra hne
        push Not at hne
        have : (l.map (fun p => p.2.2)).sum = 0 := List.sum_eq_zero fun x hx => by
          obtain ⟨p, hp, rfl⟩ := List.mem_map.mp hx
          exact le_antisymm (hne p hp) (h0 p hp)
        exact absurd this hs.ne'
      have hmem : p.2.2 ^ 2 / p.2.1 ∈ (l.filter (fun p => decide (0 < p.2.1))).map (fun p => p.2.2 ^ 2 / p.2.1) :=
        List.mem_map.mpr ⟨p, List.mem_filter.mpr ⟨hp, by simpa using hi p hp hpw⟩, rfl⟩
      refine lt_of_lt_of_le (div_pos (pow_pos hpw 2) (hi p hp hpw)) (List.single_le_sum (fun x hx => ?_) _ hmem)
      obtain ⟨q, hq, rfl⟩ := List.mem_map.mp hx
      have : 0 < q.2.1 := by simpa using (List.mem_filter.mp hq).2
      positivity
    refine ⟨?_, ?_, hpos⟩
    · unfold CellPix.coFlux
      dsimp only
      rw [e1, e2]
      simp only [Fl.lt, decide_eq_true_eq, if_pos hs, Fl.div, if_neg hs.ne']
    · unfold CellPix.coIvar
      dsimp only
      rw [e1, e3]
      simp only [Fl.lt, decide_eq_true_eq, if_pos hs, Fl.mul, Fl.div, if_neg hpos.ne']
      congr 2
      ring
  · intro hs
    have hz : ∀ p ∈ l, p.2.2 = 0 := by
      intro p hp
      have := List.single_le_sum (l := l.map (fun p => p.2.2)) (fun x hx => by
        obtain ⟨q, hq, rfl⟩ := List.mem_map.mp hx; exact h0 q hq) p.2.2 (List.mem_map_of_mem hp)
      exact le_antisymm (this.trans (not_lt.mp hs)) (h0 p hp)
    constructor
    · unfold CellPix.coFlux
      dsimp only
      rw [e1, e2]
      simp only [Fl.lt, decide_eq_true_eq, if_neg hs]
      congr 1
      refine List.sum_eq_zero fun x hx => ?_
      obtain ⟨p, hp, rfl⟩ := List.mem_map.mp hx
      rw [hz p hp, zero_mul]
    · unfold CellPix.coIvar
      dsimp only
      rw [e1, e3]
      simp only [Fl.lt, decide_eq_true_eq, if_neg hs]
      congr 1
      refine List.sum_eq_zero fun x hx => ?_
      obtain ⟨p, hp, rfl⟩ := List.mem_map.mp hx
      rw [hz p (List.mem_filter.mp hp).1]
      simp

/-- Weights 1 and 3 in the overlap: mean 5/2, inverse variance 16 / (1/2 + 9/3). -/
example : CellPix.coFlux ([(1, 2, 1), (3, 3, 3), (7, 0, 0)].map (numCell (K := ℚ))) = .fin (5 / 2) ∧
    CellPix.coIvar ([(1, 2, 1), (3, 3, 3), (7, 0, 0)].map (numCell (K := ℚ))) = .fin (32 / 7) :=
  ⟨by decide +kernel, by decide +kernel⟩

section
variable [FloorRing K] {n : Nat} {c : VarCfg K} {j : Fin 4} {k : Nat}

omit [IsStrictOrderedRing K] in
/-- NaN stays NaN. -/
theorem addList_keeps_nan (ls : List (List (FlPix K))) (s : VarLssFl K n) {i : Fin n} (h : s.x i j k = .nan) :
    (s.addList c ls).x i j k = .nan := by
  induction ls generalizing s with
  | nil => exact h
  | cons l ls ih =>
    refine ih (s.add c l) ?_
    dsimp only [VarLssFl.add]
    by_cases e : i = s.isample
    · subst e; rw [Function.update_self, h]; exact Fl.nan_add _
    · rw [Function.update_of_ne e]; exact h

omit [IsStrictOrderedRing K] in
theorem addList_nan {ls : List (List (FlPix K))} {l : List (FlPix K)} (hl : l ∈ ls) (hx : xvecFl c l j k = .nan)
    (s : VarLssFl K n) : ∃ i, (s.addList c ls).x i j k = .nan := by
  induction ls generalizing s with
  | nil => cases hl
  | cons m ls ih =>
    rcases List.mem_cons.mp hl with rfl | hl
    · refine ⟨s.isample, addList_keeps_nan ls (s.add c l) ?_⟩
      dsimp only [VarLssFl.add]
      rw [Function.update_self, hx, Fl.add_nan]
    · exact ih hl (s.add c m)

omit [IsStrictOrderedRing K] in
theorem ofRanks_nan (h : 0 < n) {ranks : List (List (List (FlPix K)))} {r : List (List (FlPix K))} (hr : r ∈ ranks)
    {l : List (FlPix K)} (hl : l ∈ r) (hx : xvecFl c l j k = .nan) :
    VarLssFl.mean (VarLssFl.ofRanks c h ranks) j k = .nan := by
  obtain ⟨m, hm⟩ : ∃ m, (r, m) ∈ ranks.zipIdx := by
    have : r ∈ ranks.zipIdx.map Prod.fst := by simpa using hr
    obtain ⟨⟨a, m⟩, h1, rfl⟩ := List.mem_map.mp this
    exact ⟨m, h1⟩
  obtain ⟨i, hi⟩ := addList_nan (c := c) (j := j) (k := k) hl hx (VarLssFl.new h m ranks.length)
  have ht : VarLssFl.totX (VarLssFl.ofRanks c h ranks) i j k = .nan := by
    refine Fl.sum_nan (List.mem_map.mpr ⟨_, List.mem_map.mpr ⟨(r, m), hm, rfl⟩, hi⟩)
  refine Fl.sum_nan (List.mem_map.mpr ⟨i, List.mem_finRange i, ?_⟩)
  rw [ht]
  have : ∀ w, VarLssFl.divWhere (Fl.nan : Fl K) w = .nan := fun w => by
    unfold VarLssFl.divWhere
    split_ifs <;> rfl
  rw [this]
  exact nan_mul _

/-- C128, the consequence for the fit of var_lss and eta: if such a coadded pixel is in the forest of one quasar on one
rank, where the continuum is a number, then all ranks have NaN as mean and variance of delta in its
bin, although the pixel that is not a number has inverse variance zero in the file. -/
theorem C128_statistics_refuted (hc : GoodBins c) (h : 0 < n) {iw iv : Nat} (hw : iw < c.nw) (hv : iv < c.nv)
    {l : List (FilePix K)} (hl : ∀ p ∈ l, Tame p) {p : FilePix K} (hp : p ∈ l)
    (hm : p.mask = 0) (hf : p.flux = .pinf ∨ p.flux = .ninf) (hg : l.filterMap goodPix ≠ [])
    {ranks : List (List (List (FlPix K)))} {r : List (List (FlPix K))} (hr : r ∈ ranks) {forest : List (FlPix K)}
    (hfo : forest ∈ r) {wave ct : K}
    (hq : FlPix.mk wave (CellPix.coFlux (simpleCell l)) (CellPix.coIvar (simpleCell l)) (.fin ct) ∈ forest)
    (hb : InBin c iw iv ⟨wave, 0, ((l.filterMap goodPix).map (fun g => g.2)).sum * ct ^ 2⟩) :
    VarLssFl.stats (VarLssFl.ofRanks c h ranks) 0 ((iw + 1) * (c.nv + 2) + 1 + iv) = .nan ∧
    VarLssFl.stats (VarLssFl.ofRanks c h ranks) 1 ((iw + 1) * (c.nv + 2) + 1 + iv) = .nan := by
  obtain ⟨e1, v, e2, -, rfl⟩ := C128_infinite_flux_refuted hl hp hm hf hg
  rw [e1, e2] at hq
  have hd : FlPix.delta (FlPix.mk wave .nan (.fin ((l.filterMap goodPix).map (fun g => g.2)).sum) (.fin ct)) = .nan := rfl
  have hi : c.allIdxFl (FlPix.mk wave .nan (.fin ((l.filterMap goodPix).map (fun g => g.2)).sum) (.fin ct)) =
      binIdx c iw iv := by
    rw [← (allIdx_eq hc hw hv _).mpr hb]
    unfold VarCfg.allIdxFl VarCfg.allIdx FlPix.ivarC
    simp only [Fl.mul, pow_two, VarCfg.ivarIdxFl]
  have hx : ∀ j : Fin 4, j = 0 ∨ j = 1 → xvecFl c forest j (binIdx c iw iv) = .nan := fun j hj => by
    refine Fl.sum_nan (List.mem_map.mpr ⟨_, List.mem_filter.mpr ⟨hq, decide_eq_true hi⟩, ?_⟩)
    rcases hj with rfl | rfl
    · exact hd
    · exact (congrArg₂ Fl.mul hd hd).trans rfl
  have m0 := ofRanks_nan h hr hfo (hx 0 (.inl rfl))
  have m1 := ofRanks_nan h hr hfo (hx 1 (.inr rfl))
  refine ⟨m0, ?_⟩
  change VarLssFl.sub (VarLssFl.mean (VarLssFl.ofRanks c h ranks) 1 (binIdx c iw iv)) _ = _
  rw [m1]
  exact Fl.nan_add _

end

/-- Two arms and exposures of the overlap: flux 1 and 4 with inverse variance 2 and 1, a masked pixel with infinite values,
NaN flux, negative inverse variance. -/
def c128Cell : List (FilePix ℚ) :=
  [FilePix.mk 0 (.fin 1) (.fin 2), FilePix.mk 1 .pinf .pinf, FilePix.mk 0 .nan (.fin 3),
    FilePix.mk 0 (.fin 5) (.fin (-1)), FilePix.mk 0 (.fin 4) (.fin 1)]

example : (∀ p ∈ c128Cell, p.mask = 0 → p.flux ≠ .pinf ∧ p.flux ≠ .ninf ∧ p.ivar ≠ .pinf) ∧
    c128Cell.filterMap goodPix = [(1, 2), (4, 1)] ∧
    CellPix.coFlux (simpleCell c128Cell) = .fin 2 ∧ CellPix.coIvar (simpleCell c128Cell) = .fin 3 := by
  refine ⟨?_, by decide +kernel, by decide +kernel, by decide +kernel⟩
  intro p hp
  simp only [c128Cell, List.mem_cons, List.not_mem_nil, or_false] at hp
  rcases hp with rfl | rfl | rfl | rfl | rfl <;> simp

/-- The same with an infinite flux of inverse variance zero, and with an infinite inverse variance. -/
example :
    CellPix.coFlux (simpleCell (FilePix.mk 0 .pinf (.fin 0) :: c128Cell)) = .nan ∧
    CellPix.coIvar (simpleCell (FilePix.mk 0 .pinf (.fin 0) :: c128Cell)) = .fin 3 ∧
    CellPix.coFlux (simpleCell (FilePix.mk 0 (.fin 1) .pinf :: c128Cell)) = .nan ∧
    CellPix.coIvar (simpleCell (FilePix.mk 0 (.fin 1) .pinf :: c128Cell)) = .nan :=
  ⟨by decide +kernel, by decide +kernel, by decide +kernel, by decide +kernel⟩

/-- The coadded pixel with flux NaN and inverse variance 3 in the statistics, with a good pixel on another rank. -/
example :
    let cell := simpleCell (FilePix.mk 0 .pinf (.fin 0) :: c128Cell)
    let ranks : List (List (List (FlPix ℚ))) := [[[FlPix.mk 3650 (CellPix.coFlux cell) (CellPix.coIvar cell) (.fin 1)]],
      [[FlPix.mk 3700 (.fin 2) (.fin 3) (.fin 1)]]]
    VarLssFl.stats (VarLssFl.ofRanks c48Cfg (n := 2) (by decide) ranks) 0 6 = .nan ∧
    VarLssFl.stats (VarLssFl.ofRanks c48Cfg (n := 2) (by decide) (ranks.drop 1)) 0 6 = .fin 1 :=
  ⟨by decide +kernel, by decide +kernel⟩

end Verif.Props
