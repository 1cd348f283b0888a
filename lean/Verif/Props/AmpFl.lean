import Verif.Model.AmpFl
import Verif.Props.CoaddFl

/-!
# C132: the initial amplitude of the continuum with special values
-/

namespace Verif.Props
open Verif Verif.Np Verif.Model Verif.Spec Verif.Proofs

variable {K : Type} [Field K] [LinearOrder K]

/-- The pixel is masked, or neither its flux nor its inverse variance is plus infinity. -/
def NoPosInf (p : FilePix K) : Prop := p.mask = 0 → p.ivar ≠ .pinf ∧ p.flux ≠ .pinf

/-- Flux and inverse variance of a good pixel with positive flux. -/
def brightPix (p : FilePix K) : Option (K × K) := (goodPix p).filter (fun g => decide (0 < g.1))

theorem noPosInf_cases {p : FilePix K} (h : NoPosInf p) :
    (Fl.lt (.fin 0) p.rFlux = false ∧ brightPix p = none) ∨
    (Fl.lt (.fin 0) p.rFlux = true ∧ brightPix p = none ∧ (∃ f, p.rFlux = .fin f) ∧ p.rIvar = .fin 0) ∨
    ∃ f v, Fl.lt (.fin 0) p.rFlux = true ∧ brightPix p = some (f, v) ∧ p.rFlux = .fin f ∧ p.rIvar = .fin v := by
  obtain ⟨m, f, v⟩ := p
  unfold NoPosInf at h
  dsimp only at h
  by_cases hm : m = 0
  · obtain ⟨h1, h2⟩ := h hm
    cases f with
    | nan => left; cases v <;> simp [FilePix.rFlux, badPixel, zeroBad, brightPix, goodPix, Fl.isNan, Fl.lt]
    | pinf => exact absurd rfl h2
    | ninf =>
      left
      refine ⟨?_, by cases v <;> rfl⟩
      unfold FilePix.rFlux zeroBad
      dsimp only
      split_ifs <;> simp [Fl.lt]
    | fin f =>
      cases v with
      | nan => left; simp [FilePix.rFlux, badPixel, zeroBad, brightPix, goodPix, Fl.isNan, Fl.lt]
      | pinf => exact absurd rfl h1
      | ninf => left; simp [FilePix.rFlux, badPixel, zeroBad, brightPix, goodPix, Fl.lt]
      | fin v =>
        rcases lt_trichotomy v 0 with hv | hv | hv
        · left; simp [FilePix.rFlux, badPixel, zeroBad, brightPix, goodPix, Fl.lt, hv, hv.not_gt]
        · subst hv
          by_cases hf : 0 < f
          · right; left
            simp [FilePix.rIvar, FilePix.rFlux, badPixel, zeroBad, brightPix, goodPix, Fl.lt, Fl.isNan, hm, hf]
          · left
            simp [FilePix.rFlux, badPixel, zeroBad, brightPix, goodPix, Fl.lt, Fl.isNan, hm, not_lt.1 hf]
        · by_cases hf : 0 < f
          · right; right
            exact ⟨f, v, by simp [FilePix.rFlux, badPixel, zeroBad, Fl.lt, Fl.isNan, hm, hv.not_gt, hf],
              by simp [brightPix, goodPix, hm, hv, hf],
              by simp [FilePix.rFlux, badPixel, zeroBad, Fl.lt, Fl.isNan, hm, hv.not_gt],
              by simp [FilePix.rIvar, badPixel, zeroBad, Fl.lt, Fl.isNan, hm, hv.not_gt]⟩
          · left
            simp [FilePix.rFlux, badPixel, zeroBad, brightPix, goodPix, Fl.lt, Fl.isNan, hm, hv, hv.not_gt,
              not_lt.1 hf]
  · left
    cases f <;> cases v <;> simp [FilePix.rFlux, badPixel, zeroBad, brightPix, goodPix, hm, Fl.lt]

theorem sum_positive {l : List (FilePix K)} (h : ∀ p ∈ l, NoPosInf p) :
    Fl.sum ((positivePix l).map (fun p => Fl.mul p.rFlux p.rIvar)) =
      .fin ((l.filterMap brightPix).map (fun g => g.1 * g.2)).sum ∧
    Fl.sum ((positivePix l).map (fun p => p.rIvar)) = .fin ((l.filterMap brightPix).map Prod.snd).sum := by
  induction l with
  | nil => exact ⟨rfl, rfl⟩
  | cons p l ih =>
    obtain ⟨i1, i2⟩ := ih (fun q hq => h q (List.mem_cons_of_mem _ hq))
    unfold positivePix at i1 i2 ⊢
    rcases noPosInf_cases (h p List.mem_cons_self) with ⟨h1, h2⟩ | ⟨h1, h2, ⟨f, h3⟩, h4⟩ | ⟨f, v, h1, h2, h3, h4⟩
    · rw [List.filter_cons_of_neg (by simp [h1]), List.filterMap_cons_none h2]
      exact ⟨i1, i2⟩
    · rw [List.filter_cons_of_pos (p := fun p : FilePix K => Fl.lt (.fin 0) p.rFlux) h1, List.filterMap_cons_none h2, List.map_cons, List.map_cons, Fl.sum_cons,
        Fl.sum_cons, i1, i2, h3, h4]
      simp [Fl.mul, Fl.add]
    · rw [List.filter_cons_of_pos (p := fun p : FilePix K => Fl.lt (.fin 0) p.rFlux) h1, List.filterMap_cons_some h2]
      simp only [List.map_cons, Fl.sum_cons, i1, i2, h3, h4, List.sum_cons]
      exact ⟨rfl, rfl⟩

theorem brightPix_pos {p : FilePix K} {g : K × K} (h : brightPix p = some g) :
    goodPix p = some g ∧ 0 < g.1 ∧ 0 < g.2 := by
  unfold brightPix at h
  rw [Option.filter_eq_some_iff] at h
  refine ⟨h.1, by simpa using h.2, ?_⟩
  have := h.1
  unfold goodPix at this
  split at this
  · split_ifs at this with hc
    cases this
    exact hc.2
  · cases this

variable [IsStrictOrderedRing K]

/-- **C132, partial.** If no pixel of the forest that is not masked has plus infinity as flux or inverse variance, the
initial amplitude is the weighted mean of the good pixels with positive flux. It is a number that is not negative and
not above the largest flux of the good pixels. -/
theorem C132_partial {eps : K} (he : 0 < eps) {arms : List (List (FilePix K))} (h : ∀ a ∈ arms, ∀ p ∈ a, NoPosInf p) :
    let g := arms.flatMap (fun a => a.filterMap brightPix)
    let x := (g.map (fun g => g.1 * g.2)).sum / (eps + (g.map Prod.snd).sum)
    initialAmp eps arms = .fin x ∧ 0 ≤ x ∧
      ∀ b, 0 ≤ b → (∀ a ∈ arms, ∀ p ∈ a, ∀ f v, goodPix p = some (f, v) → f ≤ b) → x ≤ b := by
  intro g x
  have hg : ∀ y ∈ g, ∃ a ∈ arms, ∃ p ∈ a, brightPix p = some y := by
    intro y hy
    obtain ⟨a, ha, hy⟩ := List.mem_flatMap.1 hy
    obtain ⟨p, hp, hy⟩ := List.mem_filterMap.1 hy
    exact ⟨a, ha, p, hp, hy⟩
  have hpos : ∀ y ∈ g, 0 < y.1 ∧ 0 < y.2 := fun y hy => by
    obtain ⟨a, -, p, -, hb⟩ := hg y hy
    exact (brightPix_pos hb).2
  have hv : 0 ≤ (g.map Prod.snd).sum := List.sum_nonneg (fun w hw => by
    obtain ⟨y, hy, rfl⟩ := List.mem_map.1 hw
    exact (hpos y hy).2.le)
  have hn : 0 ≤ (g.map (fun g => g.1 * g.2)).sum := List.sum_nonneg (fun w hw => by
    obtain ⟨y, hy, rfl⟩ := List.mem_map.1 hw
    exact (mul_pos (hpos y hy).1 (hpos y hy).2).le)
  have hd : 0 < eps + (g.map Prod.snd).sum := add_pos_of_pos_of_nonneg he hv
  have flat : ∀ (f : K × K → K) (L : List (List (FilePix K))),
      (L.map (fun a => ((a.filterMap brightPix).map f).sum)).sum =
        ((L.flatMap (fun a => a.filterMap brightPix)).map f).sum := by
    intro f L
    induction L with
    | nil => rfl
    | cons a L ih => simp [List.flatMap_cons, ih]
  refine ⟨?_, div_nonneg hn hd.le, fun b hb hB => ?_⟩
  · unfold initialAmp
    rw [List.map_congr_left (fun a ha => (sum_positive (h a ha)).1),
      List.map_congr_left (fun a ha => (sum_positive (h a ha)).2), Fl.sum_fin, Fl.sum_fin, flat, flat]
    change Fl.div _ (.fin (eps + (g.map Prod.snd).sum)) = _
    simp only [Fl.div, if_neg hd.ne']
    rfl
  · rw [div_le_iff₀ hd]
    have : ∀ l : List (K × K), (∀ y ∈ l, y.1 ≤ b ∧ 0 < y.2) →
        (l.map (fun g => g.1 * g.2)).sum ≤ b * (l.map Prod.snd).sum := by
      intro l hl
      induction l with
      | nil => simp
      | cons y l ih =>
        rw [List.map_cons, List.sum_cons, List.map_cons, List.sum_cons, mul_add]
        exact add_le_add (mul_le_mul_of_nonneg_right (hl y List.mem_cons_self).1 (hl y List.mem_cons_self).2.le)
          (ih (fun z hz => hl z (List.mem_cons_of_mem _ hz)))
    refine (this g (fun y hy => ?_)).trans ?_
    · obtain ⟨a, ha, p, hp, hb'⟩ := hg y hy
      exact ⟨hB a ha p hp y.1 y.2 (brightPix_pos hb').1, (hpos y hy).2⟩
    · exact mul_le_mul_of_nonneg_left (le_add_of_nonneg_left he.le) hb

/-- Of five pixels one counts; the others are masked, negative, minus infinity or without weight. -/
example : initialAmp ((1 : ℚ) / 2) [[⟨0, .fin 3, .fin 1⟩, ⟨1, .pinf, .fin 1⟩, ⟨0, .fin (-8), .fin 5⟩],
    [⟨0, .ninf, .fin 1⟩, ⟨0, .fin 9, .fin 0⟩]] = .fin 2 := by decide +kernel

omit [IsStrictOrderedRing K] in
/-- **C132, refuted.** A pixel with flux plus infinity and inverse variance zero, which has no weight, makes the initial
amplitude NaN, whatever the other pixels. -/
theorem C132_refuted (eps : K) {arms : List (List (FilePix K))}
    (h : ∃ a ∈ arms, ∃ p ∈ a, p.mask = 0 ∧ p.flux = .pinf ∧ p.ivar = .fin 0) : initialAmp eps arms = .nan := by
  obtain ⟨a, ha, ⟨m, f, v⟩, hp, hm, hf, hv⟩ := h
  dsimp only at hm hf hv
  subst hm hf hv
  have hmem : FilePix.mk 0 .pinf (.fin 0) ∈ positivePix a :=
    List.mem_filter.2 ⟨hp, by simp [FilePix.rFlux, badPixel, zeroBad, Fl.isNan, Fl.lt]⟩
  unfold initialAmp
  rw [Fl.sum_nan (l := arms.map (fun a => Fl.sum ((positivePix a).map (fun p => Fl.mul p.rFlux p.rIvar))))
    (List.mem_map.2 ⟨a, ha, Fl.sum_nan (List.mem_map.2 ⟨_, hmem, ?_⟩)⟩)]
  · rfl
  · simp [FilePix.rFlux, FilePix.rIvar, badPixel, zeroBad, Fl.isNan, Fl.lt, Fl.mul, Fl.infMul]

example : initialAmp ((1 : ℚ) / 2) [[⟨0, .fin 3, .fin 1⟩, ⟨0, .pinf, .fin 0⟩]] = .nan := by decide +kernel

/-- **C132, start of the fit, partial.** With numbers as flux and smoothed inverse variance, the latter not negative, the
fit begins with the weighted mean flux; its size is at most the largest size of the fluxes with weight. -/
theorem C132_start_partial {eps : K} (he : 0 < eps) {arms : List (List (K × K))} (h : ∀ a ∈ arms, ∀ p ∈ a, 0 ≤ p.2) :
    let g := arms.flatten
    let x := (g.map (fun p => p.1 * p.2)).sum / (eps + (g.map Prod.snd).sum)
    startAmpFl eps (arms.map (fun a => a.map (fun p => (Fl.fin p.1, Fl.fin p.2)))) = .fin x ∧
      ∀ b, 0 ≤ b → (∀ a ∈ arms, ∀ p ∈ a, 0 < p.2 → |p.1| ≤ b) → |x| ≤ b := by
  intro g x
  have hg : ∀ y ∈ g, ∃ a ∈ arms, y ∈ a := fun y hy => List.mem_flatten.1 hy
  have hv : 0 ≤ (g.map Prod.snd).sum := List.sum_nonneg (fun w hw => by
    obtain ⟨y, hy, rfl⟩ := List.mem_map.1 hw
    obtain ⟨a, ha, hy⟩ := hg y hy
    exact h a ha y hy)
  have hd : 0 < eps + (g.map Prod.snd).sum := add_pos_of_pos_of_nonneg he hv
  have flat : ∀ (f : K × K → K) (L : List (List (K × K))),
      (L.map (fun a => (a.map f).sum)).sum = (L.flatten.map f).sum := by
    intro f L
    induction L with
    | nil => rfl
    | cons a L ih => simp [ih]
  refine ⟨?_, fun b hb hB => ?_⟩
  · have e1 : ∀ a : List (K × K), Fl.sum ((a.map (fun p => (Fl.fin p.1, Fl.fin p.2))).map (fun p => Fl.mul p.1 p.2)) =
        .fin (a.map (fun p => p.1 * p.2)).sum := fun a => by
      rw [List.map_map, ← Fl.sum_fin]
      rfl
    have e2 : ∀ a : List (K × K), Fl.sum ((a.map (fun p => (Fl.fin p.1, Fl.fin p.2))).map Prod.snd) =
        .fin (a.map Prod.snd).sum := fun a => by
      rw [List.map_map, ← Fl.sum_fin]
      rfl
    unfold startAmpFl
    simp only [List.map_map (l := arms), Function.comp_def, e1, e2]
    rw [Fl.sum_fin, Fl.sum_fin, flat, flat]
    change Fl.div _ (.fin (eps + (g.map Prod.snd).sum)) = _
    simp only [Fl.div, if_neg hd.ne']
    rfl
  · rw [abs_div, abs_of_pos hd, div_le_iff₀ hd]
    have : ∀ l : List (K × K), (∀ y ∈ l, 0 ≤ y.2 ∧ (0 < y.2 → |y.1| ≤ b)) →
        |(l.map (fun p => p.1 * p.2)).sum| ≤ b * (l.map Prod.snd).sum := by
      intro l hl
      induction l with
      | nil => simp
      | cons y l ih =>
        rw [List.map_cons, List.sum_cons, List.map_cons, List.sum_cons, mul_add]
        refine (abs_add_le _ _).trans (add_le_add ?_ (ih (fun z hz => hl z (List.mem_cons_of_mem _ hz))))
        obtain ⟨h1, h2⟩ := hl y List.mem_cons_self
        rw [abs_mul, abs_of_nonneg h1]
        rcases h1.eq_or_lt with h1 | h1
        · rw [← h1, mul_zero, mul_zero]
        · exact mul_le_mul_of_nonneg_right (h2 h1) h1.le
    refine (this g (fun y hy => ?_)).trans (mul_le_mul_of_nonneg_left (le_add_of_nonneg_left he.le) hb)
    obtain ⟨a, ha, hy⟩ := hg y hy
    exact ⟨h a ha y hy, hB a ha y hy⟩

example : startAmpFl ((1 : ℚ) / 2) [[(.fin 3, .fin 1), (.fin 100, .fin 0)], [(.fin (-6), .fin 1)]] = .fin (-6 / 5) := by
  decide +kernel

omit [IsStrictOrderedRing K] in
/-- **C132, start of the fit, refuted.** An infinite flux without weight makes the starting point of the fit NaN. -/
theorem C132_start_refuted (eps : K) {arms : List (List (Fl K × Fl K))}
    (h : ∃ a ∈ arms, ∃ p ∈ a, (p.1 = .pinf ∨ p.1 = .ninf) ∧ p.2 = .fin 0) : startAmpFl eps arms = .nan := by
  obtain ⟨a, ha, ⟨f, v⟩, hp, hf, hv⟩ := h
  dsimp only at hf hv
  subst hv
  unfold startAmpFl
  rw [Fl.sum_nan (l := arms.map (fun a => Fl.sum (a.map (fun p => Fl.mul p.1 p.2))))
    (List.mem_map.2 ⟨a, ha, Fl.sum_nan (List.mem_map.2 ⟨_, hp, ?_⟩)⟩)]
  · rfl
  · rcases hf with rfl | rfl <;> simp [Fl.mul, Fl.infMul]

example : startAmpFl ((1 : ℚ) / 2) [[(.fin 3, .fin 1)], [(.ninf, .fin 0), (.fin 1, .fin 1)]] = .nan := by decide +kernel

end Verif.Props
