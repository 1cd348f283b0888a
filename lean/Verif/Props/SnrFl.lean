import Verif.Model.SnrFl
import Verif.Props.CoaddFl
import Verif.Proofs.Slice

/-!
# C131: the signal-to-noise cuts with special values
-/

namespace Verif.Props
open Verif Verif.Np Verif.Model Verif.Spec Verif.Proofs

variable {K : Type} [Field K] [LinearOrder K]

/-- The pixel is masked, or it has no infinite value. -/
def NoInf (p : FilePix K) : Prop := p.mask = 0 → p.ivar ≠ .pinf ∧ p.flux ≠ .pinf ∧ p.flux ≠ .ninf

/-- `flux * sqrt(ivar)` of the pixel when it counts, else zero. -/
def goodSnr (sqrt : K → K) (p : FilePix K) : K := ((goodPix p).map (fun g => g.1 * sqrt g.2)).getD 0

theorem noInf_cases {p : FilePix K} (h : NoInf p) :
    (goodPix p = none ∧ (∃ f, p.rFlux = .fin f) ∧ p.rIvar = .fin 0) ∨
    ∃ f v, goodPix p = some (f, v) ∧ 0 < v ∧ p.rFlux = .fin f ∧ p.rIvar = .fin v := by
  obtain ⟨m, f, v⟩ := p
  unfold NoInf at h
  dsimp only at h
  by_cases hm : m = 0
  · obtain ⟨h1, h2, h3⟩ := h hm
    cases f with
    | nan => left; cases v <;> simp [FilePix.rIvar, FilePix.rFlux, badPixel, zeroBad, goodPix, Fl.isNan]
    | pinf => exact absurd rfl h2
    | ninf => exact absurd rfl h3
    | fin f =>
      cases v with
      | nan => left; simp [FilePix.rIvar, FilePix.rFlux, badPixel, zeroBad, goodPix, Fl.isNan]
      | pinf => exact absurd rfl h1
      | ninf => left; simp [FilePix.rIvar, FilePix.rFlux, badPixel, zeroBad, goodPix, Fl.lt]
      | fin v =>
        rcases lt_trichotomy v 0 with hv | hv | hv
        · left; simp [FilePix.rIvar, FilePix.rFlux, badPixel, zeroBad, goodPix, Fl.lt, hv, hv.not_gt]
        · subst hv
          left; simp [FilePix.rIvar, FilePix.rFlux, badPixel, zeroBad, goodPix, Fl.lt, Fl.isNan, hm]
        · right
          exact ⟨f, v, by simp [goodPix, hm, hv], hv,
            by simp [FilePix.rFlux, badPixel, zeroBad, Fl.lt, Fl.isNan, hm, hv.not_gt],
            by simp [FilePix.rIvar, badPixel, zeroBad, Fl.lt, Fl.isNan, hm, hv.not_gt]⟩
  · left
    cases f <;> cases v <;> simp [FilePix.rIvar, FilePix.rFlux, badPixel, zeroBad, goodPix, hm]

theorem noInf_snr {sqrt : K → K} (h0 : sqrt 0 = 0) {p : FilePix K} (h : NoInf p) :
    p.snr sqrt = .fin (goodSnr sqrt p) := by
  rcases noInf_cases h with ⟨h1, ⟨f, h2⟩, h3⟩ | ⟨f, v, h1, -, h2, h3⟩ <;>
    simp [FilePix.snr, goodSnr, h1, h2, h3, Fl.mul, Fl.sqrtOf, h0]

theorem noInf_weight {sqrt : K → K} (h0 : sqrt 0 = 0) (hs : ∀ v, 0 < v → 0 < sqrt v) {p : FilePix K}
    (h : NoInf p) : Fl.lt (.fin 0) (Fl.sqrtOf sqrt p.rIvar) = (goodPix p).isSome := by
  rcases noInf_cases h with ⟨h1, -, h3⟩ | ⟨f, v, h1, hv, -, h3⟩
  · simp [h1, h3, Fl.lt, Fl.sqrtOf, h0]
  · simp [h1, h3, Fl.lt, Fl.sqrtOf, hs v hv]

theorem noInf_ivar {p : FilePix K} (h : NoInf p) : Fl.lt (.fin 0) p.rIvar = (goodPix p).isSome := by
  rcases noInf_cases h with ⟨h1, -, h3⟩ | ⟨f, v, h1, hv, -, h3⟩
  · simp [h1, h3, Fl.lt]
  · simp [h1, h3, Fl.lt, hv]

theorem countP_isSome {α β : Type} (g : α → Option β) (l : List α) :
    l.countP (fun x => (g x).isSome) = (l.filterMap g).length := by
  induction l with
  | nil => rfl
  | cons a l ih => cases e : g a <;> simp [e, ih]

theorem redSide_eq {l : K} {arm : List (K × FilePix K)} (h : (arm.map Prod.fst).Pairwise (· < ·)) :
    redSide l arm = (arm.filter (fun x => decide (l ≤ x.1))).map Prod.snd := by
  unfold redSide
  congr 1
  induction arm with
  | nil => rfl
  | cons a as ih =>
    rw [List.map_cons, List.pairwise_cons] at h
    rw [List.map_cons, searchsorted_cons]
    by_cases hl : l ≤ a.1
    · rw [if_pos hl, List.drop_zero, List.filter_eq_self.2]
      intro x hx
      rcases List.mem_cons.1 hx with rfl | hx
      · simpa using hl
      · simpa using hl.trans (h.1 x.1 (List.mem_map_of_mem hx)).le
    · rw [if_neg hl, List.drop_succ_cons, ih h.2, List.filter_cons_of_neg (by simpa using hl)]

theorem sum_snr {sqrt : K → K} (h0 : sqrt 0 = 0) {l : List (FilePix K)} (h : ∀ p ∈ l, NoInf p) :
    Fl.sum (l.map (FilePix.snr sqrt)) = .fin ((l.filterMap goodPix).map (fun g => g.1 * sqrt g.2)).sum := by
  rw [List.map_congr_left (fun p hp => noInf_snr h0 (h p hp)), Fl.sum_fin, ← sum_getD]
  rfl

/-- The good pixels of an arm at or above the wavelength `l`. -/
def goodRed (l : K) (arm : List (K × FilePix K)) : List (K × K) :=
  (arm.filter (fun x => decide (l ≤ x.1))).filterMap (fun x => goodPix x.2)

variable [IsStrictOrderedRing K]

/-- **C131, partial.** If no pixel on the red side that is not masked has an infinite value, the signal-to-noise is the
number that the good pixels give, whatever the values of the masked pixels, and the cut is made on that number. -/
theorem C131_partial (sqrt : K → K) (h0 : sqrt 0 = 0) (hs : ∀ v, 0 < v → 0 < sqrt v) {eps : K} (he : 0 < eps)
    (lya z cut : K) {arms : List (List (K × FilePix K))}
    (hw : ∀ a ∈ arms, (a.map Prod.fst).Pairwise (· < ·))
    (h : ∀ a ∈ arms, ∀ x ∈ a, (1 + z) * lya ≤ x.1 → NoInf x.2) :
    let good := arms.flatMap (goodRed ((1 + z) * lya))
    let snr := (good.map (fun g => g.1 * sqrt g.2)).sum / (eps + (good.length : K))
    rsnrFl sqrt eps lya z arms = .fin snr ∧
      (passes (rsnrFl sqrt eps lya z arms) cut = true ↔ cut ≤ snr) := by
  intro good snr
  have key : rsnrFl sqrt eps lya z arms = .fin snr := by
    have hr : ∀ a ∈ arms, (∀ p ∈ redSide ((1 + z) * lya) a, NoInf p) ∧
        (redSide ((1 + z) * lya) a).filterMap goodPix = goodRed ((1 + z) * lya) a := by
      intro a ha
      rw [redSide_eq (hw a ha)]
      refine ⟨fun p hp => ?_, by rw [List.filterMap_map]; rfl⟩
      obtain ⟨x, hx, rfl⟩ := List.mem_map.1 hp
      have := List.mem_filter.1 hx
      exact h a ha x this.1 (by simpa using this.2)
    have e1 : (arms.map (redSide ((1 + z) * lya))).map (fun a => Fl.sum (a.map (FilePix.snr sqrt))) =
        arms.map (fun a => .fin ((goodRed ((1 + z) * lya) a).map (fun g => g.1 * sqrt g.2)).sum) := by
      rw [List.map_map]
      refine List.map_congr_left (fun a ha => ?_)
      rw [Function.comp_apply, sum_snr h0 (hr a ha).1, (hr a ha).2]
    have e2 : (arms.map (redSide ((1 + z) * lya))).map
          (fun a => a.countP (fun p => Fl.lt (.fin 0) (Fl.sqrtOf sqrt p.rIvar))) =
        arms.map (fun a => (goodRed ((1 + z) * lya) a).length) := by
      rw [List.map_map]
      refine List.map_congr_left (fun a ha => ?_)
      rw [Function.comp_apply, ← (hr a ha).2, ← countP_isSome]
      refine List.countP_congr (fun p hp => ?_)
      rw [noInf_weight h0 hs ((hr a ha).1 p hp)]
    have e3 : ∀ L : List (List (K × FilePix K)),
        (L.map (fun a => ((goodRed ((1 + z) * lya) a).map (fun g => g.1 * sqrt g.2)).sum)).sum =
          ((L.flatMap (goodRed ((1 + z) * lya))).map (fun g => g.1 * sqrt g.2)).sum := by
      intro L
      induction L with
      | nil => rfl
      | cons a L ih => simp [List.flatMap_cons, ih]
    have hp : eps + (good.length : K) ≠ 0 := (add_pos_of_pos_of_nonneg he (Nat.cast_nonneg _)).ne'
    unfold rsnrFl
    dsimp only
    rw [e1, e2, Fl.sum_fin, e3, ← List.length_flatMap]
    change Fl.div _ (.fin (eps + (good.length : K))) = _
    simp only [Fl.div, if_neg hp]
    rfl
  exact ⟨key, by rw [key]; simp [passes]⟩

/-- The root is the identity and the line is at 1: the pixel below the line and the two masked pixels, one of them
infinite, do not count. -/
example : rsnrFl (fun v : ℚ => v) (1 / 2) 1 0
      [[((1 : ℚ) / 2, ⟨0, .pinf, .fin 1⟩), (1, ⟨0, .fin 6, .fin 1⟩)], [(2, ⟨1, .pinf, .fin 1⟩), (3, ⟨0, .nan, .fin 2⟩)]] =
    .fin 4 ∧
    passes (rsnrFl (fun v : ℚ => v) (1 / 2) 1 0 [[((1 : ℚ), ⟨0, .fin 6, .fin 1⟩)]]) 4 = true := by decide +kernel

/-- **C131, forest, partial.** The mean signal-to-noise of an arm of the forest is the mean of `flux * sqrt(ivar)` over
its good pixels, if no pixel that is not masked has an infinite value. -/
theorem C131_forest_partial (sqrt : K → K) (h0 : sqrt 0 = 0) {arm : List (FilePix K)} (h : ∀ p ∈ arm, NoInf p) :
    let good := arm.filterMap goodPix
    meanSnrFl sqrt arm = .fin ((good.map (fun g => g.1 * sqrt g.2)).sum / (good.length : K)) := by
  intro good
  have e : arm.countP (fun p => Fl.lt (.fin 0) p.rIvar) = good.length := by
    rw [← countP_isSome]
    refine List.countP_congr (fun p hp => ?_)
    rw [noInf_ivar (h p hp)]
  unfold meanSnrFl
  dsimp only
  rw [e, sum_snr h0 h]
  split_ifs with hg
  · rw [hg, Nat.cast_zero, div_zero]
  · have : (good.length : K) ≠ 0 := Nat.cast_ne_zero.2 hg
    simp only [Fl.div, if_neg this]
    rfl

example : meanSnrFl (fun v : ℚ => v) [⟨0, .fin 2, .fin 3⟩, ⟨4, .ninf, .pinf⟩, ⟨0, .fin 1, .fin 2⟩] = .fin 4 := by
  decide +kernel

/-- **C131, cut of the forest, partial.** Under the same condition for all arms the effective signal-to-noise is the sum
of the cubes of the means over the good pixels of the arms, over the sum of their squares, and the cut is made on it. -/
theorem C131_effective_partial (sqrt : K → K) (h0 : sqrt 0 = 0) {eps : K} (he : 0 < eps) (cut : K)
    {arms : List (List (FilePix K))} (h : ∀ a ∈ arms, ∀ p ∈ a, NoInf p) :
    let mean := fun a : List (FilePix K) =>
      ((a.filterMap goodPix).map (fun g => g.1 * sqrt g.2)).sum / ((a.filterMap goodPix).length : K)
    let snr := (arms.map (fun a => mean a ^ 3)).sum / (eps + (arms.map (fun a => mean a ^ 2)).sum)
    effectiveSnrFl eps (arms.map (meanSnrFl sqrt)) = .fin snr ∧
      (passes (effectiveSnrFl eps (arms.map (meanSnrFl sqrt))) cut = true ↔ cut ≤ snr) := by
  intro mean snr
  have hm : arms.map (meanSnrFl sqrt) = arms.map (fun a => .fin (mean a)) :=
    List.map_congr_left (fun a ha => C131_forest_partial sqrt h0 (h a ha))
  have key : effectiveSnrFl eps (arms.map (meanSnrFl sqrt)) = .fin snr := by
    have e3 : (arms.map (fun a => Fl.fin (mean a))).map (fun v => Fl.mul (Fl.mul v v) v) =
        arms.map (fun a => .fin (mean a ^ 3)) := by
      rw [List.map_map]
      refine List.map_congr_left (fun a _ => ?_)
      simp only [Function.comp_apply, Fl.mul, pow_succ, pow_zero, one_mul]
    have e2 : (arms.map (fun a => Fl.fin (mean a))).map (fun v => Fl.mul v v) =
        arms.map (fun a => .fin (mean a ^ 2)) := by
      rw [List.map_map]
      refine List.map_congr_left (fun a _ => ?_)
      simp only [Function.comp_apply, Fl.mul, pow_succ, pow_zero, one_mul]
    have hp : eps + (arms.map (fun a => mean a ^ 2)).sum ≠ 0 := by
      refine (add_pos_of_pos_of_nonneg he (List.sum_nonneg (fun x hx => ?_))).ne'
      obtain ⟨a, -, rfl⟩ := List.mem_map.1 hx
      exact sq_nonneg _
    unfold effectiveSnrFl
    rw [hm, e3, e2, Fl.sum_fin, Fl.sum_fin]
    simp only [Fl.add, Fl.div, if_neg hp]
    rfl
  exact ⟨key, by rw [key]; simp [passes]⟩

example : effectiveSnrFl ((1 : ℚ) / 2) ([[⟨0, .fin 2, .fin 1⟩, ⟨1, .pinf, .nan⟩], [⟨0, .fin 1, .fin 1⟩]].map
    (meanSnrFl (fun v : ℚ => v))) = .fin (18 / 11) := by decide +kernel

omit [IsStrictOrderedRing K] in
theorem snr_nan {sqrt : K → K} (h0 : sqrt 0 = 0) {p : FilePix K} (hm : p.mask = 0)
    (hf : p.flux = .pinf ∨ p.flux = .ninf) (hv : p.ivar = .fin 0) : p.snr sqrt = .nan := by
  obtain ⟨m, f, v⟩ := p
  dsimp only at hm hf hv
  subst hm hv
  rcases hf with rfl | rfl <;>
    simp [FilePix.snr, FilePix.rFlux, FilePix.rIvar, badPixel, zeroBad, Fl.isNan, Fl.lt, Fl.mul, Fl.sqrtOf, h0, Fl.infMul]

/-- **C131, refuted.** One pixel with inverse variance zero and infinite flux on the red side, which has no weight, makes
the signal-to-noise NaN, and the quasar is removed for every value of `--min-rsnr`, however good its other pixels. -/
theorem C131_refuted (sqrt : K → K) (h0 : sqrt 0 = 0) (eps lya z cut : K) {arms : List (List (K × FilePix K))}
    (hw : ∀ a ∈ arms, (a.map Prod.fst).Pairwise (· < ·))
    (h : ∃ a ∈ arms, ∃ x ∈ a, (1 + z) * lya ≤ x.1 ∧ x.2.mask = 0 ∧ (x.2.flux = .pinf ∨ x.2.flux = .ninf) ∧
      x.2.ivar = .fin 0) :
    rsnrFl sqrt eps lya z arms = .nan ∧ passes (rsnrFl sqrt eps lya z arms) cut = false := by
  have key : rsnrFl sqrt eps lya z arms = .nan := by
    obtain ⟨a, ha, x, hx, hl, hm, hf, hv⟩ := h
    have e : Fl.sum ((arms.map (redSide ((1 + z) * lya))).map (fun a => Fl.sum (a.map (FilePix.snr sqrt)))) = .nan := by
      refine Fl.sum_nan (List.mem_map.2 ⟨_, List.mem_map_of_mem ha, Fl.sum_nan (List.mem_map.2 ⟨x.2, ?_, snr_nan h0 hm hf hv⟩)⟩)
      rw [redSide_eq (hw a ha)]
      exact List.mem_map_of_mem (List.mem_filter.2 ⟨hx, by simpa using hl⟩)
    unfold rsnrFl
    dsimp only
    rw [e]
    rfl
  exact ⟨key, by rw [key]; rfl⟩

example : rsnrFl (fun v : ℚ => v) (1 / 2) 1 0 [[((1 : ℚ), ⟨0, .fin 600, .fin 1⟩), (2, ⟨0, .pinf, .fin 0⟩)]] = .nan ∧
    passes (rsnrFl (fun v : ℚ => v) (1 / 2) 1 0
      [[((1 : ℚ), ⟨0, .fin 600, .fin 1⟩), (2, ⟨0, .pinf, .fin 0⟩)]]) (-1000) = false := by decide +kernel

/-- **C131, forest, refuted.** Such a pixel in one arm of the forest, with a good pixel in that arm, removes the spectrum
for every value of `--min-forestsnr`, whatever the other arms. -/
theorem C131_forest_refuted (sqrt : K → K) (h0 : sqrt 0 = 0) (eps cut : K) {arms : List (List (FilePix K))}
    (h : ∃ a ∈ arms, (∃ p ∈ a, goodPix p ≠ none) ∧ ∃ p ∈ a, p.mask = 0 ∧ (p.flux = .pinf ∨ p.flux = .ninf) ∧
      p.ivar = .fin 0) :
    passes (effectiveSnrFl eps (arms.map (meanSnrFl sqrt))) cut = false := by
  obtain ⟨a, ha, ⟨q, hq, hg⟩, p, hp, hm, hf, hv⟩ := h
  have e : meanSnrFl sqrt a = .nan := by
    have hc : a.countP (fun p => Fl.lt (.fin 0) p.rIvar) ≠ 0 := by
      rw [← Nat.pos_iff_ne_zero, List.countP_pos_iff]
      refine ⟨q, hq, ?_⟩
      have hn : NoInf q := by
        obtain ⟨m, f, v⟩ := q
        intro _
        cases f <;> cases v <;> simp [goodPix] at hg ⊢
      rw [noInf_ivar hn]
      exact Option.isSome_iff_ne_none.2 hg
    unfold meanSnrFl
    dsimp only
    rw [if_neg hc, Fl.sum_nan (List.mem_map.2 ⟨p, hp, snr_nan h0 hm hf hv⟩)]
    rfl
  have e2 : effectiveSnrFl eps (arms.map (meanSnrFl sqrt)) = .nan := by
    unfold effectiveSnrFl
    rw [Fl.sum_nan (l := (arms.map (meanSnrFl sqrt)).map (fun v => Fl.mul (Fl.mul v v) v))
      (List.mem_map.2 ⟨_, List.mem_map_of_mem ha, by rw [e]; rfl⟩)]
    rfl
  rw [e2]
  rfl

example : passes (effectiveSnrFl ((1 : ℚ) / 2) ([[⟨0, .fin 600, .fin 1⟩, ⟨0, .ninf, .fin 0⟩],
    [⟨0, .fin 600, .fin 1⟩]].map (meanSnrFl (fun v : ℚ => v)))) 0 = false := by decide +kernel

end Verif.Props
