import Verif.Model.CostFl
import Verif.Props.CoaddFl

/-!
# C133: the cost of a continuum with special values
-/

namespace Verif.Props
open Verif Verif.Np Verif.Model Verif.Proofs

variable {K : Type} [Field K] [LinearOrder K] [IsStrictOrderedRing K]

/-- Minus twice the logarithm of the Gaussian likelihood of the flux `f` with the mean `c` and the variance `var`, without
a constant. -/
def gaussCost (log : K → K) (f c var : K) : K := (f - c) ^ 2 / var + log var

/-- A pixel of numbers: wavelength, flux, smoothed inverse variance. -/
def rawOf (p : K × K × K) : FlRaw K := ⟨p.1, .fin p.2.1, .fin p.2.2⟩

theorem armCost_numbers (log varlss eta c mf : K → K) (hl : ∀ x, 0 < x → log x⁻¹ = -log x)
    {a : List (K × K × K)} (hv : ∀ p ∈ a, 0 ≤ p.2.2) (he : ∀ p ∈ a, 0 < eta p.1) (hs : ∀ p ∈ a, 0 ≤ varlss p.1) :
    armCost log varlss eta ((a.map rawOf).map (fun p => FlPix.mk p.wave p.flux p.ivar
      (Fl.mul (.fin (c p.wave)) (.fin (mf p.wave))))) =
    .fin ((a.filter (fun p => decide (0 < p.2.2))).map (fun p => gaussCost log p.2.1 (c p.1 * mf p.1)
      (eta p.1 / p.2.2 + varlss p.1 * (c p.1 * mf p.1) ^ 2))).sum := by
  set F : FlRaw K → FlPix K := fun p => FlPix.mk p.wave p.flux p.ivar (Fl.mul (.fin (c p.wave)) (.fin (mf p.wave)))
    with hF
  have split : ∃ x y : K, Fl.sum (((a.map rawOf).map F).map (FlPix.chi2 varlss eta)) = .fin x ∧
      Fl.sum (((((a.map rawOf).map F).map (FlPix.wt varlss eta)).filter (fun w => Fl.lt (.fin 0) w)).map (logFl log)) =
        .fin y ∧
      x - y = ((a.filter (fun p => decide (0 < p.2.2))).map (fun p => gaussCost log p.2.1 (c p.1 * mf p.1)
        (eta p.1 / p.2.2 + varlss p.1 * (c p.1 * mf p.1) ^ 2))).sum := by
    induction a with
    | nil => exact ⟨0, 0, rfl, rfl, by simp⟩
    | cons p a ih =>
      obtain ⟨x, y, h1, h2, h3⟩ := ih (fun q hq => hv q (List.mem_cons_of_mem _ hq))
        (fun q hq => he q (List.mem_cons_of_mem _ hq)) (fun q hq => hs q (List.mem_cons_of_mem _ hq))
      have pv := hv p List.mem_cons_self
      have pe := he p List.mem_cons_self
      have ps := hs p List.mem_cons_self
      obtain ⟨w, f, v⟩ := p
      dsimp only at pv pe ps
      have hd : 0 < eta w + v * (varlss w * (c w * mf w * (c w * mf w))) :=
        add_pos_of_pos_of_nonneg pe (mul_nonneg pv (mul_nonneg ps (mul_self_nonneg _)))
      have hw : FlPix.wt varlss eta (F (rawOf (w, f, v))) =
          .fin (v / (eta w + v * (varlss w * (c w * mf w * (c w * mf w))))) := by
        simp only [hF, rawOf, FlPix.wt, Fl.mul, Fl.add, Fl.div, if_neg hd.ne']
      have hc : FlPix.chi2 varlss eta (F (rawOf (w, f, v))) =
          .fin (v / (eta w + v * (varlss w * (c w * mf w * (c w * mf w)))) *
            ((f + -1 * (c w * mf w)) * (f + -1 * (c w * mf w)))) := by
        unfold FlPix.chi2
        rw [hw]
        simp only [hF, rawOf, Fl.mul, Fl.add]
      simp only [List.map_cons, Fl.sum_cons, hc, hw, h1]
      rcases pv.eq_or_lt with h0 | h0
      · subst h0
        refine ⟨_, y, rfl, ?_, ?_⟩
        · rw [List.filter_cons_of_neg (by simp [Fl.lt]), h2]
        · rw [List.filter_cons_of_neg (by simp), ← h3]
          simp
      · have hw0 := div_pos h0 hd
        refine ⟨_, log (v / (eta w + v * (varlss w * (c w * mf w * (c w * mf w))))) + y, rfl, ?_, ?_⟩
        · rw [List.filter_cons_of_pos (by simpa [Fl.lt] using hw0), List.map_cons, Fl.sum_cons, h2]
          rfl
        · rw [List.filter_cons_of_pos (by simpa using h0), List.map_cons, List.sum_cons, ← h3]
          have hvar : v / (eta w + v * (varlss w * (c w * mf w * (c w * mf w)))) =
              (eta w / v + varlss w * (c w * mf w) ^ 2)⁻¹ := by
            rw [← inv_div]
            congr 1
            field_simp
          have hpos : 0 < eta w / v + varlss w * (c w * mf w) ^ 2 :=
            add_pos_of_pos_of_nonneg (div_pos pe h0) (mul_nonneg ps (sq_nonneg _))
          dsimp only [gaussCost]
          rw [hvar, hl _ hpos]
          ring
  obtain ⟨x, y, h1, h2, h3⟩ := split
  unfold armCost
  dsimp only
  rw [h1, h2, ← h3]
  simp only [Fl.mul, Fl.add]
  congr 1
  ring

/-- **C133, partial.** With numbers as flux, smoothed inverse variance and continuum, the function that is minimized is
minus twice the logarithm of the likelihood of the pixels with positive inverse variance (without a constant), where the
variance is `eta / ivar + var_lss * cont ** 2`; it is a number, and the fluxes of the other pixels do not matter. -/
theorem C133_partial (log varlss eta c mf : K → K) (hl : ∀ x, 0 < x → log x⁻¹ = -log x)
    {arms : List (List (K × K × K))} (hv : ∀ a ∈ arms, ∀ p ∈ a, 0 ≤ p.2.2) (he : ∀ a ∈ arms, ∀ p ∈ a, 0 < eta p.1)
    (hs : ∀ a ∈ arms, ∀ p ∈ a, 0 ≤ varlss p.1) :
    costFl log varlss eta (fun w => .fin (c w)) (fun w => .fin (mf w)) (arms.map (fun a => a.map rawOf)) =
      .fin ((arms.flatten.filter (fun p => decide (0 < p.2.2))).map (fun p => gaussCost log p.2.1 (c p.1 * mf p.1)
        (eta p.1 / p.2.2 + varlss p.1 * (c p.1 * mf p.1) ^ 2))).sum := by
  unfold costFl
  rw [List.map_map]
  have e := List.map_congr_left (fun a ha => armCost_numbers log varlss eta c mf hl (hv a ha) (he a ha) (hs a ha))
  refine (congrArg Fl.sum e).trans ?_
  rw [Fl.sum_fin]
  congr 1
  clear e hv he hs
  induction arms with
  | nil => rfl
  | cons a L ih => simp [ih]

/-- One pixel of two counts; the logarithm is zero here. -/
example : costFl (fun _ : ℚ => 0) (fun _ => 1) (fun _ => 1) (fun _ => .fin 1) (fun _ => .fin 1)
    [[⟨1, .fin 3, .fin 1⟩], [⟨2, .fin 700, .fin 0⟩]] = .fin 2 := by decide +kernel

omit [IsStrictOrderedRing K] in
/-- **C133, refuted.** With one pixel of infinite flux and inverse variance zero the cost is NaN for every continuum that
is a number there: nothing is minimized, although the pixel has no weight. -/
theorem C133_refuted (log varlss eta : K → K) (model meanflux : K → Fl K) {arms : List (List (FlRaw K))}
    (h : ∃ a ∈ arms, ∃ p ∈ a, (p.flux = .pinf ∨ p.flux = .ninf) ∧ p.ivar = .fin 0 ∧ eta p.wave ≠ 0 ∧
      (∃ x, model p.wave = .fin x) ∧ ∃ y, meanflux p.wave = .fin y) :
    costFl log varlss eta model meanflux arms = .nan := by
  obtain ⟨a, ha, ⟨w, f, v⟩, hp, hf, hv, he, ⟨x, hx⟩, y, hy⟩ := h
  dsimp only at hf hv he hx hy
  subst hv
  unfold costFl
  refine Fl.sum_nan (List.mem_map.2 ⟨a, ha, ?_⟩)
  unfold armCost
  dsimp only
  rw [Fl.sum_nan]
  · rfl
  · rw [List.map_map]
    refine List.mem_map.2 ⟨_, hp, ?_⟩
    rcases hf with rfl | rfl <;>
      simp [FlPix.chi2, FlPix.wt, hx, hy, Fl.mul, Fl.add, Fl.div, he, Fl.infMul]

example : costFl (fun _ : ℚ => 0) (fun _ => 1) (fun _ => 1) (fun _ => .fin 1) (fun _ => .fin 1)
    [[⟨1, .fin 3, .fin 1⟩], [⟨2, .pinf, .fin 0⟩]] = .nan := by decide +kernel

omit [IsStrictOrderedRing K] in
/-- **C133, refuted for eta zero.** Where `eta` is zero a pixel with inverse variance zero makes the cost NaN, whatever its
flux. -/
theorem C133_eta_refuted (log varlss eta : K → K) (model meanflux : K → Fl K) {arms : List (List (FlRaw K))}
    (h : ∃ a ∈ arms, ∃ p ∈ a, p.ivar = .fin 0 ∧ eta p.wave = 0 ∧ (∃ x, model p.wave = .fin x) ∧
      ∃ y, meanflux p.wave = .fin y) :
    costFl log varlss eta model meanflux arms = .nan := by
  obtain ⟨a, ha, ⟨w, f, v⟩, hp, hv, he, ⟨x, hx⟩, y, hy⟩ := h
  dsimp only at hv he hx hy
  subst hv
  unfold costFl
  refine Fl.sum_nan (List.mem_map.2 ⟨a, ha, ?_⟩)
  unfold armCost
  dsimp only
  rw [Fl.sum_nan]
  · rfl
  · rw [List.map_map]
    refine List.mem_map.2 ⟨_, hp, ?_⟩
    simp [FlPix.chi2, FlPix.wt, hx, hy, Fl.mul, Fl.add, Fl.div, he, Fl.infMul]

example : costFl (fun _ : ℚ => 0) (fun _ => 1) (fun w => if w = 2 then 0 else 1) (fun _ => .fin 1) (fun _ => .fin 1)
    [[⟨1, .fin 3, .fin 1⟩], [⟨2, .fin 1, .fin 0⟩]] = .nan := by decide +kernel

end Verif.Props
