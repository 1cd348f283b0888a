import Verif.Model.ContFitFl
import Verif.Props.DeltaFl

/-!
# C130: valid continua with special values
-/

namespace Verif.Props
open Verif Verif.Np Verif.Model Verif.Proofs

variable {K : Type} [Field K] [LinearOrder K]

theorem contLoopFl_eq (kind : ContKind) (model meanflux : K → Fl K) (arms : List (List (FlRaw K))) :
    ((contLoopFl kind model meanflux arms).1 = true ↔ ∀ a ∈ arms, ∀ p ∈ a, kind.rejects (model p.wave) = false) ∧
    ((contLoopFl kind model meanflux arms).1 = true → (contLoopFl kind model meanflux arms).2 =
      arms.map (fun a => a.map (fun p => (⟨p.wave, p.flux, p.ivar, Fl.mul (model p.wave) (meanflux p.wave)⟩ : FlPix K)))) := by
  induction arms with
  | nil => simp [contLoopFl]
  | cons a as ih =>
    unfold contLoopFl
    by_cases h : a.any (fun p => kind.rejects (model p.wave)) = true
    · rw [if_pos h]
      refine ⟨⟨fun h' => by simp at h', fun h' => ?_⟩, fun h' => by simp at h'⟩
      obtain ⟨p, hp, h2⟩ := List.any_eq_true.mp h
      rw [h' a List.mem_cons_self p hp] at h2
      cases h2
    · rw [if_neg h]
      have h' : ∀ p ∈ a, kind.rejects (model p.wave) = false := by
        intro p hp
        by_contra hc
        exact h (List.any_eq_true.mpr ⟨p, hp, by simpa using hc⟩)
      dsimp only
      refine ⟨⟨fun h1 b hb => ?_, fun h1 => ih.1.mpr fun b hb => h1 b (List.mem_cons_of_mem _ hb)⟩, fun h1 => ?_⟩
      · rcases List.mem_cons.mp hb with rfl | hb
        · exact h'
        · exact ih.1.mp h1 b hb
      · rw [ih.2 h1, List.map_cons]

/-- A fit is valid if and only if the minimizer succeeded and no pixel of any arm is rejected; then the continuum of each
pixel is model times mean flux. -/
theorem fitFl_valid (kind : ContKind) (model meanflux : K → Fl K) (varlss eta : K → K) (success : Bool)
    (arms : List (List (FlRaw K))) :
    let r := fitFl kind model meanflux varlss eta success arms
    (r.valid = true ↔ success = true ∧ ∀ a ∈ arms, ∀ p ∈ a, kind.rejects (model p.wave) = false) ∧
    (r.valid = true → r.pixels = some (arms.map (fun a => a.map (fun p =>
        (⟨p.wave, p.flux, p.ivar, Fl.mul (model p.wave) (meanflux p.wave)⟩ : FlPix K)))) ∧
      (arms ≠ [] → r.chi2 = Fl.sum (arms.map (fun a => Fl.sum (a.map (fun p => FlPix.chi2 varlss eta
        (⟨p.wave, p.flux, p.ivar, Fl.mul (model p.wave) (meanflux p.wave)⟩ : FlPix K))))))) ∧
    (r.valid = false → r.pixels = none ∧ r.chi2 = .fin (-1)) := by
  intro r
  obtain ⟨h1, h2⟩ := contLoopFl_eq kind model meanflux arms
  cases success with
  | false =>
    have e : r = { valid := false, pixels := none, chi2 := .fin (-1) } := rfl
    rw [e]
    exact ⟨by simp, by simp, fun _ => ⟨rfl, rfl⟩⟩
  | true =>
    by_cases hv : (contLoopFl kind model meanflux arms).1 = true
    · have e : r = { valid := true, pixels := some (contLoopFl kind model meanflux arms).2
                     chi2 := if (contLoopFl kind model meanflux arms).2.isEmpty then .fin (-1)
                       else Fl.sum ((contLoopFl kind model meanflux arms).2.map
                         (fun a => Fl.sum (a.map (FlPix.chi2 varlss eta)))) } := by
        change fitFl kind model meanflux varlss eta true arms = _
        unfold fitFl
        simp only [if_true, if_pos hv]
      rw [e, h2 hv]
      refine ⟨⟨fun _ => ⟨rfl, h1.mp hv⟩, fun _ => rfl⟩, fun _ => ⟨rfl, fun hne => ?_⟩, by simp⟩
      dsimp only
      rw [if_neg (by simpa using hne), List.map_map]
      congr 1
      refine List.map_congr_left fun a _ => ?_
      rw [Function.comp_apply, List.map_map]
      rfl
    · have e : r = { valid := false, pixels := none, chi2 := .fin (-1) } := by
        change fitFl kind model meanflux varlss eta true arms = _
        unfold fitFl
        simp only [if_true, if_neg hv]
      rw [e]
      refine ⟨⟨fun h => by simp at h, fun h => absurd (h1.mpr h.2) hv⟩, by simp, fun _ => ⟨rfl, rfl⟩⟩

/-- **C130.** A fit that is not valid has no continuum and chi square -1, for all models. A continuum from a file is not valid
if and only if it was not found or is NaN, minus infinity or a number that is not positive in some pixel of some arm. -/
theorem C130_invalid (kind : ContKind) (model meanflux : K → Fl K) (varlss eta : K → K) (success : Bool)
    (arms : List (List (FlRaw K))) :
    ((fitFl kind model meanflux varlss eta success arms).valid = false →
      (fitFl kind model meanflux varlss eta success arms).pixels = none ∧
      (fitFl kind model meanflux varlss eta success arms).chi2 = .fin (-1)) ∧
    ((fitFl .input model meanflux varlss eta success arms).valid = false ↔ success = false ∨ ∃ a ∈ arms, ∃ p ∈ a,
      model p.wave = .nan ∨ model p.wave = .ninf ∨ ∃ c, model p.wave = .fin c ∧ c ≤ 0) := by
  refine ⟨(fitFl_valid kind model meanflux varlss eta success arms).2.2, ?_⟩
  rw [← Bool.not_eq_true, (fitFl_valid .input model meanflux varlss eta success arms).1, not_and_or]
  have key : ∀ v : Fl K, ¬ ContKind.rejects .input v = false ↔ v = .nan ∨ v = .ninf ∨ ∃ c, v = .fin c ∧ c ≤ 0 := by
    intro v
    cases v <;> simp [ContKind.rejects, Fl.lt]
  simp only [Bool.not_eq_true]
  refine or_congr Iff.rfl ?_
  push Not
  simp only [← key, ne_eq]

variable [IsStrictOrderedRing K]

/-- The chi square of a pixel of numbers. -/
theorem chi2_fin {varlss eta : K → K} {w f v c : K} (hv : 0 ≤ v) (he : 0 < eta w) (hl : 0 ≤ varlss w) :
    FlPix.chi2 varlss eta ⟨w, .fin f, .fin v, .fin c⟩ =
      .fin (v / (eta w + v * varlss w * c ^ 2) * (f - c) ^ 2) := by
  have h0 : eta w + v * (varlss w * (c * c)) ≠ 0 := by
    have : 0 ≤ v * (varlss w * (c * c)) := mul_nonneg hv (mul_nonneg hl (mul_self_nonneg c))
    exact ne_of_gt (by linarith)
  unfold FlPix.chi2 FlPix.wt
  simp only [Fl.mul, Fl.add, Fl.div, if_neg h0]
  congr 1
  rw [show v * varlss w * c ^ 2 = v * (varlss w * (c * c)) by ring]
  ring

/-- **C130, part**, for continua from a file: if the fit is valid, the continuum of every pixel is positive, and it is a
number unless the interpolated continuum is infinite. If it is not infinite anywhere then the chi square is the sum of
`weight * (flux - cont)**2` over all pixels, a number that is not negative. What is missing: mean fluxes that are not
positive numbers (`C130_nan_refuted`, `C130_negative_refuted`), infinite continua (`C130_infinite_refuted`). -/
theorem C130_input_partial (model : K → Fl K) (meanflux varlss eta : K → K) (success : Bool)
    (arms : List (List (FlRaw K))) (hm : ∀ w, 0 < meanflux w)
    (h : (fitFl .input model (fun w => .fin (meanflux w)) varlss eta success arms).valid = true) :
    ∃ pix, (fitFl .input model (fun w => .fin (meanflux w)) varlss eta success arms).pixels = some pix ∧
      pix.map (fun a => a.map (fun p => (⟨p.wave, p.flux, p.ivar⟩ : FlRaw K))) = arms ∧
      (∀ a ∈ pix, ∀ p ∈ a, (∃ c, p.cont = .fin c ∧ 0 < c) ∨ (p.cont = .pinf ∧ model p.wave = .pinf)) ∧
      ((∀ a ∈ arms, ∀ p ∈ a, model p.wave ≠ .pinf ∧ (∃ f, p.flux = .fin f) ∧ (∃ v, p.ivar = .fin v ∧ 0 ≤ v) ∧
          0 < eta p.wave ∧ 0 ≤ varlss p.wave) → arms ≠ [] →
        ∃ x, (fitFl .input model (fun w => .fin (meanflux w)) varlss eta success arms).chi2 = .fin x ∧ 0 ≤ x) := by
  obtain ⟨h1, h2, -⟩ := fitFl_valid .input model (fun w => .fin (meanflux w)) varlss eta success arms
  obtain ⟨hp, hc⟩ := h2 h
  have hrej := (h1.mp h).2
  have key : ∀ w, ContKind.rejects .input (model w) = false → (∃ c, model w = .fin c ∧ 0 < c) ∨ model w = .pinf := by
    intro w hw
    cases e : model w with
    | nan => rw [e] at hw; simp [ContKind.rejects] at hw
    | pinf => exact Or.inr rfl
    | ninf => rw [e] at hw; simp [ContKind.rejects, Fl.lt] at hw
    | fin c => rw [e] at hw; exact Or.inl ⟨c, rfl, by simpa [ContKind.rejects, Fl.lt] using hw⟩
  refine ⟨_, hp, ?_, ?_, ?_⟩
  · rw [List.map_map]
    conv_rhs => rw [← List.map_id arms]
    refine List.map_congr_left fun a _ => ?_
    rw [Function.comp_apply, List.map_map]
    conv_rhs => rw [id, ← List.map_id a]
    rfl
  · intro a ha p hp'
    obtain ⟨b, hb, rfl⟩ := List.mem_map.mp ha
    obtain ⟨q, hq, rfl⟩ := List.mem_map.mp hp'
    dsimp only
    rcases key q.wave (hrej b hb q hq) with ⟨c, e, hc0⟩ | e
    · exact Or.inl ⟨c * meanflux q.wave, by rw [e]; rfl, mul_pos hc0 (hm _)⟩
    · refine Or.inr ⟨?_, e⟩
      rw [e]
      simp only [Fl.mul, Fl.infMul, if_pos (hm q.wave)]
  · intro hn hne
    have hsum : ∀ l : List (Fl K), (∀ y ∈ l, ∃ x, y = .fin x ∧ 0 ≤ x) → ∃ x, Fl.sum l = .fin x ∧ 0 ≤ x := by
      intro l hl
      induction l with
      | nil => exact ⟨0, rfl, le_refl _⟩
      | cons y l ih =>
        obtain ⟨x1, e1, p1⟩ := hl y List.mem_cons_self
        obtain ⟨x2, e2, p2⟩ := ih fun z hz => hl z (List.mem_cons_of_mem _ hz)
        exact ⟨x1 + x2, by rw [Fl.sum_cons, e1, e2]; rfl, add_nonneg p1 p2⟩
    rw [hc hne]
    refine hsum _ fun y hy => ?_
    obtain ⟨a, ha, rfl⟩ := List.mem_map.mp hy
    refine hsum _ fun y hy => ?_
    obtain ⟨q, hq, rfl⟩ := List.mem_map.mp hy
    obtain ⟨g1, ⟨f, gf⟩, ⟨v, gv, hv⟩, ge, gl⟩ := hn a ha q hq
    obtain ⟨c, e, hc0⟩ := (key q.wave (hrej a ha q hq)).resolve_right g1
    refine ⟨v / (eta q.wave + v * varlss q.wave * (c * meanflux q.wave) ^ 2) * (f - c * meanflux q.wave) ^ 2, ?_, ?_⟩
    · rw [gf, gv, e]
      exact chi2_fin hv ge gl
    · have : 0 ≤ v * varlss q.wave * (c * meanflux q.wave) ^ 2 := mul_nonneg (mul_nonneg hv gl) (sq_nonneg _)
      exact mul_nonneg (div_nonneg hv (by linarith)) (sq_nonneg _)

omit [IsStrictOrderedRing K] in
/-- **C130, part**, for fitted continua: if the model gives numbers, a fit is valid if and only if the minimizer succeeded
and the continuum is nowhere negative. What is missing: a continuum of zero is valid (C125), and so is NaN
(`C130_picca_refuted`). -/
theorem C130_picca_partial (model : K → K) (meanflux : K → Fl K) (varlss eta : K → K) (success : Bool)
    (arms : List (List (FlRaw K))) :
    (fitFl .picca (fun w => .fin (model w)) meanflux varlss eta success arms).valid = true ↔
      success = true ∧ ∀ a ∈ arms, ∀ p ∈ a, 0 ≤ model p.wave := by
  rw [(fitFl_valid .picca (fun w => .fin (model w)) meanflux varlss eta success arms).1]
  simp only [ContKind.rejects, Fl.lt, decide_eq_false_iff_not, not_lt]

omit [IsStrictOrderedRing K] in
/-- **C130.** It fails for each of the models if continuum times mean flux is NaN in a pixel, for example because the table
of the fiducial mean flux has NaN: the test is made before the multiplication. Then the fit is valid and its chi square
is NaN. -/
theorem C130_nan_refuted (kind : ContKind) (model meanflux : K → Fl K) (varlss eta : K → K) (success : Bool)
    (arms : List (List (FlRaw K))) (hs : success = true)
    (hr : ∀ a ∈ arms, ∀ p ∈ a, kind.rejects (model p.wave) = false) {a : List (FlRaw K)} (ha : a ∈ arms) {p : FlRaw K}
    (hp : p ∈ a) (hn : model p.wave = .nan ∨ meanflux p.wave = .nan) :
    let r := fitFl kind model meanflux varlss eta success arms
    r.valid = true ∧ r.chi2 = .nan ∧ ∃ pix, r.pixels = some pix ∧ ∃ b ∈ pix, ∃ q ∈ b, q.wave = p.wave ∧ q.cont = .nan := by
  intro r
  obtain ⟨h1, h2, -⟩ := fitFl_valid kind model meanflux varlss eta success arms
  have hv : r.valid = true := h1.mpr ⟨hs, hr⟩
  obtain ⟨g1, g2⟩ := h2 hv
  have hc : Fl.mul (model p.wave) (meanflux p.wave) = .nan := by
    rcases hn with e | e <;> rw [e]
    · exact nan_mul _
    · exact mul_nan _
  refine ⟨hv, ?_, _, g1, _, List.mem_map.mpr ⟨a, ha, rfl⟩, _, List.mem_map.mpr ⟨p, hp, rfl⟩, rfl, hc⟩
  rw [g2 (List.ne_nil_of_mem ha)]
  refine Fl.sum_nan (List.mem_map.mpr ⟨a, ha, ?_⟩)
  refine Fl.sum_nan (List.mem_map.mpr ⟨p, hp, ?_⟩)
  unfold FlPix.chi2
  dsimp only
  rw [hc, mul_nan, Fl.add_nan, nan_mul, mul_nan]

omit [IsStrictOrderedRing K] in
/-- **C130.** It fails for fitted continua if the mean continuum is NaN (as C125 shows it can become): NaN is not negative,
so if the minimizer reports success the fit is valid, with NaN as continuum and chi square. The same value makes a
continuum from a file invalid. -/
theorem C130_picca_refuted (meanflux : K → Fl K) (varlss eta : K → K) (arms : List (List (FlRaw K)))
    {a : List (FlRaw K)} (ha : a ∈ arms) {p : FlRaw K} (hp : p ∈ a) :
    let r := fitFl .picca (fun _ => .nan) meanflux varlss eta true arms
    r.valid = true ∧ r.chi2 = .nan ∧ (fitFl .input (fun _ => .nan) meanflux varlss eta true arms).valid = false := by
  intro r
  obtain ⟨h1, h2, -⟩ := C130_nan_refuted .picca (fun _ => .nan) meanflux varlss eta true arms rfl
    (fun _ _ _ _ => rfl) ha hp (Or.inl rfl)
  refine ⟨h1, h2, ?_⟩
  by_contra hc
  have := ((fitFl_valid .input (fun _ => .nan) meanflux varlss eta true arms).1.mp (by simpa using hc)).2 a ha p hp
  cases this

/-- **C130.** It fails if the mean flux of a table is not positive at a pixel: the continuum of a valid fit is then zero or
negative, for each of the models. -/
theorem C130_negative_refuted (kind : ContKind) (model meanflux : K → K) (varlss eta : K → K)
    (arms : List (List (FlRaw K))) (hm : ∀ w, 0 < model w) {a : List (FlRaw K)} (ha : a ∈ arms) {p : FlRaw K} (hp : p ∈ a)
    (hn : meanflux p.wave ≤ 0) :
    let r := fitFl kind (fun w => .fin (model w)) (fun w => .fin (meanflux w)) varlss eta true arms
    r.valid = true ∧ ∃ pix, r.pixels = some pix ∧ ∃ b ∈ pix, ∃ q ∈ b, q.wave = p.wave ∧ ∃ c, q.cont = .fin c ∧ c ≤ 0 := by
  intro r
  obtain ⟨h1, h2, -⟩ := fitFl_valid kind (fun w => .fin (model w)) (fun w => .fin (meanflux w)) varlss eta true arms
  have hv : r.valid = true := h1.mpr ⟨rfl, fun b _ q _ => by
    cases kind <;> simp [ContKind.rejects, Fl.lt, hm q.wave, (hm q.wave).le]⟩
  exact ⟨hv, _, (h2 hv).1, _, List.mem_map.mpr ⟨a, ha, rfl⟩, _, List.mem_map.mpr ⟨p, hp, rfl⟩, rfl, _, rfl,
    mul_nonpos_of_nonneg_of_nonpos (hm _).le hn⟩

/-- **C130.** It fails for an infinite continuum from a file, which is neither NaN nor below zero: the fit is valid and its
chi square is NaN, whatever the other pixels are. -/
theorem C130_infinite_refuted (model : K → Fl K) (meanflux varlss eta : K → K) (arms : List (List (FlRaw K)))
    (hr : ∀ a ∈ arms, ∀ p ∈ a, model p.wave = .pinf ∨ ∃ c, model p.wave = .fin c ∧ 0 < c) {a : List (FlRaw K)}
    (ha : a ∈ arms) {p : FlRaw K} (hp : p ∈ a) (hi : model p.wave = .pinf) (hm : 0 < meanflux p.wave) {f v : K}
    (hf : p.flux = .fin f) (hv : p.ivar = .fin v) (h0 : 0 ≤ v) (hl : 0 ≤ varlss p.wave) :
    let r := fitFl .input model (fun w => .fin (meanflux w)) varlss eta true arms
    r.valid = true ∧ r.chi2 = .nan := by
  intro r
  obtain ⟨h1, h2, -⟩ := fitFl_valid .input model (fun w => .fin (meanflux w)) varlss eta true arms
  have hval : r.valid = true := h1.mpr ⟨rfl, fun b hb q hq => by
    rcases hr b hb q hq with e | ⟨c, e, hc⟩ <;> rw [e]
    · rfl
    · simp [ContKind.rejects, Fl.lt, hc]⟩
  refine ⟨hval, ?_⟩
  rw [(h2 hval).2 (List.ne_nil_of_mem ha)]
  refine Fl.sum_nan (List.mem_map.mpr ⟨a, ha, ?_⟩)
  refine Fl.sum_nan (List.mem_map.mpr ⟨p, hp, ?_⟩)
  unfold FlPix.chi2 FlPix.wt
  dsimp only
  rw [hi, hf, hv]
  simp only [Fl.mul, Fl.infMul, if_pos hm]
  have h1 : ¬ (1 : K) < 0 := not_lt.mpr zero_le_one
  rcases hl.lt_or_eq with hl | hl
  · rcases h0.lt_or_eq with h0 | h0
    · simp [Fl.mul, Fl.infMul, Fl.add, Fl.div, if_pos hl, if_pos h0, h1]
    · simp [Fl.mul, Fl.infMul, Fl.add, Fl.div, if_pos hl, ← h0]
  · simp [Fl.mul, Fl.infMul, Fl.add, Fl.div, ← hl]

/-- A forest of two arms. -/
def c130Arms : List (List (FlRaw ℚ)) :=
  [[FlRaw.mk 3600 (.fin 3) (.fin 1), FlRaw.mk 3601 (.fin 1) (.fin 0)], [FlRaw.mk 3602 (.fin 2) (.fin 2)]]

/-- The hypotheses of `C130_input_partial` can be met: continuum 2, mean flux 1, chi square 1. -/
example : (fitFl .input (fun _ => .fin 2) (fun _ => .fin 1) (fun _ => 0) (fun _ => 1) true c130Arms).valid = true ∧
    (∀ a ∈ c130Arms, ∀ p ∈ a, (∃ f, p.flux = .fin f) ∧ ∃ v, p.ivar = .fin v ∧ 0 ≤ v) ∧
    (fitFl .input (fun _ => .fin 2) (fun _ => .fin 1) (fun _ => 0) (fun _ => 1) true c130Arms).chi2 = .fin 1 := by
  refine ⟨by decide +kernel, ?_, by decide +kernel⟩
  intro a ha p hp
  simp only [c130Arms, List.mem_cons, List.not_mem_nil, or_false] at ha
  rcases ha with rfl | rfl <;> simp only [List.mem_cons, List.not_mem_nil, or_false] at hp
  · rcases hp with rfl | rfl <;> exact ⟨⟨_, rfl⟩, _, rfl, by norm_num⟩
  · subst hp; exact ⟨⟨_, rfl⟩, _, rfl, by norm_num⟩

/-- A continuum of zero or minus infinity is rejected from a file; zero is not rejected in a fit. -/
example : (fitFl .input (fun _ => .fin 0) (fun _ => .fin 1) (fun _ => 0) (fun _ => 1) true c130Arms).valid = false ∧
    (fitFl .input (fun _ => .ninf) (fun _ => .fin 1) (fun _ => 0) (fun _ => 1) true c130Arms).valid = false ∧
    (fitFl .picca (fun _ => .ninf) (fun _ => .fin 1) (fun _ => 0) (fun _ => 1) true c130Arms).valid = false ∧
    (fitFl .picca (fun _ => .fin 0) (fun _ => .fin 1) (fun _ => 0) (fun _ => 1) true c130Arms).valid = true := by
  decide +kernel

/-- The hypotheses of `C130_nan_refuted` and `C130_negative_refuted` can be met: a mean flux that is NaN at one pixel, and
one that is negative there. -/
example : (fitFl .input (fun _ => .fin 2) (fun w => if w = 3602 then .nan else .fin 1) (fun _ => 0) (fun _ => 1) true
      c130Arms).valid = true ∧
    (fitFl .input (fun _ => .fin 2) (fun w => if w = 3602 then .nan else .fin 1) (fun _ => 0) (fun _ => 1) true
      c130Arms).chi2 = .nan ∧
    (fitFl .input (fun _ => .fin 2) (fun w => if w = 3602 then .fin (-1) else .fin 1) (fun _ => 0) (fun _ => 1) true
      c130Arms).chi2 = .fin 33 := by
  decide +kernel

/-- The hypotheses of `C130_infinite_refuted` can be met. -/
example : (fitFl .input (fun w => if w = 3602 then .pinf else .fin 2) (fun _ => .fin 1) (fun _ => 1) (fun _ => 1) true
      c130Arms).chi2 = .nan := by
  decide +kernel

end Verif.Props
