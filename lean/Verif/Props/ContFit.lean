import Verif.Proofs.ContFit
import Mathlib.Data.Rat.Floor

/-!
# C53: valid continua
-/

namespace Verif.Props
open Verif Verif.Np Verif.Model Verif.Model.Spectrum Verif.Proofs

variable {K : Type} [Field K] [LinearOrder K]

omit [Field K] in
theorem inputRejects_iff [Zero K] {l : List K} : inputRejects l = false ↔ ∀ c ∈ l, 0 < c := by
  unfold inputRejects
  rw [List.any_eq_false]
  simp

omit [Field K] in
theorem piccaRejects_iff [Zero K] {l : List K} : piccaRejects l = false ↔ ∀ c ∈ l, 0 ≤ c := by
  unfold piccaRejects
  rw [List.any_eq_false]
  simp

omit [LinearOrder K] in
theorem mulFlux_map (f g : K → K) (w : List K) : mulFlux f w (w.map g) = w.map (fun x => g x * f x) := by
  unfold mulFlux
  induction w with
  | nil => rfl
  | cons x w ih => simp [ih]

/-- **C53.** Input continua: the fit is valid exactly if a continuum was read and its spline is positive in every
forest pixel. The continuum of an arm is then the spline times the mean flux, pixel by pixel. -/
theorem C53_input_values (interp meanflux varlss eta : K → K) {s : Spectrum K} (hn : s.fwave.keys.Nodup) :
    ((inputFit interp meanflux varlss eta s).valid = true ↔
      s.valid = true ∧ ∀ a ∈ s.fwave, ∀ x ∈ a.2, 0 < interp (x / (1 + s.z))) ∧
    ((inputFit interp meanflux varlss eta s).valid = true → ∀ arm w, s.fwave.lookup arm = some w →
      (inputFit interp meanflux varlss eta s).cont.lookup arm =
        some (w.map (fun x => interp (x / (1 + s.z)) * meanflux x))) := by
  unfold inputFit
  cases hv : s.valid with
  | false =>
    simp only [Bool.false_eq_true, if_false, false_and, iff_false]
    have : s.clearCont.valid = false := hv
    rw [this]
    exact ⟨by simp, fun h => (by cases h)⟩
  | true =>
    simp only [if_true, true_and]
    obtain ⟨h1, h2⟩ := contLoop_spec inputRejects (fun w => w.map (fun x => interp (x / (1 + s.z))))
      (mulFlux meanflux) s.fwave hn s.cont
    generalize hr : contLoop inputRejects (fun w => w.map (fun x => interp (x / (1 + s.z)))) (mulFlux meanflux)
      s.fwave s.cont = r at h1 h2
    obtain ⟨e1, e2, -⟩ := endFit_cases varlss eta (s.setCont r)
    have ev : (s.setCont r).valid = r.1 := rfl
    rw [e1, ev]
    refine ⟨?_, fun h arm w hw => ?_⟩
    · rw [h1]
      simp only [inputRejects_iff, List.mem_map, forall_exists_index, and_imp, forall_apply_eq_imp_iff₂]
    · rw [(e2 (ev.trans h)).2]
      change r.2.lookup arm = _
      rw [h2 h arm, hw]
      exact congrArg some (mulFlux_map _ _ w)

/-- **C53.** Input continua: a valid continuum is positive in every forest pixel, if the mean flux is. -/
theorem C53_input [IsStrictOrderedRing K] {interp meanflux varlss eta : K → K} {s : Spectrum K}
    (hn : s.fwave.keys.Nodup) (hm : ∀ w, 0 < meanflux w)
    (h : (inputFit interp meanflux varlss eta s).valid = true) :
    ∀ arm w, s.fwave.lookup arm = some w → ∃ c,
      (inputFit interp meanflux varlss eta s).cont.lookup arm = some c ∧ c.length = w.length ∧ ∀ y ∈ c, 0 < y := by
  intro arm w hw
  obtain ⟨h1, h2⟩ := C53_input_values interp meanflux varlss eta hn
  refine ⟨_, h2 h arm w hw, by simp, ?_⟩
  intro y hy
  obtain ⟨x, hx, rfl⟩ := List.mem_map.mp hy
  exact mul_pos ((h1.mp h).2 (arm, w) (mem_of_lookup hw) x hx) (hm x)

/-- **C53.** Input continua with NaN and infinities: what is accepted is a positive number or `+inf`. -/
theorem C53_input_special {est : List K → List (Fl K)} {mul : List K → List (Fl K) → List (Fl K)}
    {fw : Dict (List K)} (hn : fw.keys.Nodup) {d : Dict (List (Fl K))}
    (h : (contLoop inputRejectsFl est mul fw d).1 = true) :
    ∀ a ∈ fw, ∀ c ∈ est a.2, c = .pinf ∨ ∃ x, 0 < x ∧ c = .fin x := by
  intro a ha c hc
  have := (contLoop_spec inputRejectsFl est mul fw hn d).1.mp h a ha
  unfold inputRejectsFl at this
  rw [Bool.or_eq_false_iff, List.any_eq_false, List.any_eq_false] at this
  have h1 := this.1 c hc
  have h2 := this.2 c hc
  cases c with
  | nan => exact absurd rfl h2
  | pinf => exact .inl rfl
  | ninf => exact absurd rfl h1
  | fin x =>
    refine .inr ⟨x, ?_, rfl⟩
    simp only [Fl.lt, Bool.or_eq_true, decide_eq_true_eq, Fl.fin.injEq, not_or, not_lt] at h1
    exact lt_of_le_of_ne h1.1 (Ne.symm h1.2)

/-- **C53.** A quasar whose fit is not valid has no continuum, chi square -1 and the smoothed ivar as weight; if
its continuum was not even read the weight is left as it was. -/
theorem C53_invalid (interp log meancont meanflux varlss eta : K → K) (rfwave0 denom : K)
    (result : Bool × List K) (s : Spectrum K) :
    ((piccaFit log meancont meanflux varlss eta rfwave0 denom result s).valid = false →
      (piccaFit log meancont meanflux varlss eta rfwave0 denom result s).cont = [] ∧
      (piccaFit log meancont meanflux varlss eta rfwave0 denom result s).chi2 = -1 ∧
      (piccaFit log meancont meanflux varlss eta rfwave0 denom result s).fweight = s.fivarSm) ∧
    ((inputFit interp meanflux varlss eta s).valid = false →
      (inputFit interp meanflux varlss eta s).cont = [] ∧
      (inputFit interp meanflux varlss eta s).chi2 = -1 ∧
      (inputFit interp meanflux varlss eta s).fweight = if s.valid then s.fivarSm else s.fweight) := by
  have key : ∀ r : Bool × Dict (List K), (endFit varlss eta (s.setCont r)).valid = false →
      (endFit varlss eta (s.setCont r)).cont = [] ∧ (endFit varlss eta (s.setCont r)).chi2 = -1 ∧
      (endFit varlss eta (s.setCont r)).fweight = s.fivarSm := by
    intro r h
    obtain ⟨e1, -, e3⟩ := endFit_cases varlss eta (s.setCont r)
    exact e3 (e1.symm.trans h)
  constructor
  · unfold piccaFit
    split
    · exact key _
    · exact key _
  · unfold inputFit
    split
    · rename_i hv
      exact key _
    · exact fun _ => ⟨rfl, rfl, rfl⟩

/-- **C53.** Picca fit: valid exactly if the minimizer succeeded and the model is not negative in any forest pixel;
the continuum is then the model times the mean flux. -/
theorem C53_picca_values (log meancont meanflux varlss eta : K → K) (rfwave0 denom : K)
    (ok : Bool) (x : List K) {s : Spectrum K} (hn : s.fwave.keys.Nodup) :
    ((piccaFit log meancont meanflux varlss eta rfwave0 denom (ok, x) s).valid = true ↔
      ok = true ∧ ∀ a ∈ s.fwave, ∀ w ∈ a.2, 0 ≤ piccaModel log meancont rfwave0 denom x (w / (1 + s.z))) ∧
    ((piccaFit log meancont meanflux varlss eta rfwave0 denom (ok, x) s).valid = true → ∀ arm w,
      s.fwave.lookup arm = some w →
      (piccaFit log meancont meanflux varlss eta rfwave0 denom (ok, x) s).cont.lookup arm =
        some (w.map (fun v => piccaModel log meancont rfwave0 denom x (v / (1 + s.z)) * meanflux v))) := by
  unfold piccaFit
  cases ok with
  | false =>
    simp only [Bool.false_eq_true, if_false, false_and, iff_false]
    obtain ⟨e1, -, -⟩ := endFit_cases varlss eta (s.setCont (false, s.cont))
    rw [e1]
    exact ⟨fun h => (by cases h), fun h => (by cases h)⟩
  | true =>
    simp only [if_true, true_and]
    obtain ⟨h1, h2⟩ := contLoop_spec piccaRejects
      (fun w => w.map (fun v => piccaModel log meancont rfwave0 denom x (v / (1 + s.z))))
      (mulFlux meanflux) s.fwave hn []
    generalize hr : contLoop piccaRejects
      (fun w => w.map (fun v => piccaModel log meancont rfwave0 denom x (v / (1 + s.z)))) (mulFlux meanflux)
      s.fwave [] = r at h1 h2
    obtain ⟨e1, e2, -⟩ := endFit_cases varlss eta (s.setCont r)
    have ev : (s.setCont r).valid = r.1 := rfl
    rw [e1, ev]
    refine ⟨?_, fun h arm w hw => ?_⟩
    · rw [h1]
      simp only [piccaRejects_iff, List.mem_map, forall_exists_index, and_imp, forall_apply_eq_imp_iff₂]
    · rw [(e2 (ev.trans h)).2]
      change r.2.lookup arm = _
      rw [h2 h arm, hw]
      exact congrArg some (mulFlux_map _ _ w)

/-- **C53, part.** Picca fit: a valid continuum is not negative. Missing: it can be zero
(`C53_picca_refuted`) or NaN (`C53_nan_refuted`). -/
theorem C53_picca_partial [IsStrictOrderedRing K] {log meancont meanflux varlss eta : K → K} {rfwave0 denom : K}
    {result : Bool × List K} {s : Spectrum K} (hn : s.fwave.keys.Nodup) (hm : ∀ w, 0 ≤ meanflux w)
    (h : (piccaFit log meancont meanflux varlss eta rfwave0 denom result s).valid = true) :
    ∀ arm w, s.fwave.lookup arm = some w → ∃ c,
      (piccaFit log meancont meanflux varlss eta rfwave0 denom result s).cont.lookup arm = some c ∧
      c.length = w.length ∧ ∀ y ∈ c, 0 ≤ y := by
  intro arm w hw
  obtain ⟨h1, h2⟩ := C53_picca_values log meancont meanflux varlss eta rfwave0 denom result.1 result.2 hn
  refine ⟨_, h2 h arm w hw, by simp, ?_⟩
  intro y hy
  obtain ⟨x, hx, rfl⟩ := List.mem_map.mp hy
  exact mul_nonneg ((h1.mp h).2 (arm, w) (mem_of_lookup hw) x hx) (hm x)

omit [LinearOrder K] in
theorem mypoly1d_zero (n : Nat) (x : K) : mypoly1d (List.replicate n (0 : K)) x = 0 := by
  unfold mypoly1d
  refine List.sum_eq_zero fun y hy => ?_
  obtain ⟨p, hp, rfl⟩ := List.mem_map.mp hy
  have : p.1 ∈ List.replicate n (0 : K) := List.fst_mem_of_mem_zipIdx hp
  rw [(List.mem_replicate.mp this).2, zero_mul]

theorem pixelCost_zero {v e iv c : ℝ} (hv : 0 ≤ v) (he : 0 < e) (hi : 0 ≤ iv) :
    pixelCost Real.log v e 0 iv 0 ≤ pixelCost Real.log v e 0 iv c := by
  unfold pixelCost pixelWeight
  dsimp only
  rcases hi.eq_or_lt with rfl | hi
  · simp
  · have hd : e ≤ e + iv * (v * c ^ 2) := le_add_of_nonneg_right (by positivity)
    have h1 : 0 < iv / (e + iv * (v * c ^ 2)) := div_pos hi (he.trans_le hd)
    have h0 : e + iv * (v * 0 ^ 2) = e := by simp
    rw [h0, if_pos h1, if_pos (div_pos hi he)]
    have h2 : Real.log (iv / (e + iv * (v * c ^ 2))) ≤ Real.log (iv / e) :=
      Real.log_le_log h1 (div_le_div_of_nonneg_left hi.le he hd)
    have h3 : 0 ≤ iv / (e + iv * (v * c ^ 2)) * (0 - c) ^ 2 := mul_nonneg h1.le (sq_nonneg _)
    simp only [sub_zero, ne_eq, OfNat.ofNat_ne_zero, not_false_eq_true, zero_pow, mul_zero, zero_sub]
    linarith

/-- **C53.** It fails for the picca fit: for a quasar with flux zero (and any ivar, mean continuum, mean flux and
variance functions) zero coefficients are the exact minimum of the cost, and that fit is declared valid with a
continuum that is zero in every pixel. -/
theorem C53_picca_refuted {meancont meanflux varlss eta : ℝ → ℝ} {rfwave0 denom : ℝ} {s : Spectrum ℝ}
    (hn : s.fwave.keys.Nodup) (hf : ∀ arm, ∀ f ∈ s.fflux.arr arm, f = 0)
    (hi : ∀ arm, ∀ v ∈ s.fivarSm.arr arm, 0 ≤ v) (hv : ∀ w, 0 ≤ varlss w) (he : ∀ w, 0 < eta w) (n : Nat) :
    (∀ x, piccaCost Real.log meancont meanflux varlss eta rfwave0 denom s (List.replicate n 0) ≤
      piccaCost Real.log meancont meanflux varlss eta rfwave0 denom s x) ∧
    (piccaFit Real.log meancont meanflux varlss eta rfwave0 denom (true, List.replicate n 0) s).valid = true ∧
    ∀ arm w, s.fwave.lookup arm = some w →
      (piccaFit Real.log meancont meanflux varlss eta rfwave0 denom (true, List.replicate n 0) s).cont.lookup arm =
        some (List.replicate w.length 0) := by
  have hz : ∀ v, piccaModel Real.log meancont rfwave0 denom (List.replicate n 0) v = 0 := by
    intro v; unfold piccaModel; rw [mypoly1d_zero, mul_zero]
  obtain ⟨h1, h2⟩ := C53_picca_values Real.log meancont meanflux varlss eta rfwave0 denom true
    (List.replicate n 0) hn
  have hval := h1.mpr ⟨rfl, fun a _ w _ => (hz _).ge⟩
  refine ⟨fun x => ?_, hval, fun arm w hw => ?_⟩
  · unfold piccaCost
    refine List.sum_le_sum fun a _ => ?_
    have h3 := hf a.1
    have h4 := hi a.1
    generalize s.fflux.arr a.1 = F at h3
    generalize s.fivarSm.arr a.1 = V at h4
    generalize a.2 = W
    induction W generalizing F V with
    | nil => simp
    | cons w W ih =>
      cases F with
      | nil => simp
      | cons f F =>
        cases V with
        | nil => simp
        | cons v V =>
          simp only [List.zip_cons_cons, List.zipWith_cons_cons, List.sum_cons]
          refine add_le_add ?_ (ih F (fun f hf => h3 f (List.mem_cons_of_mem _ hf)) V
            (fun v hv => h4 v (List.mem_cons_of_mem _ hv)))
          rw [h3 f List.mem_cons_self, hz, zero_mul]
          exact pixelCost_zero (hv w) (he w) (h4 v List.mem_cons_self)
  · rw [h2 hval arm w hw]
    simp only [hz, zero_mul, List.map_const']

/-- **C53.** It fails for the picca fit with NaN: coefficients of NaN are accepted, in every spectrum. -/
theorem C53_nan_refuted (meanflux : K → K) (fw : Dict (List K)) (hn : fw.keys.Nodup) :
    (contLoop piccaRejectsFl (fun w => w.map (fun _ => (Fl.nan : Fl K))) (mulFluxFl meanflux) fw []).1 = true ∧
    ∀ arm w, fw.lookup arm = some w →
      (contLoop piccaRejectsFl (fun w => w.map (fun _ => (Fl.nan : Fl K))) (mulFluxFl meanflux) fw []).2.lookup arm
        = some (List.replicate w.length Fl.nan) := by
  obtain ⟨h1, h2⟩ := contLoop_spec (K := K) (C := Fl K) piccaRejectsFl (fun w => w.map (fun _ => (Fl.nan : Fl K)))
    (mulFluxFl meanflux) fw hn []
  have hv : (contLoop piccaRejectsFl (fun w => w.map (fun _ => (Fl.nan : Fl K))) (mulFluxFl meanflux) fw []).1
      = true := by
    rw [h1]
    intro a _
    unfold piccaRejectsFl
    rw [List.any_eq_false]
    intro c hc
    obtain ⟨x, -, rfl⟩ := List.mem_map.mp hc
    simp [Fl.lt]
  refine ⟨hv, fun arm w hw => ?_⟩
  rw [h2 hv arm, hw]
  congr 1
  have : ∀ l : List K, mulFluxFl meanflux l (l.map (fun _ => (Fl.nan : Fl K))) =
      l.map (fun _ => (Fl.nan : Fl K)) := by
    intro l
    induction l with
    | nil => rfl
    | cons x l ih =>
      change Fl.scale (meanflux x) Fl.nan :: mulFluxFl meanflux l (l.map (fun _ => (Fl.nan : Fl K))) = _
      rw [ih]
      rfl
  dsimp only
  rw [this, List.map_const']

/-- **C53, part.** True continuum: valid stays as it is, and the continuum is the spline through the stored values
times the mean flux; it is positive only where these are. Missing: there is no check (`C53_true_refuted`). -/
theorem C53_true_partial (interp meanflux varlss : K → K) {s : Spectrum K} (hn : s.fwave.keys.Nodup) :
    (trueFit interp meanflux varlss s).valid = s.valid ∧
    ∀ arm w, s.fwave.lookup arm = some w →
      (trueFit interp meanflux varlss s).cont.lookup arm = some (w.map (fun x => interp x * meanflux x)) := by
  obtain ⟨h1, h2⟩ := contLoop_spec (fun _ => false) (fun w => w.map interp) (mulFlux meanflux) s.fwave hn s.cont
  unfold trueFit
  generalize hr : contLoop (fun _ => false) (fun w => w.map interp) (mulFlux meanflux) s.fwave s.cont = r at h1 h2
  rw [(chi2_same _).1, (chi2_same _).2.1, (sfw_same _ _ _).1, (sfw_same _ _ _).2.1]
  refine ⟨rfl, fun arm w hw => ?_⟩
  change r.2.lookup arm = _
  have hv : r.1 = true := h1.mpr (fun _ _ => rfl)
  rw [h2 hv arm, hw]
  exact congrArg some (mulFlux_map _ _ w)

/-- **C53.** It fails for the true continuum: negative values are declared valid in every spectrum. -/
theorem C53_true_refuted {varlss : K → K} {s : Spectrum K} (hn : s.fwave.keys.Nodup) (hv : s.valid = true) :
    (trueFit (fun _ => -1) (fun _ => 1) varlss s).valid = true ∧
    ∀ arm w, s.fwave.lookup arm = some w →
      (trueFit (fun _ => -1) (fun _ => 1) varlss s).cont.lookup arm = some (List.replicate w.length (-1)) := by
  obtain ⟨h1, h2⟩ := C53_true_partial (fun _ => (-1 : K)) (fun _ => 1) varlss hn
  refine ⟨h1.trans hv, fun arm w hw => ?_⟩
  rw [h2 arm w hw]
  simp

/-- A quasar at redshift 2 in two arms. -/
def c53Spec : Spectrum ℚ :=
  { blank 2 1 [] [] [] [] with
    fwave := [("B", [3300, 3303]), ("R", [3306])], fflux := [("B", [1, 2]), ("R", [4])],
    fivar := [("B", [1, 1]), ("R", [2])], ivarSm := none, weight := none, valid := true }

example : (c53Spec.fwave.keys.Nodup) ∧ c53Spec.valid = true := by decide +kernel

example : (inputFit (fun x => x - 1000) (fun _ => 1 / 2) (fun _ => 0) (fun _ => 1) c53Spec).valid = true ∧
    (inputFit (fun x => x - 1000) (fun _ => 1 / 2) (fun _ => 0) (fun _ => 1) c53Spec).cont =
      [("B", [50, 101 / 2]), ("R", [51])] := by decide +kernel

example : (inputFit (fun x => 1102 - x) (fun _ => 1 / 2) (fun _ => 0) (fun _ => 1) c53Spec).valid = false := by
  decide +kernel

example : (piccaFit (fun x => x) (fun _ => 2) (fun _ => 1 / 2) (fun _ => 0) (fun _ => 1) 1100 1 (true, [3, 1])
    c53Spec).valid = true := by decide +kernel

/-- A quasar with flux zero. -/
noncomputable def c53Zero : Spectrum ℝ :=
  { blank 2 1 [] [] [] [] with
    fwave := [("B", [3300, 3303])], fflux := [("B", [0, 0])],
    fivar := [("B", [1, 2])], ivarSm := none, weight := none, valid := true }

example : c53Zero.fwave.keys.Nodup ∧ (∀ arm, ∀ f ∈ c53Zero.fflux.arr arm, f = 0) ∧
    (∀ arm, ∀ v ∈ c53Zero.fivarSm.arr arm, 0 ≤ v) := by
  refine ⟨by simp [c53Zero, Dict.keys], fun arm f hf => ?_, fun arm v hv => ?_⟩
  · unfold c53Zero Dict.arr at hf
    by_cases h : arm == "B" <;> simp [List.lookup_cons, h] at hf
    exact hf
  · unfold c53Zero fivarSm Dict.arr at hv
    by_cases h : arm == "B" <;> simp [List.lookup_cons, h] at hv
    rcases hv with rfl | rfl <;> norm_num

end Verif.Props
