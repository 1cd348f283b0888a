import Mathlib.Data.List.GetD
import Verif.Model.FullFit
import Verif.Spec.QuasarFit
import Verif.Props.ContFit

/-!
# The continuum of a quasar is the maximum of the likelihood (C97)
-/

namespace Verif.Props
open Verif Verif.Np Verif.Model Verif.Model.Spectrum Verif.Spec Verif.Proofs ProbabilityTheory

theorem mypoly1d_eq (a : List ℝ) (t : ℝ) : mypoly1d a t = ∑ k ∈ Finset.range a.length, a.getD k 0 * t ^ k := by
  unfold mypoly1d
  induction a using List.reverseRecOn with
  | nil => simp
  | append_singleton l y ih =>
    rw [List.zipIdx_append, List.map_append, List.sum_append, ih]
    simp only [List.length_append, List.length_cons, List.length_nil, Nat.zero_add, List.zipIdx_singleton, List.map_cons,
      List.map_nil, List.sum_cons, List.sum_nil, add_zero]
    rw [Finset.sum_range_succ]
    congr 1
    · refine Finset.sum_congr rfl fun k hk => ?_
      rw [List.getD_append _ _ _ _ (by simpa using hk)]
    · simp [List.getD_eq_getElem?_getD]

theorem pixel_like {v e f iv c : ℝ} (hv : 0 ≤ v) (he : 0 < e) (hi : 0 ≤ iv) :
    0 < pixelLike v e f iv c ∧
    pixelCost Real.log v e f iv c = -2 * Real.log (pixelLike v e f iv c) -
      (if 0 < iv then Real.log (2 * Real.pi) else 0) := by
  unfold pixelLike pixelCost pixelWeight
  dsimp only
  rcases hi.eq_or_lt with rfl | hi
  · simp
  · have hs : 0 < e / iv + v * c ^ 2 := add_pos_of_pos_of_nonneg (div_pos he hi) (by positivity)
    have hw : iv / (e + iv * (v * c ^ 2)) = (e / iv + v * c ^ 2)⁻¹ := by
      have : e + iv * (v * c ^ 2) = iv * (e / iv + v * c ^ 2) := by field_simp
      rw [this, ← div_div, div_self hi.ne', one_div]
    rw [hw, if_pos hi, if_pos hi, if_pos (inv_pos.mpr hs)]
    generalize e / iv + v * c ^ 2 = q at hs
    unfold gaussianPDFReal
    rw [Real.coe_toNNReal _ hs.le]
    have hp : 0 < 2 * Real.pi * q := by positivity
    refine ⟨by positivity, ?_⟩
    rw [Real.log_mul (by positivity) (Real.exp_ne_zero _), Real.log_exp, Real.log_inv, Real.log_inv,
      Real.log_sqrt hp.le, Real.log_mul (by positivity) hs.ne']
    field_simp
    ring

section
variable {varlss eta : ℝ → ℝ} {s : Spectrum ℝ}

theorem prod_like (hv : ∀ w, 0 ≤ varlss w) (he : ∀ w, 0 < eta w) (cont : ℝ → ℝ) (l : List (ℝ × ℝ × ℝ))
    (hi : ∀ p ∈ l, 0 ≤ p.2.2) :
    0 < (l.map (fun p => pixelLike (varlss p.1) (eta p.1) p.2.1 p.2.2 (cont p.1))).prod ∧
    (l.map (fun p => pixelCost Real.log (varlss p.1) (eta p.1) p.2.1 p.2.2 (cont p.1))).sum =
      -2 * Real.log (l.map (fun p => pixelLike (varlss p.1) (eta p.1) p.2.1 p.2.2 (cont p.1))).prod -
        ((l.filter (fun p => 0 < p.2.2)).length : ℝ) * Real.log (2 * Real.pi) := by
  induction l with
  | nil => simp
  | cons p l ih =>
    obtain ⟨i1, i2⟩ := ih fun q hq => hi q (List.mem_cons_of_mem _ hq)
    obtain ⟨p1, p2⟩ := pixel_like (f := p.2.1) (c := cont p.1) (hv p.1) (he p.1) (hi p List.mem_cons_self)
    simp only [List.map_cons, List.prod_cons, List.sum_cons, List.filter_cons]
    refine ⟨mul_pos p1 i1, ?_⟩
    rw [i2, p2, Real.log_mul p1.ne' i1.ne']
    by_cases h : 0 < p.2.2
    · simp only [h, decide_true, if_true, List.length_cons]
      push_cast
      ring
    · simp only [h, decide_false, if_false, Bool.false_eq_true]
      ring

theorem zip_ivar {x : List ℝ} {y z : List ℝ} (h : ∀ v ∈ z, 0 ≤ v) : ∀ p ∈ x.zip (y.zip z), 0 ≤ p.2.2 := by
  intro p hp
  exact h _ (List.of_mem_zip (List.of_mem_zip hp).2).2

/-- **C97.** The cost function is `-2 ln` of the likelihood, up to a constant: flux Gaussian around the continuum, with
variance `eta / ivar + var_lss * cont^2`, over the pixels with positive ivar. -/
theorem C97_likelihood (hv : ∀ w, 0 ≤ varlss w) (he : ∀ w, 0 < eta w)
    (hi : ∀ arm, ∀ v ∈ s.fivarSm.arr arm, 0 ≤ v) (mean flux : ℝ → ℝ) (first last : ℝ) (a : List ℝ) :
    0 < likelihood varlss eta s (quasarCont mean flux first last s.z a) ∧
    piccaCost Real.log mean flux varlss eta first (Real.log (last / first)) s a =
      -2 * Real.log (likelihood varlss eta s (quasarCont mean flux first last s.z a)) -
        (goodPixels s : ℝ) * Real.log (2 * Real.pi) := by
  unfold likelihood piccaCost goodPixels
  have hc : ∀ w, piccaModel Real.log mean first (Real.log (last / first)) a (w / (1 + s.z)) * flux w =
      quasarCont mean flux first last s.z a w := by
    intro w
    unfold piccaModel quasarCont
    rw [mypoly1d_eq]
    rfl
  simp only [hc]
  generalize quasarCont mean flux first last s.z a = cont
  induction s.fwave with
  | nil => simp
  | cons b l ih =>
    obtain ⟨i1, i2⟩ := ih
    obtain ⟨p1, p2⟩ := prod_like hv he cont (armPixels s b) (zip_ivar (hi b.1))
    simp only [List.map_cons, List.prod_cons, List.sum_cons]
    refine ⟨mul_pos p1 i1, ?_⟩
    have e : (List.zipWith (fun w p => pixelCost Real.log (varlss w) (eta w) p.1 p.2 (cont w)) b.2
        ((s.fflux.arr b.1).zip (s.fivarSm.arr b.1))) =
        (armPixels s b).map (fun p => pixelCost Real.log (varlss p.1) (eta p.1) p.2.1 p.2.2 (cont p.1)) := by
      unfold armPixels
      rw [List.zip, List.zip, List.map_zipWith]
    rw [e, i2, p2, Real.log_mul p1.ne' i1.ne']
    push_cast
    ring

end

variable {C : FullCfg ℝ} {s : Spectrum ℝ}

theorem rfwave_ends (C : FullCfg ℝ) (hn : 0 < C.rf.n) : C.rfwave.getD 0 0 = C.rf.x0 ∧
    C.rfwave.getD (C.rfwave.length - 1) 0 = C.rf.x0 + ((C.rf.n : ℝ) - 1) * C.rf.dx := by
  have hl : C.rfwave.length = C.rf.n := by simp [FullCfg.rfwave]
  constructor
  · rw [List.getD_eq_getElem _ _ (by omega)]
    simp [FullCfg.rfwave]
  · rw [List.getD_eq_getElem _ _ (by omega)]
    simp only [FullCfg.rfwave, List.getElem_map, List.getElem_range]
    simp only [List.length_map, List.length_range]
    rw [Nat.cast_sub hn, Nat.cast_one]

/-- **C97.** The continuum of a quasar with a valid fit is, in every forest pixel, the mean continuum of the iteration
times a polynomial in the logarithm of the rest-frame wavelength times the mean flux. The variable of the polynomial is
-1 in the first and 1 in the last bin of the mean continuum. If the minimizer finds minima, no other coefficients give a
larger likelihood. -/
theorem C97_fit (hlog : C.log = Real.log) (hn : 0 < C.rf.n) {g : FullState ℝ} (hk : s.fwave.keys.Nodup)
    (hv : (C.fitOne g s).valid = true) :
    ∃ a : List ℝ,
      (∀ arm w, s.fwave.lookup arm = some w → (C.fitOne g s).cont.lookup arm =
        some (w.map (quasarCont (C.meancont g) C.meanflux C.rf.x0 (C.rf.x0 + ((C.rf.n : ℝ) - 1) * C.rf.dx) s.z a))) ∧
      ((∀ f x0 x, C.minimize f x0 = (true, x) → x.length = x0.length ∧ ∀ y, y.length = x0.length → f x ≤ f y) →
        (∀ w, 0 ≤ g.varlss w) → (∀ w, 0 < g.eta w) → (∀ arm, ∀ v ∈ s.fivarSm.arr arm, 0 ≤ v) →
        a.length = C.order + 1 ∧ ∀ b : List ℝ, b.length = C.order + 1 →
          likelihood g.varlss g.eta s
            (quasarCont (C.meancont g) C.meanflux C.rf.x0 (C.rf.x0 + ((C.rf.n : ℝ) - 1) * C.rf.dx) s.z b) ≤
          likelihood g.varlss g.eta s
            (quasarCont (C.meancont g) C.meanflux C.rf.x0 (C.rf.x0 + ((C.rf.n : ℝ) - 1) * C.rf.dx) s.z a)) := by
  obtain ⟨e0, e1⟩ := rfwave_ends C hn
  unfold FullCfg.fitOne at *
  have hd : C.denom = Real.log ((C.rf.x0 + ((C.rf.n : ℝ) - 1) * C.rf.dx) / C.rf.x0) := by
    unfold FullCfg.denom
    rw [e0, e1, hlog]
  rw [hlog, e0, hd] at hv
  rw [hlog, e0, hd]
  generalize hr : C.minimize (piccaCost Real.log (C.meancont g) C.meanflux g.varlss g.eta C.rf.x0
    (Real.log ((C.rf.x0 + ((C.rf.n : ℝ) - 1) * C.rf.dx) / C.rf.x0)) s) (startA0 s :: List.replicate C.order 0) = r at hv ⊢
  obtain ⟨ok, a⟩ := r
  obtain ⟨h1, h2⟩ := C53_picca_values Real.log (C.meancont g) C.meanflux g.varlss g.eta C.rf.x0
    (Real.log ((C.rf.x0 + ((C.rf.n : ℝ) - 1) * C.rf.dx) / C.rf.x0)) ok a hk
  refine ⟨a, ?_, ?_⟩
  · intro arm w hw
    rw [h2 hv arm w hw]
    congr 1
    refine List.map_congr_left fun v _ => ?_
    unfold piccaModel quasarCont
    rw [mypoly1d_eq]
    rfl
  · intro hm hvar heta hivar
    obtain ⟨rfl, -⟩ := h1.mp hv
    obtain ⟨l1, l2⟩ := hm _ _ _ hr
    have l0 : (startA0 s :: List.replicate C.order (0 : ℝ)).length = C.order + 1 := by simp
    rw [l0] at l1 l2
    refine ⟨l1, fun b hb => ?_⟩
    have c := l2 b hb
    obtain ⟨p1, q1⟩ := C97_likelihood hvar heta hivar (C.meancont g) C.meanflux C.rf.x0
      (C.rf.x0 + ((C.rf.n : ℝ) - 1) * C.rf.dx) a
    obtain ⟨p2, q2⟩ := C97_likelihood hvar heta hivar (C.meancont g) C.meanflux C.rf.x0
      (C.rf.x0 + ((C.rf.n : ℝ) - 1) * C.rf.dx) b
    rw [q1, q2] at c
    exact (Real.log_le_log_iff p2 p1).mp (by linarith)

/-- The variable of the polynomial. -/
example : logPos 1040 1200 1040 = -1 ∧ logPos 1040 1200 1200 = 1 := by
  unfold logPos
  have h : Real.log (1200 / 1040) ≠ 0 := (Real.log_pos (by norm_num)).ne'
  constructor
  · norm_num
  · rw [div_self h]; norm_num

open Classical in
/-- A minimizer that finds the minimum if it is at zero. -/
noncomputable def c97Cfg : FullCfg ℝ :=
  { log := Real.log, sqrt := Real.sqrt, smooth := fun f _ => f, junk := fun _ => 0
    minimize := fun f x => (decide (∀ y : List ℝ, y.length = x.length → f (List.replicate x.length 0) ≤ f y),
      List.replicate x.length 0)
    order := 1, residual := true, meanflux := fun _ => 1, obs := ⟨3304, 8, 4⟩, rf := ⟨1105, 10, 2⟩
    normalize := true, etaCalib := false }

open Classical in
/-- The hypotheses hold for a quasar with flux zero. -/
example (g : FullState ℝ) (hv : ∀ w, 0 ≤ g.varlss w) (he : ∀ w, 0 < g.eta w) :
    c97Cfg.log = Real.log ∧ 0 < c97Cfg.rf.n ∧ c53Zero.fwave.keys.Nodup ∧ (c97Cfg.fitOne g c53Zero).valid = true ∧
    (∀ f x0 x, c97Cfg.minimize f x0 = (true, x) → x.length = x0.length ∧ ∀ y, y.length = x0.length → f x ≤ f y) ∧
    (∀ arm, ∀ v ∈ c53Zero.fivarSm.arr arm, 0 ≤ v) := by
  have hk : c53Zero.fwave.keys.Nodup := by simp [c53Zero, Dict.keys]
  have hf : ∀ arm, ∀ f ∈ c53Zero.fflux.arr arm, f = 0 := by
    intro arm f hf
    unfold c53Zero Dict.arr at hf
    by_cases h : arm == "B" <;> simp [List.lookup_cons, h] at hf
    exact hf
  have hi : ∀ arm, ∀ v ∈ c53Zero.fivarSm.arr arm, 0 ≤ v := by
    intro arm v hv
    unfold c53Zero fivarSm Dict.arr at hv
    by_cases h : arm == "B" <;> simp [List.lookup_cons, h] at hv
    rcases hv with rfl | rfl <;> norm_num
  refine ⟨rfl, Nat.succ_pos 1, hk, ?_, ?_, hi⟩
  · obtain ⟨h1, h2, -⟩ := C53_picca_refuted (meancont := c97Cfg.meancont g) (meanflux := c97Cfg.meanflux)
      (rfwave0 := c97Cfg.rfwave.getD 0 0) (denom := c97Cfg.denom) hk hf hi hv he 2
    unfold FullCfg.fitOne
    have : c97Cfg.minimize (piccaCost c97Cfg.log (c97Cfg.meancont g) c97Cfg.meanflux g.varlss g.eta
        (c97Cfg.rfwave.getD 0 0) c97Cfg.denom c53Zero) (startA0 c53Zero :: List.replicate c97Cfg.order 0) =
        (true, List.replicate 2 0) := by
      refine Prod.ext (decide_eq_true ?_) rfl
      intro y _
      exact h1 y
    rw [this]
    exact h2
  · intro f x0 x h
    obtain ⟨h1, h2⟩ := Prod.ext_iff.mp h
    subst h2
    refine ⟨by simp [c97Cfg], fun y hy => ?_⟩
    exact of_decide_eq_true h1 y hy

end Verif.Props
