import Verif.Spec.Units
import Verif.Proofs.Dict
import Verif.Proofs.ContFit
import Verif.Proofs.RelProg
import Verif.Proofs.RankFree
import Mathlib.Tactic.FieldSimp
import Mathlib.Tactic.Ring
import Mathlib.Tactic.Positivity

/-!
# Lemmas: the fit in other units of flux
-/

namespace Verif.Proofs
open Verif Verif.Np Verif.Model Verif.Model.Spectrum Verif.Spec

variable {K : Type} [Field K] [LinearOrder K]

theorem arr_times (k : K) (d : Dict (List K)) (a : String) : (times k d).arr a = (d.arr a).map (k * ·) := by
  unfold Dict.arr times
  rw [lookup_mapVals]
  cases List.lookup a d <;> rfl

theorem set_times (k : K) (d : Dict (List K)) (a : String) (v : List K) :
    (times k d).set a (v.map (k * ·)) = times k (d.set a v) := by
  unfold Dict.set dictSet
  have hk : List.map Prod.fst (times k d) = List.map Prod.fst d := keys_mapVals _ d
  rw [hk]
  split
  · unfold times Dict.mapVals
    rw [List.map_map, List.map_map]
    refine List.map_congr_left fun x _ => ?_
    dsimp only [Function.comp_apply]
    split <;> rfl
  · unfold times Dict.mapVals
    rw [List.map_append]
    rfl

theorem times_eq_nil (k : K) (d : Dict (List K)) : times k d = [] ↔ d = [] := by
  unfold times Dict.mapVals
  exact List.map_eq_nil_iff

theorem times_isEmpty (k : K) (d : Dict (List K)) : (times k d).isEmpty = d.isEmpty := by
  cases d <;> rfl

variable [IsStrictOrderedRing K]

theorem pixelWeight_scale {c : K} (hc : c ≠ 0) (v e x i : K) :
    pixelWeight v e (c * x) (1 / c ^ 2 * i) = 1 / c ^ 2 * pixelWeight v e x i := by
  unfold pixelWeight
  have : 1 / c ^ 2 * i * (v * (c * x) ^ 2) = i * (v * x ^ 2) := by
    field_simp
  rw [this, mul_div_assoc]

theorem armWeight_scale {c : K} (hc : c ≠ 0) (varlss eta : K → K) (w cont ivar : List K) :
    armWeight varlss eta w (cont.map (c * ·)) (ivar.map (1 / c ^ 2 * ·)) =
      (armWeight varlss eta w cont ivar).map (1 / c ^ 2 * ·) := by
  unfold armWeight
  rw [List.zip_map, List.zipWith_map_right, List.map_zipWith]
  congr 1
  funext x p
  exact pixelWeight_scale hc _ _ _ _

theorem fivarSm_rescale (c y : K) (s : Spectrum K) : (rescale c y s).fivarSm = times (1 / c ^ 2) s.fivarSm := by
  unfold Spectrum.fivarSm rescale
  dsimp only
  cases s.ivarSm <;> rfl

theorem fweight_rescale (c y : K) (s : Spectrum K) : (rescale c y s).fweight = times (1 / c ^ 2) s.fweight := by
  have h := fivarSm_rescale c y s
  unfold Spectrum.fweight
  rw [h]
  change (Option.map (times (1 / c ^ 2)) s.weight).getD _ = _
  cases s.weight <;> rfl

theorem setForestWeight_rescale {c : K} (hc : c ≠ 0) (y : K) (varlss eta : K → K) (s : Spectrum K) :
    (rescale c y s).setForestWeight varlss eta = rescale c y (s.setForestWeight varlss eta) := by
  unfold Spectrum.setForestWeight
  rw [fivarSm_rescale]
  have hcond : ((rescale c y s).valid = false ∨ (rescale c y s).cont = []) ↔ (s.valid = false ∨ s.cont = []) := by
    change (s.valid = false ∨ times c s.cont = []) ↔ _
    rw [times_eq_nil]
  by_cases h : s.valid = false ∨ s.cont = []
  · rw [if_pos h, if_pos (hcond.mpr h)]
    rfl
  · rw [if_neg h, if_neg (fun h' => h (hcond.mp h'))]
    have : s.fwave.mapVals (fun arm wave => armWeight varlss eta wave ((times c s.cont).arr arm)
        ((times (1 / c ^ 2) s.fivarSm).arr arm)) = times (1 / c ^ 2) (s.fwave.mapVals (fun arm wave =>
          armWeight varlss eta wave (s.cont.arr arm) (s.fivarSm.arr arm))) := by
      unfold times Dict.mapVals
      rw [List.map_map]
      refine List.map_congr_left fun x _ => ?_
      have := armWeight_scale hc varlss eta x.2 (s.cont.arr x.1) (s.fivarSm.arr x.1)
      rw [← arr_times, ← arr_times] at this
      exact congrArg (Prod.mk x.1) this
    change ({ rescale c y s with weight := some (s.fwave.mapVals (fun arm wave =>
      armWeight varlss eta wave ((times c s.cont).arr arm) ((times (1 / c ^ 2) s.fivarSm).arr arm))) } : Spectrum K) = _
    rw [this]
    rfl

theorem armChi2_scale {c : K} (hc : c ≠ 0) (w f x : List K) :
    armChi2 (w.map (1 / c ^ 2 * ·)) (f.map (c * ·)) (x.map (c * ·)) = armChi2 w f x := by
  unfold armChi2 dot
  refine congrArg List.sum ?_
  induction w generalizing f x with
  | nil => rfl
  | cons a w ih =>
    cases f with
    | nil => rfl
    | cons b f =>
      cases x with
      | nil => rfl
      | cons d x =>
        simp only [List.map_cons, List.zipWith_cons_cons]
        rw [ih f x]
        congr 1
        field_simp

theorem calcContinuumChi2_rescale {c : K} (hc : c ≠ 0) (y : K) (s : Spectrum K) :
    (rescale c y s).calcContinuumChi2 = rescale c y s.calcContinuumChi2 := by
  unfold Spectrum.calcContinuumChi2
  rw [fweight_rescale]
  have hcond : ((rescale c y s).valid = false ∨ (rescale c y s).cont = []) ↔ (s.valid = false ∨ s.cont = []) := by
    change (s.valid = false ∨ times c s.cont = []) ↔ _
    rw [times_eq_nil]
  by_cases h : s.valid = false ∨ s.cont = []
  · rw [if_pos h, if_pos (hcond.mpr h)]
    rfl
  · rw [if_neg h, if_neg (fun h' => h (hcond.mp h'))]
    have : (s.fwave.map (fun x => armChi2 ((times (1 / c ^ 2) s.fweight).arr x.1) ((times c s.fflux).arr x.1)
        ((times c s.cont).arr x.1))) =
        s.fwave.map (fun x => armChi2 (s.fweight.arr x.1) (s.fflux.arr x.1) (s.cont.arr x.1)) := by
      refine List.map_congr_left fun x _ => ?_
      rw [arr_times, arr_times, arr_times]
      exact armChi2_scale hc _ _ _
    change ({ rescale c y s with chi2 := (s.fwave.map (fun x => armChi2 ((times (1 / c ^ 2) s.fweight).arr x.1)
      ((times c s.fflux).arr x.1) ((times c s.cont).arr x.1))).sum } : Spectrum K) = _
    rw [this]
    rfl

theorem endFit_rescale {c : K} (hc : c ≠ 0) (y : K) (varlss eta : K → K) (s : Spectrum K) :
    endFit varlss eta (rescale c y s) = rescale c y (endFit varlss eta s) := by
  unfold Spectrum.endFit
  dsimp only
  rw [setForestWeight_rescale hc, calcContinuumChi2_rescale hc]
  generalize (s.setForestWeight varlss eta).calcContinuumChi2 = t
  change (if t.valid = true then _ else _) = _
  split <;> rfl

omit [LinearOrder K] [IsStrictOrderedRing K] in
theorem mypoly1d_scale (c : K) (x : List K) (t : K) : mypoly1d (x.map (c * ·)) t = c * mypoly1d x t := by
  unfold mypoly1d
  rw [List.zipIdx_map, List.map_map, ← List.sum_map_mul_left]
  refine congrArg List.sum (List.map_congr_left fun p _ => ?_)
  simp only [Function.comp_apply, Prod.map_fst, Prod.map_snd, id]
  ring

omit [LinearOrder K] [IsStrictOrderedRing K] in
theorem piccaModel_scale (log meancont : K → K) (r0 d c : K) (x : List K) (w : K) :
    piccaModel log meancont r0 d (x.map (c * ·)) w = c * piccaModel log meancont r0 d x w := by
  unfold piccaModel
  rw [mypoly1d_scale]
  ring

theorem contLoop_scale {c : K} (hc : 0 < c) (est est' : List K → List K) (f : K → K)
    (he : ∀ w, est' w = (est w).map (c * ·)) (fw : Dict (List K)) (d : Dict (List K)) :
    contLoop piccaRejects est' (mulFlux f) fw (times c d) =
      ((contLoop piccaRejects est (mulFlux f) fw d).1, times c (contLoop piccaRejects est (mulFlux f) fw d).2) := by
  have hr : ∀ l : List K, piccaRejects (l.map (c * ·)) = piccaRejects l := by
    intro l
    unfold piccaRejects
    rw [List.any_map]
    refine congrArg (fun g : K → Bool => l.any g) (funext fun x => ?_)
    simp only [Function.comp_apply, decide_eq_decide]
    exact ⟨fun h => by by_contra h'; exact absurd (mul_nonneg hc.le (not_lt.mp h')) (not_le.mpr h),
      fun h => mul_neg_of_pos_of_neg hc h⟩
  have hm : ∀ w l : List K, mulFlux f w (l.map (c * ·)) = (mulFlux f w l).map (c * ·) := by
    intro w l
    unfold mulFlux
    rw [List.zipWith_map_right, List.map_zipWith]
    congr 1
    funext x z
    ring
  induction fw generalizing d with
  | nil => rfl
  | cons a fw ih =>
    obtain ⟨k, w⟩ := a
    unfold contLoop
    rw [he w, hr (est w), hm w (est w)]
    by_cases h : piccaRejects (est w) = true
    · rw [if_pos h, if_pos h]
    · rw [if_neg h, if_neg h, set_times]
      exact ih _

theorem piccaFit_rescale {c : K} (hc : 0 < c) (y : K) (log meancont meanflux varlss eta : K → K) (r0 d : K)
    (ok : Bool) (x : List K) (s : Spectrum K) :
    piccaFit log meancont meanflux varlss eta r0 d (ok, x.map (c * ·)) (rescale c y s) =
      rescale c y (piccaFit log meancont meanflux varlss eta r0 d (ok, x) s) := by
  unfold Spectrum.piccaFit
  rw [← endFit_rescale hc.ne']
  refine congrArg (endFit varlss eta) ?_
  cases ok
  · rfl
  · have h := contLoop_scale hc
      (fun w => w.map (fun v => piccaModel log meancont r0 d x (v / (1 + s.z))))
      (fun w => w.map (fun v => piccaModel log meancont r0 d (x.map (c * ·)) (v / (1 + s.z)))) meanflux
      (fun w => by
        rw [List.map_map]
        exact List.map_congr_left fun v _ => piccaModel_scale log meancont r0 d c x (v / (1 + s.z))) s.fwave []
    change (rescale c y s).setCont (contLoop piccaRejects
      (fun w => w.map (fun v => piccaModel log meancont r0 d (x.map (c * ·)) (v / (1 + s.z)))) (mulFlux meanflux)
      s.fwave (times c [])) = _
    rw [h]
    rfl

/-! ### The cost function -/

/-- The pixels with a positive weight, which do not depend on the continuum. -/
def numPositive (s : Spectrum K) : Nat :=
  (s.fwave.map (fun a => (List.zipWith (fun (_ : K) (p : K × K) => if 0 < p.2 then 1 else 0) a.2
    ((s.fflux.arr a.1).zip (s.fivarSm.arr a.1))).sum)).sum

theorem pixelWeight_pos_iff {v e : K} (hv : 0 ≤ v) (he : 0 < e) {i : K} (hi : 0 ≤ i) (x : K) :
    0 < pixelWeight v e x i ↔ 0 < i := by
  unfold pixelWeight
  have hd : 0 < e + i * (v * x ^ 2) := by positivity
  rw [div_pos_iff_of_pos_right hd]

theorem pixelCost_scale {log : K → K} (hlog : ∀ a b : K, 0 < a → 0 < b → log (a * b) = log a + log b) {c : K}
    (hc : 0 < c) {v e : K} (hv : 0 ≤ v) (he : 0 < e) {i : K} (hi : 0 ≤ i) (f x : K) :
    pixelCost log v e (c * f) (1 / c ^ 2 * i) (c * x) =
      pixelCost log v e f i x + (if 0 < i then -log (1 / c ^ 2) else 0) := by
  unfold pixelCost
  dsimp only
  rw [pixelWeight_scale hc.ne']
  have hp := pixelWeight_pos_iff hv he hi x
  have hb : (0 : K) < 1 / c ^ 2 := by positivity
  have h1 : 1 / c ^ 2 * pixelWeight v e x i * (c * f - c * x) ^ 2 = pixelWeight v e x i * (f - x) ^ 2 := by
    field_simp
  rw [h1]
  by_cases h : 0 < i
  · have hw := hp.mpr h
    rw [if_pos (mul_pos hb hw), if_pos hw, if_pos h, hlog _ _ hb hw]
    ring
  · have hw : ¬ 0 < pixelWeight v e x i := fun h' => h (hp.mp h')
    have hw' : ¬ 0 < 1 / c ^ 2 * pixelWeight v e x i := fun h' => hw ((mul_pos_iff_of_pos_left hb).mp h')
    rw [if_neg hw, if_neg hw', if_neg h]
    ring

theorem piccaCost_rescale {log : K → K} (hlog : ∀ a b : K, 0 < a → 0 < b → log (a * b) = log a + log b) {c : K}
    (hc : 0 < c) (y : K) (meancont meanflux varlss eta : K → K) (hve : ∀ w, 0 ≤ varlss w ∧ 0 < eta w) (r0 d : K)
    (s : Spectrum K) (hs : IvarNonneg s) (x : List K) :
    piccaCost log meancont meanflux varlss eta r0 d (rescale c y s) (x.map (c * ·)) =
      piccaCost log meancont meanflux varlss eta r0 d s x + (numPositive s : K) * -log (1 / c ^ 2) := by
  unfold Spectrum.piccaCost numPositive
  rw [fivarSm_rescale]
  change (s.fwave.map (fun a => (List.zipWith (fun w (p : K × K) => pixelCost log (varlss w) (eta w) p.1 p.2
      (piccaModel log meancont r0 d (x.map (c * ·)) (w / (1 + s.z)) * meanflux w)) a.2
      (((times c s.fflux).arr a.1).zip ((times (1 / c ^ 2) s.fivarSm).arr a.1))).sum)).sum = _
  have hnn : ∀ arm, ∀ v ∈ s.fivarSm.arr arm, 0 ≤ v := by
    intro arm v hv
    unfold Dict.arr at hv
    cases hl : List.lookup arm s.fivarSm with
    | none => rw [hl] at hv; simp at hv
    | some l =>
      rw [hl] at hv
      exact hs (arm, l) (mem_of_lookup hl) v hv
  have harm : ∀ (w f i : List K), (∀ v ∈ i, 0 ≤ v) →
      (List.zipWith (fun w (p : K × K) => pixelCost log (varlss w) (eta w) p.1 p.2
        (piccaModel log meancont r0 d (x.map (c * ·)) (w / (1 + s.z)) * meanflux w)) w
        ((f.map (c * ·)).zip (i.map (1 / c ^ 2 * ·)))).sum =
      (List.zipWith (fun w (p : K × K) => pixelCost log (varlss w) (eta w) p.1 p.2
        (piccaModel log meancont r0 d x (w / (1 + s.z)) * meanflux w)) w (f.zip i)).sum +
      ((List.zipWith (fun (_ : K) (p : K × K) => if 0 < p.2 then 1 else 0) w (f.zip i)).sum : ℕ) *
        -log (1 / c ^ 2) := by
    intro w
    induction w with
    | nil => intro f i _; simp
    | cons w0 w ih =>
      intro f i hi
      cases f with
      | nil => simp
      | cons f0 f =>
        cases i with
        | nil => simp
        | cons i0 i =>
          simp only [List.map_cons, List.zip_cons_cons, List.zipWith_cons_cons, List.sum_cons]
          rw [ih f i (fun v hv => hi v (List.mem_cons_of_mem _ hv)), piccaModel_scale, mul_assoc c,
            pixelCost_scale hlog hc (hve w0).1 (hve w0).2 (hi i0 List.mem_cons_self)]
          by_cases h0 : 0 < i0
          · rw [if_pos h0, if_pos h0]
            push_cast
            ring
          · rw [if_neg h0, if_neg h0]
            push_cast
            ring
  induction s.fwave with
  | nil => simp
  | cons a fw ih =>
    simp only [List.map_cons, List.sum_cons]
    rw [ih, arr_times, arr_times, harm a.2 _ _ (hnn a.1)]
    push_cast
    ring

/-! ### The stack and the steps after the iterations -/

theorem stackArm_rescale {c : K} (hc : c ≠ 0) (y : K) (s : Spectrum K) (x : String × List K) :
    stackArm true (rescale c y s) x = stackArm true s x := by
  unfold Spectrum.stackArm
  have e1 : (rescale c y s).fflux.arr x.1 = (s.fflux.arr x.1).map (c * ·) := arr_times c s.fflux x.1
  have e2 : (rescale c y s).cont.arr x.1 = (s.cont.arr x.1).map (c * ·) := arr_times c s.cont x.1
  have e3 : (rescale c y s).fweight.arr x.1 = (s.fweight.arr x.1).map (1 / c ^ 2 * ·) := by
    rw [fweight_rescale, arr_times]
  rw [e1, e2, e3, List.zip_map (l₁ := s.fweight.arr x.1), List.zip_map_right (l₁ := x.2), List.zip_map, List.map_map]
  refine List.map_congr_left fun p _ => ?_
  change stackPix true s.z p.1.1 (c * p.1.2) (1 / c ^ 2 * p.2.1) (c * p.2.2) = stackPix true s.z p.1.1 p.1.2 p.2.1 p.2.2
  unfold Spectrum.stackPix
  have h1 : 1 / c ^ 2 * p.2.1 * (c * p.2.2) ^ 2 = p.2.1 * p.2.2 ^ 2 := by field_simp
  have h2 : p.2.1 * p.2.2 ^ 2 * (c * p.1.2) / (c * p.2.2) = p.2.1 * p.2.2 ^ 2 * p.1.2 / p.2.2 := by
    rw [mul_left_comm, mul_div_mul_left _ _ hc]
  rw [h1, h2]
  rfl

theorem mulFlux_scale (c : K) (f : K → K) (w l : List K) : mulFlux f w (l.map (c * ·)) = (mulFlux f w l).map (c * ·) := by
  unfold mulFlux
  rw [List.zipWith_map_right, List.map_zipWith]
  congr 1
  funext x z
  ring

theorem normSpec_rescale [FloorRing K] (c y : K) (st : Stacker K) (s : Spectrum K) :
    normSpec st (rescale c y s) = rescale c y (normSpec st s) := by
  unfold normSpec
  change s.fwave.foldl _ _ = _
  generalize hfw : s.fwave = fw
  clear hfw
  induction fw generalizing s with
  | nil => rfl
  | cons a fw ih =>
    rw [List.foldl_cons, List.foldl_cons, ← ih]
    refine congrArg (fun t => List.foldl _ t fw) ?_
    have : (times c s.cont).set a.1 (normArm st a.2 ((times c s.cont).arr a.1)) =
        times c (s.cont.set a.1 (normArm st a.2 (s.cont.arr a.1))) := by
      rw [arr_times, ← set_times]
      unfold normArm
      rw [mulFlux_scale]
    change ({ rescale c y s with cont := (times c s.cont).set a.1 (normArm st a.2 ((times c s.cont).arr a.1)) } :
      Spectrum K) = _
    rw [this]
    rfl

theorem etaArm_rescale (c y : K) (eta : K → K) (s : Spectrum K) (x : String × List K) :
    etaArm eta (rescale c y s) x = rescale c y (etaArm eta s x) := by
  unfold etaArm Spectrum.setIvar
  have : (times (1 / c ^ 2) s.fivar).set x.1
      (List.zipWith (fun w v => v / eta w) x.2 ((times (1 / c ^ 2) s.fivar).arr x.1)) =
      times (1 / c ^ 2) (s.fivar.set x.1 (List.zipWith (fun w v => v / eta w) x.2 (s.fivar.arr x.1))) := by
    rw [arr_times, ← set_times, List.zipWith_map_right, List.map_zipWith]
    congr 2
    funext w v
    rw [mul_div_assoc]
  change ({ rescale c y s with fivar := ((times (1 / c ^ 2) s.fivar).set x.1
        (List.zipWith (fun w v => v / eta w) x.2 ((times (1 / c ^ 2) s.fivar).arr x.1))) } : Spectrum K) = _
  rw [this]
  rfl

theorem etaCalibIvar_rescale (c y : K) (eta : K → K) (s : Spectrum K) :
    etaCalibIvar eta (rescale c y s) = rescale c y (etaCalibIvar eta s) := by
  unfold etaCalibIvar
  change s.fwave.foldl _ _ = _
  generalize s.fwave = fw
  induction fw generalizing s with
  | nil => rfl
  | cons a fw ih =>
    rw [List.foldl_cons, List.foldl_cons, etaArm_rescale, ih]

/-! ### The iterations -/

variable [FloorRing K]

/-- The spectra of the two runs. -/
def RelSpec (s t : Spectrum K) : Prop := IvarNonneg s ∧ OtherUnits s t

omit [IsStrictOrderedRing K] in
theorem fitOne_ivar (C : FullCfg K) (g : FullState K) (s : Spectrum K) : (C.fitOne g s).fivarSm = s.fivarSm := by
  have e : ∀ t : Spectrum K, (endFit g.varlss g.eta t).fivarSm = t.fivarSm := by
    intro t
    unfold Spectrum.endFit Spectrum.setForestWeight Spectrum.calcContinuumChi2
    dsimp only
    repeat' split
    all_goals rfl
  unfold FullCfg.fitOne Spectrum.piccaFit
  rw [e]
  split <;> rfl

theorem fitOne_rel (C : FullCfg K) (hlog : ∀ a b : K, 0 < a → 0 < b → C.log (a * b) = C.log a + C.log b)
    (hmin : FindsMinimum C.minimize) {g : FullState K} (hg : GoodVar g) {s t : Spectrum K} (h : RelSpec s t) :
    RelSpec (C.fitOne g s) (C.fitOne g t) := by
  obtain ⟨hs, c, y, hc, rfl⟩ := h
  refine ⟨?_, c, y, hc, ?_⟩
  · unfold IvarNonneg
    rw [fitOne_ivar]
    exact hs
  · unfold FullCfg.fitOne
    rw [hmin (piccaCost C.log (C.meancont g) C.meanflux g.varlss g.eta (C.rfwave.getD 0 0) C.denom s) _ c _
      (startA0 s :: List.replicate C.order 0) _ hc (by simp)
      (piccaCost_rescale hlog hc y (C.meancont g) C.meanflux g.varlss g.eta hg _ _ s hs)]
    exact piccaFit_rescale hc y _ _ _ _ _ _ _ _ _ s

omit [IsStrictOrderedRing K] in
theorem relSpec_valid {s t : Spectrum K} (h : RelSpec s t) : s.valid = t.valid := by
  obtain ⟨-, c, y, -, rfl⟩ := h
  rfl

omit [IsStrictOrderedRing K] [FloorRing K] in
theorem otherUnits_valid {s t : Spectrum K} (h : OtherUnits s t) : s.valid = t.valid := by
  obtain ⟨c, y, -, rfl⟩ := h
  rfl

theorem filter_rel {α β : Type} {T : α → β → Prop} {f : α → Bool} {g : β → Bool} (h : ∀ a b, T a b → f a = g b)
    {l : List α} {l' : List β} (hl : List.Forall₂ T l l') : List.Forall₂ T (l.filter f) (l'.filter g) := by
  induction hl with
  | nil => exact .nil
  | @cons a b l l' hab _ ih =>
    rw [List.filter_cons, List.filter_cons, h a b hab]
    split
    · exact .cons hab ih
    · exact ih

theorem countP_rel {α β : Type} {T : α → β → Prop} {f : α → Bool} {g : β → Bool} (h : ∀ a b, T a b → f a = g b)
    {l : List α} {l' : List β} (hl : List.Forall₂ T l l') : l.countP f = l'.countP g := by
  rw [List.countP_eq_length_filter, List.countP_eq_length_filter]
  exact (filter_rel h hl).length_eq

theorem flatMap_rel {α β γ : Type} {T : α → β → Prop} {f : α → List γ} {g : β → List γ} (h : ∀ a b, T a b → f a = g b)
    {l : List α} {l' : List β} (hl : List.Forall₂ T l l') : l.flatMap f = l'.flatMap g := by
  induction hl with
  | nil => rfl
  | cons hab _ ih => rw [List.flatMap_cons, List.flatMap_cons, h _ _ hab, ih]

theorem stackRank_rel (C : FullCfg K) (hres : C.residual = true) {l l' : List (Spectrum K)}
    (h : List.Forall₂ OtherUnits l l') : C.stackRank l = C.stackRank l' := by
  unfold FullCfg.stackRank Spectrum.stackSpectra
  rw [hres, flatMap_rel (T := OtherUnits) ?_ (filter_rel (T := OtherUnits) (fun a b hab => otherUnits_valid hab) h)]
  rintro a b ⟨c, y, hc, rfl⟩
  exact List.map_congr_left fun x _ => (stackArm_rescale hc.ne' y a x).symm

omit [FloorRing K] in
theorem varInput_rescale {c : K} (hc : c ≠ 0) (y : K) (s : Spectrum K) : varInput (rescale c y s) = varInput s := by
  unfold varInput
  refine List.map_congr_left fun a _ => ?_
  have e1 : (rescale c y s).fflux.arr a.1 = (s.fflux.arr a.1).map (c * ·) := arr_times c s.fflux a.1
  have e2 : (rescale c y s).cont.arr a.1 = (s.cont.arr a.1).map (c * ·) := arr_times c s.cont a.1
  have e3 : (rescale c y s).fivar.arr a.1 = (s.fivar.arr a.1).map (1 / c ^ 2 * ·) := arr_times _ s.fivar a.1
  rw [e1, e2, e3, List.zip_map (l₁ := s.cont.arr a.1), List.zip_map (l₁ := s.fflux.arr a.1), List.zip_map_right,
    List.map_map]
  refine List.map_congr_left fun p _ => ?_
  change (p.1, c * p.2.1 / (c * p.2.2.1) - 1, 1 / c ^ 2 * p.2.2.2 * (c * p.2.2.1) ^ 2) = _
  rw [mul_div_mul_left _ _ hc]
  have : 1 / c ^ 2 * p.2.2.2 * (c * p.2.2.1) ^ 2 = p.2.2.2 * p.2.2.1 ^ 2 := by field_simp
  rw [this]

variable {Q D V : Type}

section
variable {C : FullCfg K} (hres : C.residual = true)
  (hlog : ∀ a b : K, 0 < a → 0 < b → C.log (a * b) = C.log a + C.log b) (hmin : FindsMinimum C.minimize)
  {P : FitterFns (FullState K) (Spectrum K) (StackSums K) Q D} (hP : SeesDeltas P)
  (c : FitterCodecs (StackSums K) Q V)

include hlog hmin in
theorem fitContinua_rel {W : Type} {g : FullState K} (hg : GoodVar g) {l l' : List (Spectrum K)}
    (h : List.Forall₂ RelSpec l l') :
    RelP (V := V) (W := W) (fun x y => List.Forall₂ RelSpec x.1 y.1)
      ((C.fns P).fitContinua c g l) ((C.fns P).fitContinua c g l') := by
  have hl : List.Forall₂ RelSpec (l.map (C.fitOne g)) (l'.map (C.fitOne g)) :=
    forall₂_map_rel (fun a b hab => fitOne_rel C hlog hmin hg hab) h
  have e1 : (l.map (C.fitOne g)).countP (fun s => s.valid) = (l'.map (C.fitOne g)).countP (fun s => s.valid) :=
    countP_rel (fun a b hab => relSpec_valid hab) hl
  have e2 : (l.map (C.fitOne g)).countP (fun s => !s.valid) = (l'.map (C.fitOne g)).countP (fun s => !s.valid) :=
    countP_rel (fun a b hab => by rw [relSpec_valid hab]) hl
  unfold FitterFns.fitContinua
  dsimp only [FullCfg.fns]
  rw [e1, e2]
  refine .allreduce _ _ fun x => .allreduce _ _ fun z => ?_
  split
  · exact .raise _
  · exact .ret hl

include hres in
theorem updateMeanCont_rel {W : Type} (g : FullState K) {l l' : List (Spectrum K)} (h : List.Forall₂ OtherUnits l l') :
    RelP (V := V) (W := W) (fun x y => x = y ∧ x.1.varlss = g.varlss ∧ x.1.eta = g.eta)
      ((C.fns P).updateMeanCont c g l) ((C.fns P).updateMeanCont c g l') := by
  unfold FitterFns.updateMeanCont
  dsimp only [FullCfg.fns]
  rw [stackRank_rel C hres (filter_rel (T := OtherUnits) (fun a b hab => otherUnits_valid hab) h)]
  exact .allreduce _ _ fun x => .ret ⟨rfl, rfl, rfl⟩

include hP in
theorem updateVarLssEta_rel {W : Type} (rank : Nat) (g : FullState K) {l l' : List (Spectrum K)}
    (h : List.Forall₂ OtherUnits l l') :
    RelP (V := V) (W := W) (fun x y => x = y ∧ ∃ q, x = P.varUpd g q)
      ((C.fns P).updateVarLssEta c rank g l) ((C.fns P).updateVarLssEta c rank g l') := by
  unfold FitterFns.updateVarLssEta
  dsimp only [FullCfg.fns]
  rw [hP rank g (l.filter (fun s => s.valid)) (l'.filter (fun s => s.valid)) ?_]
  · exact .allreduce _ _ fun x => .ret ⟨rfl, _, rfl⟩
  · refine forall₂_map_same (T := OtherUnits) ?_ (filter_rel (T := OtherUnits) (fun a b hab => otherUnits_valid hab) h)
    rintro a b ⟨k, y, hk, rfl⟩
    exact (varInput_rescale hk.ne' y a).symm

/-- What the loop of the iterations gives in the two runs. -/
def RelIter (x y : FullState K × List (Spectrum K) × Nat × Bool) : Prop :=
  x.1 = y.1 ∧ List.Forall₂ RelSpec x.2.1 y.2.1 ∧ x.2.2 = y.2.2

include hres hlog hmin hP in
theorem iterLoop_rel (s : Saver) (rank : Nat) (hf : Bool) (hgood : hf = true → ∀ g q, GoodVar g → GoodVar (P.varUpd g q))
    (k it : Nat) {g : FullState K} (hg : GoodVar g) {l l' : List (Spectrum K)} (h : List.Forall₂ RelSpec l l') :
    RelP RelIter ((C.fns P).iterLoop c s rank hf k it g l) ((C.fns P).iterLoop c s rank hf k it g l') := by
  induction k generalizing it g l l' with
  | zero => exact .ret ⟨rfl, h, rfl⟩
  | succ k ih =>
    refine RelP.emits ?_ _
    refine (fitContinua_rel hlog hmin c hg h).bind fun f f' hff => ?_
    refine (updateMeanCont_rel hres c g (hff.imp fun _ _ hab => hab.2)).bind ?_
    rintro m m' ⟨rfl, m1, m2⟩
    have hgm : GoodVar m.1 := by
      unfold GoodVar
      rw [m1, m2]
      exact hg
    have hv : RelP (V := V) (W := SaverEv (String × D)) (fun x y => x = y ∧ GoodVar x)
        ((C.fns P).varStep c rank hf m.1 f.1) ((C.fns P).varStep c rank hf m.1 f'.1) := by
      unfold FitterFns.varStep
      cases hf with
      | false => exact .ret ⟨rfl, hgm⟩
      | true =>
        rw [if_pos rfl, if_pos rfl]
        have := updateVarLssEta_rel (C := C) (W := SaverEv (String × D)) hP c rank m.1 (hff.imp fun _ _ hab => hab.2)
        have h2 := this.bind (S := fun x y : FullState K => x = y ∧ GoodVar x) (f := .ret) (g := .ret) (by
          rintro a b ⟨rfl, q, rfl⟩
          exact .ret ⟨rfl, hgood rfl _ _ hgm⟩)
        exact h2
    refine hv.bind ?_
    rintro g2 g2' ⟨rfl, hg2⟩
    cases m.2 with
    | true => exact .ret ⟨rfl, hff, rfl⟩
    | false => exact ih (it + 1) hg2 hff

theorem tweak_rel (g : FullState K) {l l' : List (Spectrum K)} (h : List.Forall₂ RelSpec l l') :
    List.Forall₂ OtherUnits ((C.fns P).tweak g l) ((C.fns P).tweak g l') := by
  unfold FitterFns.tweak
  refine forall₂_map_rel (T := OtherUnits) ?_ (forall₂_map_rel (T := RelSpec) ?_ h)
  · rintro a b ⟨k, y, hk, rfl⟩
    refine ⟨k, y, hk, ?_⟩
    change (if C.etaCalib = true then _ else _) = _
    dsimp only [FullCfg.fns]
    split
    · exact etaCalibIvar_rescale k y g.eta a
    · rfl
  · rintro a b ⟨-, k, y, hk, rfl⟩
    refine ⟨k, y, hk, ?_⟩
    change (if a.valid = true then (if C.normalize = true then normSpec g.stack (rescale k y a) else rescale k y a)
      else rescale k y a) = rescale k y (if a.valid = true then (if C.normalize = true then normSpec g.stack a else a)
      else a)
    split
    · split
      · exact normSpec_rescale k y g.stack a
      · rfl
    · rfl

include hres hlog hmin hP in
theorem iterate_rel (fname : String) (niter rank : Nat) (hf : Bool)
    (hgood : hf = true → ∀ g q, GoodVar g → GoodVar (P.varUpd g q)) {g : FullState K} (hg : GoodVar g)
    {l l' : List (Spectrum K)} (h : List.Forall₂ RelSpec l l') :
    RelP (fun x y => x.1 = y.1 ∧ List.Forall₂ OtherUnits x.2.1 y.2.1 ∧ x.2.2 = y.2.2)
      ((C.fns P).iterate c fname niter hf rank g l) ((C.fns P).iterate c fname niter hf rank g l') := by
  unfold FitterFns.iterate
  dsimp only
  refine RelP.emits ?_ _
  refine (iterLoop_rel hres hlog hmin hP c _ rank hf hgood niter 0 hg h).bind ?_
  rintro ⟨g1, l1, k1⟩ ⟨g1', l1', k1'⟩ ⟨hg1, hl1, hk1⟩
  dsimp only at hg1 hl1 hk1
  subst hg1
  subst hk1
  refine RelP.emits ?_ _
  have ht := tweak_rel (C := C) (P := P) g1 hl1
  generalize (C.fns P).tweak g1 l1 = t at ht ⊢
  generalize (C.fns P).tweak g1 l1' = t' at ht ⊢
  have hv : RelP (V := V) (W := SaverEv (String × D)) (fun x y => x = y)
      ((C.fns P).finalVar c (Saver.init (D := String × D) fname rank).2 rank hf g1 t)
      ((C.fns P).finalVar c (Saver.init (D := String × D) fname rank).2 rank hf g1 t') := by
    unfold FitterFns.finalVar
    cases hf with
    | true => exact .ret rfl
    | false =>
      simp only [Bool.false_eq_true, if_false]
      refine RelP.bind (R := fun x y => x = y) ?_ ?_
      · unfold FitterFns.fitFinalVarlss
        refine (updateVarLssEta_rel hP c rank _ ht).bind ?_
        rintro g2 g2' ⟨rfl, -⟩
        refine (updateMeanCont_rel hres c _ ht).bind ?_
        rintro m m' ⟨rfl, -⟩
        exact .ret rfl
      · rintro g2 _ rfl
        exact RelP.emits (.ret rfl) _
  refine hv.bind ?_
  rintro g2 _ rfl
  exact RelP.emits (.ret ⟨rfl, ht, rfl⟩) _

end
end Verif.Proofs
