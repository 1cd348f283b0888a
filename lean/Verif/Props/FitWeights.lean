import Verif.Props.FitTail
import Verif.Props.Calibration
import Verif.Props.Spectrum
import Verif.Props.ContFit
import Verif.Spec.FitWeights

/-!
# The weights of fitted spectra, eta and var_lss (C75)
-/

namespace Verif.Props
open Verif.Np Verif.Model Verif.Spec Verif.Proofs

section
variable {K : Type} [Field K] [LinearOrder K] [FloorRing K]

theorem setForestWeight_weightsOf {s : Spectrum K} (hv : s.valid = true) (hc : s.cont ≠ []) (varlss eta : K → K) :
    WeightsOf varlss eta (s.setForestWeight varlss eta) := by
  intro arm w hw i x c v p hx hcv hvv hp
  obtain ⟨-, h2, h3, -, h5, h6, -⟩ := sfw_same varlss eta s
  rw [h3] at hw
  rw [h2] at hcv
  have hsm : (s.setForestWeight varlss eta).fivarSm = s.fivarSm := by
    unfold Spectrum.fivarSm
    rw [h5, h6]
  rw [hsm] at hvv
  have h := setForestWeight_lookup hv hc varlss eta arm
  rw [hw] at h
  rw [arr_of_lookup h] at hp
  unfold Spectrum.armWeight at hp
  rw [zipWith_pix hx (b := (c, v)) (by rw [List.getElem?_zip_eq_some]; exact ⟨hcv, hvv⟩)] at hp
  exact (Option.some.inj hp).symm

omit [FloorRing K] in
theorem chi2_weightsOf {s : Spectrum K} {varlss eta : K → K} (h : WeightsOf varlss eta s) :
    WeightsOf varlss eta s.calcContinuumChi2 := by
  obtain ⟨-, h2, h3, -, h5, h6, -, h8⟩ := chi2_same s
  intro arm w hw i x c v p hx hcv hvv hp
  rw [h3] at hw
  rw [h2] at hcv
  unfold Spectrum.fivarSm at hvv
  rw [h5, h6] at hvv
  unfold Spectrum.fweight Spectrum.fivarSm at hp
  rw [h5, h6, h8] at hp
  exact h arm w hw i x c v p hx hcv hvv hp

omit [Field K] [LinearOrder K] [FloorRing K] in
theorem forall₂_imp_mem {R Q : Spectrum K → Spectrum K → Prop} {l l' : List (Spectrum K)} (h : List.Forall₂ R l l')
    (hi : ∀ s ∈ l, ∀ s', R s s' → Q s s') : List.Forall₂ Q l l' := by
  induction h with
  | nil => exact .nil
  | cons h1 _ ih => exact .cons (hi _ List.mem_cons_self _ h1) (ih fun s hs => hi s (List.mem_cons_of_mem _ hs))

/-- **C75.** The weights after the fit with a true continuum are those of var_lss with eta one. -/
theorem C75_true_weights (interp meanflux varlss : K → K) {s : Spectrum K} (hv : s.valid = true) (hne : s.fwave ≠ [])
    (hn : s.fwave.keys.Nodup) : WeightsOf varlss (fun _ => 1) (Spectrum.trueFit interp meanflux varlss s) := by
  have hc := (C53_true_partial interp meanflux varlss hn).2
  unfold Spectrum.trueFit at hc ⊢
  rw [(chi2_same _).2.1, (sfw_same _ _ _).2.1] at hc
  refine chi2_weightsOf (setForestWeight_weightsOf ?_ ?_ _ _)
  · exact hv
  intro h0
  rw [h0] at hc
  obtain ⟨x, l, hx⟩ := List.exists_cons_of_ne_nil hne
  have := hc x.1 x.2 (by rw [hx]; simp [List.lookup])
  simp at this

/-- **C75.** After the additive noise calibration, every spectrum has the weights of the fitted functions, computed from
its new ivar, smoothed again if it was smoothed before; the new ivar is the inverse of the variance to which the
calibration adds its own var_lss. -/
theorem C75_additive [IsStrictOrderedRing K] (T : TailFns K) (varlss eta : K → K) {c : NoiseCal K} {vl : K → K}
    (hc : c.varlss = some vl) {l : List (Spectrum K)} (hl : ∀ s ∈ l, Aligned s) (hh : ∀ s ∈ l, HasCont s)
    (hne : ∀ s ∈ l, s.cont ≠ []) (hv : ∀ s ∈ l, s.valid = true) :
    ∃ out, fitTail T (some c) false varlss eta l = .ok out ∧ List.Forall₂ (fun s t =>
      t.fwave = s.fwave ∧ t.fflux = s.fflux ∧ t.cont = s.cont ∧ WeightsOf varlss eta t ∧
      (∀ arm, t.fivarSm.lookup arm =
        (t.fivar.lookup arm).map (fun v => if 0 < s.smoothing then T.smooth v (s.smoothing / s.dwave) else v)) ∧
      ∀ arm w, s.fwave.lookup arm = some w → ∀ (i : Nat) (x v v' : K), w[i]? = some x → (s.fivar.arr arm)[i]? = some v →
        (t.fivar.arr arm)[i]? = some v' → ∃ q, (s.cont.arr arm)[i]? = some q ∧ (v = 0 → v' = 0) ∧
          (0 < v → 0 < c.eta x → 0 ≤ vl x → 0 < v' ∧ 1 / v' = c.eta x * (1 / v) + vl x * q ^ 2)) l out := by
  obtain ⟨l', h1, h2⟩ := C39_additive hc hl hh hne
  refine ⟨l'.map (reweigh T varlss eta), ?_, ?_⟩
  · change Except.bind (Except.map _ (c.apply l)) _ = _
    rw [h1]
    rfl
  · rw [List.forall₂_map_right_iff]
    refine forall₂_imp_mem h2 fun s hs s' h => ?_
    have hr := h.rest
    have e1 : s'.fwave = s.fwave := by rw [hr]
    have e2 : s'.fflux = s.fflux := by rw [hr]
    have e3 : s'.cont = s.cont := by rw [hr]
    have e4 : s'.valid = s.valid := by rw [hr]
    have e5 : s'.smoothing = s.smoothing := by rw [hr]
    have e6 : s'.dwave = s.dwave := by rw [hr]
    have f : ∀ {β : Type} (g : Spectrum K → β), (∀ a b c, g { s' with smoothing := a, ivarSm := b, weight := c } = g s') →
        g (s'.setSmoothForestivar T.smooth s'.smoothing) = g s' := by
      intro β g hg
      unfold Spectrum.setSmoothForestivar
      split <;> exact hg _ _ _
    obtain ⟨q1, q2, q3, q4, q5, q6, -⟩ := sfw_same varlss eta (s'.setSmoothForestivar T.smooth s'.smoothing)
    have hiv : (reweigh T varlss eta s').fivar = s'.fivar :=
      q5.trans (f (fun s => s.fivar) fun _ _ _ => rfl)
    refine ⟨?_, ?_, ?_, ?_, ?_, ?_⟩
    · exact (q3.trans (f (fun s => s.fwave) fun _ _ _ => rfl)).trans e1
    · exact (q4.trans (f (fun s => s.fflux) fun _ _ _ => rfl)).trans e2
    · exact (q2.trans (f (fun s => s.cont) fun _ _ _ => rfl)).trans e3
    · refine setForestWeight_weightsOf ?_ ?_ _ _
      · rw [f (fun s => s.valid) fun _ _ _ => rfl, e4, hv s hs]
      · rw [f (fun s => s.cont) fun _ _ _ => rfl, e3]
        exact hne s hs
    · intro arm
      obtain ⟨-, -, -, r4, r5⟩ := C25_smooth T.smooth s' s'.smoothing arm
      have hsm : (reweigh T varlss eta s').fivarSm = (s'.setSmoothForestivar T.smooth s'.smoothing).fivarSm := by
        unfold reweigh Spectrum.fivarSm
        rw [q5, q6]
      rw [hsm, hiv]
      by_cases h0 : 0 < s.smoothing
      · rw [(r4 (by rw [e5]; exact h0)).2, e5, e6]
        simp only [if_pos h0]
      · rw [(r5 (by rw [e5]; exact not_lt.mp h0)).2]
        simp only [if_neg h0, Option.map_id']
    · rw [hiv]
      exact h.pixel

omit [LinearOrder K] [FloorRing K] in
theorem zipWith_sq (p f c : List K) : List.zipWith (· * ·) p (List.zipWith (fun f c => (f - c) ^ 2) f c) =
    List.zipWith (fun p fc => p * (fc.1 - fc.2) ^ 2) p (f.zip c) := by
  induction p generalizing f c with
  | nil => rfl
  | cons a p ih =>
    cases f with
    | nil => rfl
    | cons b f =>
      cases c with
      | nil => rfl
      | cons d c =>
        simp only [List.zipWith_cons_cons, List.zip_cons_cons]
        rw [ih]

theorem coadd_shape {sqrt : K → K} {smooth : List K → K → List K} {junk : Nat → K} {nan eps : K} {s u : Spectrum K}
    {varlss eta : K → K} (h : s.coaddArmsForest sqrt smooth junk nan eps varlss eta = .ok u) :
    ∃ w fl iv co re x, u = (((s.replaceForest w fl iv co re).setSmoothForestivar smooth s.smoothing).setForestWeight
      varlss eta).withSnr x := by
  unfold Spectrum.coaddArmsForest at h
  cases h1 : forestGrid s.dwave (s.fwave.map Prod.snd) with
  | error e => rw [h1] at h; cases h
  | ok g =>
    rw [h1, except_bind_ok] at h
    cases h2 : coaddArms g.1 s.dwave g.2.2 (s.fwave.map (fun x => s.forestPix x.1)) with
    | error e => rw [h2] at h; cases h
    | ok fi =>
      rw [h2, except_bind_ok] at h
      cases h3 : s.newCont junk g.1 g.2.2 with
      | error e => rw [h3] at h; cases h
      | ok co =>
        rw [h3, except_bind_ok] at h
        cases h4 : s.newReso nan eps g.1 g.2.2 with
        | error e => rw [h4] at h; cases h
        | ok re =>
          rw [h4, except_bind_ok] at h
          exact ⟨_, _, _, _, _, _, (Except.ok.inj h).symm⟩

/-- **C75.** Coadding after the fit sets the weights of the coadded spectrum from its own ivar and continuum, and its chi
square is the sum over its own pixels. -/
theorem C75_coadd (T : TailFns K) (varlss eta : K → K) {l out : List (Spectrum K)}
    (h : fitTail T none true varlss eta l = .ok out) :
    List.Forall₂ (fun s t => t.valid = s.valid ∧ t.fwave.keys = ["brz"] ∧
      (t.valid = true → t.cont ≠ [] → WeightsOf varlss eta t ∧ t.chi2 = chi2Of t)) l out := by
  change l.mapM (tailCoaddOne T varlss eta) = .ok out at h
  refine (mapM_ok_inv h).imp fun s t ht => ?_
  unfold tailCoaddOne at ht
  cases hc : s.coaddArmsForest T.sqrt T.smooth T.junk T.nan T.eps varlss eta with
  | error e => rw [hc] at ht; cases ht
  | ok u =>
    rw [hc] at ht
    have ht : u.calcContinuumChi2 = t := Except.ok.inj ht
    subst ht
    obtain ⟨w, fl, iv, co, re, x, hu⟩ := coadd_shape hc
    have hval : u.valid = s.valid := by
      rw [hu]
      refine (sfw_same _ _ _).1.trans ?_
      unfold Spectrum.setSmoothForestivar
      split <;> rfl
    have hfw : u.fwave = [("brz", w)] := by
      rw [hu]
      refine (sfw_same _ _ _).2.2.1.trans ?_
      unfold Spectrum.setSmoothForestivar
      split <;> rfl
    obtain ⟨q1, q2, q3, q4, q5, q6, -, q8⟩ := chi2_same u
    refine ⟨q1.trans hval, by rw [q3, hfw]; rfl, fun hv hco => ?_⟩
    rw [q1] at hv
    rw [q2] at hco
    refine ⟨chi2_weightsOf ?_, ?_⟩
    · have hW : WeightsOf varlss eta (((s.replaceForest w fl iv co re).setSmoothForestivar T.smooth
          s.smoothing).setForestWeight varlss eta) := by
        refine setForestWeight_weightsOf ?_ ?_ _ _
        · rw [hu] at hv
          rw [← hv]
          exact (sfw_same varlss eta _).1.symm
        · intro h0
          apply hco
          rw [hu]
          exact (sfw_same varlss eta _).2.1.trans h0
      rw [hu]
      exact hW
    · unfold chi2Of
      rw [q3, q4, q2]
      have hfwt : u.calcContinuumChi2.fweight = u.fweight := by
        unfold Spectrum.fweight Spectrum.fivarSm
        rw [q5, q6, q8]
      rw [hfwt]
      unfold Spectrum.calcContinuumChi2
      rw [if_neg (by simp [hv, hco])]
      refine congrArg List.sum (List.map_congr_left fun a _ => ?_)
      unfold Spectrum.armChi2 dot
      rw [zipWith_sq]

omit [FloorRing K] in
/-- **C75**, the part of the claim that holds. Full claim: the weights that are written are those of the fitted var_lss
and eta, with eta counted once. Proved: with `--eta-calib-ivar` and without smoothing, the ivar is divided by eta, and
the weights are those of the new ivar with eta one. Missing: the weights are set again after coadding or additive noise
calibration, with eta once more (`C75_eta_twice_refuted`), and without it, they are those of the functions before the last
update (`C75_last_update_refuted`). -/
theorem C75_partial {varlss eta : K → K} {s : Spectrum K} (hs : Aligned s) (hW : WeightsOf varlss eta s)
    (hw : s.weight ≠ none) (hsm : s.ivarSm = none)
    (he : ∀ arm w, s.fwave.lookup arm = some w → ∀ x ∈ w, eta x ≠ 0) :
    let t := etaCalibIvar eta s
    IvarChange (fun _ _ x v v' => v' = v / eta x) s t ∧ t.fweight = s.fweight ∧ WeightsOf varlss (fun _ => 1) t := by
  dsimp only
  obtain ⟨l', h1, h2⟩ := C39_eta (c := ⟨eta, none⟩) rfl (l := [s]) (by simpa using hs)
  have hl' : l' = [etaCalibIvar eta s] := (Except.ok.inj h1).symm
  subst hl'
  have hI := (List.forall₂_cons.mp h2).1
  generalize etaCalibIvar eta s = t at hI
  have hr := hI.rest
  have e1 : t.fwave = s.fwave := by rw [hr]
  have e2 : t.cont = s.cont := by rw [hr]
  have e3 : t.weight = s.weight := by rw [hr]
  have e4 : t.ivarSm = none := by
    rw [hr]
    exact hsm
  have e5 : t.fweight = s.fweight := by
    unfold Spectrum.fweight
    rw [e3]
    cases hwt : s.weight with
    | none => exact absurd hwt hw
    | some d => rfl
  refine ⟨hI, e5, ?_⟩
  intro arm w hw i x c v' p hx hcv hvv hp
  rw [e1] at hw
  rw [e2] at hcv
  rw [e5] at hp
  have hvv' : (t.fivar.arr arm)[i]? = some v' := by
    unfold Spectrum.fivarSm at hvv
    rw [e4] at hvv
    exact hvv
  have hi : i < w.length := (List.getElem?_eq_some_iff.mp hx).1
  have hil : i < (s.fivar.arr arm).length := by rw [hs.ivar arm w hw]; exact hi
  have hv := List.getElem?_eq_getElem hil
  have hv' := hI.pixel arm w hw i x _ v' hx hv hvv'
  have hp' := hW arm w hw i x c _ p hx hcv (by
    unfold Spectrum.fivarSm
    rw [hsm]
    exact hv) hp
  have hex := he arm w hw x (List.mem_of_getElem? hx)
  rw [hp', hv']
  generalize (s.fivar.arr arm)[i] = v
  have : eta x + v * (varlss x * c ^ 2) = eta x * (1 + v / eta x * (varlss x * c ^ 2)) := by
    field_simp
  rw [this, div_mul_eq_div_div]

end

/-- **C75** is false with coadding after the fit or additive noise calibration: eta is counted twice. A spectrum of one arm
with ivar 1, eta 2, no var_lss: after `--eta-calib-ivar` ivar and weights are 1/2; the coadded spectrum, which has the
same ivar, gets the weights 1/4, and so does the one with an additive noise of zero. -/
theorem C75_eta_twice_refuted :
    let s := etaCalibIvar (fun _ => 2) ({ demoSpec with fivar := [("B", [1, 1, 1])] }.setForestWeight (fun _ => 0) (fun _ => 2))
    s.fivar = [("B", [1 / 2, 1 / 2, 1 / 2])] ∧ s.fweight = [("B", [1 / 2, 1 / 2, 1 / 2])] ∧
    (fitTail demoTailFns none true (fun _ => 0) (fun _ => 2) [s]).toOption.map (List.flatMap fun t =>
      t.fivar.arr "brz" ++ t.fweight.arr "brz") = some [1 / 2, 1 / 2, 1 / 2, 1 / 4, 1 / 4, 1 / 4] ∧
    (fitTail demoTailFns (some ⟨fun _ => 1, some (fun _ => 0)⟩) false (fun _ => 0) (fun _ => 2) [s]).toOption.map
      (List.flatMap fun t => t.fivar.arr "B" ++ t.fweight.arr "B") = some [1 / 2, 1 / 2, 1 / 2, 1 / 4, 1 / 4, 1 / 4] := by
  decide +kernel

/-- The fitter of `demoTail` that saves the value of var_lss. -/
def demoSave (v : ℚ) : FitterFns ((ℚ → ℚ) × (ℚ → ℚ)) (Spectrum ℚ) Unit Unit ℚ :=
  { demoTail v with
    dataCont := fun _ => 0
    dataFlux := fun _ => 0
    dataFluxRf := fun _ => 0
    dataVar := fun g => g.1 0
    dataStats := fun _ => 0 }

/-- A run of one rank that begins with var_lss 1 and fits `v`: the weights at the end, and what is saved. -/
def demoSaved (v : ℚ) : List (List (String × List ℚ)) × List (SaverEv (String × ℚ)) :=
  let r := runJob 0 (fun r => continuumFitting (demoSave v) demoTailCodecs id demoTailFns none false "f" 1 true r
    (fun _ => 1, fun _ => 1) [demoSpec])
  (match r.1 with
    | .done [.ok l] => l.map (fun s => s.fweight)
    | _ => [], (r.2.head?.getD []))

/-- **C75** is false without coadding as well: the weights are set by the fit of the continuum, the update of var_lss and eta
comes after it. Here var_lss 3 is fitted and saved, and the weights are those of the value 1 before. -/
theorem C75_last_update_refuted :
    (demoSaved 3).1 = [[("B", [1 / 2, 2 / 3, 1 / 2])]] ∧ SaverEv.write "f" ("VAR_FUNC", 3) ∈ (demoSaved 3).2 ∧
    (demoSaved 1).1 = (demoSaved 3).1 := by
  decide +kernel

example : Aligned (demoSpec.setForestWeight (fun _ => 1) (fun _ => 2)) ∧
    (demoSpec.setForestWeight (fun _ => 1) (fun _ => 2)).weight ≠ none ∧
    (demoSpec.setForestWeight (fun _ => 1) (fun _ => 2)).ivarSm = none ∧
    WeightsOf (fun _ => 1) (fun _ => 2) (demoSpec.setForestWeight (fun _ => 1) (fun _ => 2)) := by
  refine ⟨⟨by decide, rfl, rfl, rfl, rfl, by decide, ?_, ?_, ?_, ?_, ?_, ?_⟩, by decide +kernel, rfl,
    setForestWeight_weightsOf rfl (by decide) _ _⟩
  all_goals
    intro arm w hw
    have hm := mem_of_lookup hw
    have hm : (arm, w) ∈ [("B", [(1 : ℚ), 2, 3])] := hm
    obtain ⟨rfl, rfl⟩ := Prod.mk.inj (List.mem_singleton.mp hm)
    decide +kernel

example : (fitTail demoTailFns none true (fun _ => 1) (fun _ => 1) [demoSpec]).toOption.map (List.map (fun t =>
    (t.valid, t.chi2))) = some [(true, 1 / 2 * 9 + 2 / 3 * 16 + 1 / 2 * 25)] := by decide +kernel

end Verif.Props
