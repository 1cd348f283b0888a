import Verif.Proofs.CoaddTail
import Verif.Props.CoaddLoop

/-!
# C124: `--coadd-arms before` and `--coadd-arms after` in the whole fit
-/

namespace Verif.Props
open Verif.Np Verif.Model Verif.Model.Prog Verif.Spec Verif.Proofs Spectrum

variable {K : Type} [Field K] [LinearOrder K] [IsStrictOrderedRing K] [FloorRing K]

/-- **C124.** Given `var_lss` and `eta`, at least one iteration, any number of ranks: the iterations on the arms `l` followed
by normalization, calibration with eta and `--coadd-arms after`, and those on the spectra `l'` with arms coadded before.
The arms of a quasar lie on one grid without gap, with no two good pixels in one cell. Both raise the same exception, or both
end with the same valid quasars, each with one arm `brz` and the same wavelengths, flux, inverse variance and continuum,
whatever variances `vl`, `eta` the weights of the coadd are calculated with. They write the same files. -/
theorem C124_given_variance {C : FullCfg K} {Q D V : Type} {P : FitterFns (FullState K) (Spectrum K) (StackSums K) Q D}
    (c : FitterCodecs (StackSums K) Q V) (s : Nat → Saver) (T : TailFns K) (niter n : Nat) (vl eta : K → K)
    {g : FullState K} (hg : GoodVar g) (l l' : Nat → List (Spectrum K)) (hl : ∀ r ≤ n, ∀ u ∈ l r, DisjointArms C u)
    (hc : ∀ r ≤ n, List.Forall₂ IsCoaddOf (l r) (l' r)) :
    let job := fun (after : Bool) (l : Nat → List (Spectrum K)) => runJob n (fun r =>
      ((C.fns P).iterLoop c (s r) r false (niter + 1) 0 g (l r)).bind fun x =>
        ofExcept (fitTail T none after vl eta (((C.fns P).tweak x.1 x.2.1).filter (fun s => (C.fns P).valid s))))
    SameOutcome (List.Forall₂ SameForest) (job true l).1 (job false l').1 ∧ (job true l).2 = (job false l').2 := by
  dsimp only
  exact runJob_rel fun r hr => loop_tail_coadd c (s r) T niter r vl eta hg (pairs_of (hl r hr) (hc r hr))

/-- **C124.** All of `mpi_continuum_fitting`, with or without a fit of the variance in the iterations, for variance
fitters that use the good pixels but not the arms. Missing: the fitter of the code (`C123_refuted`), additive noise
calibration, and the weights, which are not the same (`C124_weights_refuted`). -/
theorem C124_partial {C : FullCfg K} {Q D V : Type} {P : FitterFns (FullState K) (Spectrum K) (StackSums K) Q D}
    (hP : SeesPixels P) (c : FitterCodecs (StackSums K) Q V) (interps : FullState K → (K → K) × (K → K)) (T : TailFns K)
    (fname : String) (niter : Nat) (hasFitter : Bool)
    (hgood : hasFitter = true → ∀ g q, GoodVar g → GoodVar (P.varUpd g q)) (n : Nat) {g : FullState K} (hg : GoodVar g)
    (l l' : Nat → List (Spectrum K)) (hl : ∀ r ≤ n, ∀ u ∈ l r, DisjointArms C u)
    (hc : ∀ r ≤ n, List.Forall₂ IsCoaddOf (l r) (l' r)) :
    let job := fun (after : Bool) (l : Nat → List (Spectrum K)) => runJob n (fun r =>
      continuumFitting (C.fns P) c interps T none after fname (niter + 1) hasFitter r g (l r))
    SameOutcome (List.Forall₂ SameForest) (job true l).1 (job false l').1 ∧ (job true l).2 = (job false l').2 := by
  dsimp only
  exact runJob_rel fun r hr =>
    continuumFitting_coadd c hP interps T fname niter r hasFitter hgood hg (pairs_of (hl r hr) (hc r hr))

/-! ### Examples -/

/-- Functions for the example. -/
def c124Tail : TailFns ℚ := ⟨id, fun v _ => v, fun _ => 0, 0, 0⟩

/-- The settings with `--eta-calib-ivar`. -/
def c124Cfg : FullCfg ℚ := { c122Cfg with etaCalib := true }

theorem c124_disjoint : DisjointArms c124Cfg c123Spec := c123_disjoint

/-- The hypotheses hold for a quasar whose fit is valid. -/
example : DisjointArms c124Cfg c123Spec ∧ List.Forall₂ IsCoaddOf [c123Spec] [c123Coadd] ∧ GoodVar c123State ∧
    (c124Cfg.fitOne c123State c123Spec).valid = true ∧ SeesPixels c86Var :=
  ⟨c124_disjoint, .cons c123_coadd .nil, fun _ => ⟨zero_le_one, two_pos⟩, by decide +kernel, fun _ _ _ _ _ => rfl⟩

/-- The two spectra of the example, with the inverse variance divided by eta. -/
example : (((fitTail c124Tail none true c123State.varlss c123State.eta
      [etaCalibIvar c123State.eta (c124Cfg.fitOne c123State c123Spec)]).toOption.getD []).map
        (fun s => (s.fwave, s.fflux.arr "brz", s.fivar.arr "brz"))) =
      [([("brz", [100, 101, 102])], [1, 2, 3], [1 / 2, 3 / 2, 1 / 2])] ∧
    (((fitTail c124Tail none false c123State.varlss c123State.eta
      [etaCalibIvar c123State.eta (c124Cfg.fitOne c123State c123Coadd)]).toOption.getD []).map
        (fun s => (s.fwave, s.fflux.arr "brz", s.fivar.arr "brz"))) =
      [([("brz", [100, 101, 102])], [1, 2, 3], [1 / 2, 3 / 2, 1 / 2])] := by
  decide +kernel

/-- **C124.** The weights are not the same with `--eta-calib-ivar`, even with the given variance: coadding after the fit
divides by eta once more. -/
theorem C124_weights_refuted : ∃ (C : FullCfg ℚ) (g : FullState ℚ) (T : TailFns ℚ) (u t s : Spectrum ℚ),
    DisjointArms C u ∧ IsCoaddOf u t ∧ GoodVar g ∧
    fitTail T none true g.varlss g.eta [etaCalibIvar g.eta (C.fitOne g u)] = .ok [s] ∧
    SameForest s (etaCalibIvar g.eta (C.fitOne g t)) ∧
    s.fweight.arr "brz" ≠ (etaCalibIvar g.eta (C.fitOne g t)).fweight.arr "brz" := by
  have hg : GoodVar c123State := fun _ => ⟨zero_le_one, two_pos⟩
  have hp := (pair_tuned ⟨c124_disjoint, c123_coadd⟩ hg).eta hg
  have h := tailCoadd_same c124Tail c123State.varlss c123State.eta (.cons hp .nil) (by
    intro s hs
    obtain rfl := List.mem_singleton.mp hs
    decide +kernel)
  have hw : ((fitTail c124Tail none true c123State.varlss c123State.eta
      [etaCalibIvar c123State.eta (c124Cfg.fitOne c123State c123Spec)]).toOption.getD []).all (fun s =>
        s.fweight.arr "brz" ≠ (etaCalibIvar c123State.eta (c124Cfg.fitOne c123State c123Coadd)).fweight.arr "brz") = true := by
    decide +kernel
  cases hx : fitTail c124Tail none true c123State.varlss c123State.eta
      [etaCalibIvar c123State.eta (c124Cfg.fitOne c123State c123Spec)] with
  | error e =>
    rw [hx] at h
    exact h.elim
  | ok r =>
    rw [hx] at h hw
    have h : List.Forall₂ SameForest r [etaCalibIvar c123State.eta (c124Cfg.fitOne c123State c123Coadd)] := h
    cases h with
    | cons hab hnil =>
      cases hnil
      refine ⟨c124Cfg, c123State, c124Tail, c123Spec, c123Coadd, _, c124_disjoint, c123_coadd, hg, hx, hab, ?_⟩
      have := List.all_eq_true.mp hw _ List.mem_cons_self
      simpa using this

end Verif.Props
