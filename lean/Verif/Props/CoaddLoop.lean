import Verif.Proofs.CoaddLoop
import Verif.Props.RankFree
import Verif.Model.VarLss

/-!
# C123: the whole fit with and without coadded arms
-/

namespace Verif.Props
open Verif.Np Verif.Model Verif.Model.Prog Verif.Spec Verif.Proofs Spectrum

variable {K : Type} [Field K] [LinearOrder K] [IsStrictOrderedRing K] [FloorRing K]

/-- **C123.** The iterations with given `var_lss` and `eta`, on any number of ranks, followed by the normalization with the
stacked flux and the calibration of the inverse variance. The quasars of `l'` are those of `l` with coadded arms. The arms
lie on one grid without gap, and no two good pixels are in one cell. Then both runs do the same number of iterations, write
the same, end with the same mean continuum and the same stacks or the same exception, and every quasar has the same good
pixels with the same flux, inverse variance, weight and continuum. -/
theorem C123_given_variance {C : FullCfg K} {Q D V : Type} {P : FitterFns (FullState K) (Spectrum K) (StackSums K) Q D}
    (c : FitterCodecs (StackSums K) Q V) (s : Nat → Saver) (niter n : Nat) {g : FullState K} (hg : GoodVar g)
    (l l' : Nat → List (Spectrum K)) (hl : ∀ r ≤ n, ∀ u ∈ l r, DisjointArms C u)
    (hc : ∀ r ≤ n, List.Forall₂ IsCoaddOf (l r) (l' r)) :
    let job := fun (l : Nat → List (Spectrum K)) => runJob n (fun r =>
      ((C.fns P).iterLoop c (s r) r false niter 0 g (l r)).bind fun x =>
        .ret (x.1, (C.fns P).tweak x.1 x.2.1, x.2.2))
    SameOutcome (fun x y => x.1 = y.1 ∧ List.Forall₂ SamePixels x.2.1 y.2.1 ∧ x.2.2 = y.2.2) (job l).1 (job l').1 ∧
      (job l).2 = (job l').2 := by
  dsimp only
  exact runJob_rel fun r hr => loop_tweak_coadd c (s r) niter r hg (pairs_of (hl r hr) (hc r hr))

/-- **C123.** All of `iterate`, also where the variance is fitted: for variance fitters that use the good pixels of a quasar
but not in which arm they are. Missing: the fitter of the code, which counts arms and not quasars (`C123_refuted`). -/
theorem C123_partial {C : FullCfg K} {Q D V : Type} {P : FitterFns (FullState K) (Spectrum K) (StackSums K) Q D}
    (hP : SeesPixels P) (c : FitterCodecs (StackSums K) Q V) (fname : String) (niter : Nat) (hasFitter : Bool)
    (hgood : hasFitter = true → ∀ g q, GoodVar g → GoodVar (P.varUpd g q)) (n : Nat) {g : FullState K} (hg : GoodVar g)
    (l l' : Nat → List (Spectrum K)) (hl : ∀ r ≤ n, ∀ u ∈ l r, DisjointArms C u)
    (hc : ∀ r ≤ n, List.Forall₂ IsCoaddOf (l r) (l' r)) :
    let job := fun (l : Nat → List (Spectrum K)) => runJob n (fun r => (C.fns P).iterate c fname niter hasFitter r g (l r))
    SameOutcome (fun x y => x.1 = y.1 ∧ List.Forall₂ SamePixels x.2.1 y.2.1 ∧ x.2.2 = y.2.2) (job l).1 (job l').1 ∧
      (job l).2 = (job l').2 := by
  dsimp only
  exact runJob_rel fun r hr => iterate_coadd c hP fname niter r hasFitter hgood hg (pairs_of (hl r hr) (hc r hr))

/-- Every quasar of this kind can be coadded. -/
theorem C123_coadds {C : FullCfg K} {u : Spectrum K} (h : DisjointArms C u) : ∃ t, IsCoaddOf u t := by
  obtain ⟨hb, -, lo, hi, n, hg, -⟩ := h
  obtain ⟨t, ht, -⟩ := C122_cost hb hg id (fun v _ => v) (fun _ => 0) 0 0 id id
  exact ⟨t, _, _, _, _, _, _, _, ht⟩

/-! ### An example, and the fitter of the code -/

/-- The second pixel of the arm B is masked. -/
def c123Spec : Spectrum ℚ :=
  { c122Spec with fflux := [("B", [1, 5]), ("R", [2, 3])], fivar := [("B", [1, 0]), ("R", [3, 1])] }

/-- A state with variance of large-scale structure. -/
def c123State : FullState ℚ := { c122State with varlss := fun _ => 1, eta := fun _ => 2 }

theorem c123_disjoint : DisjointArms c122Cfg c123Spec := by
  have hb : BeforeFit c123Spec := by
    refine ⟨?_, ?_, rfl, rfl, le_refl _, rfl⟩
    · constructor
      case resoArm => intro r hr; cases hr
      case resoParity => intro r hr; cases hr
      all_goals decide +kernel
    · have all : ∀ x ∈ c123Spec.fwave, x.2.Pairwise (· < ·) ∧ (c123Spec.fflux.arr x.1).length = x.2.length ∧
          (c123Spec.fivar.arr x.1).length = x.2.length ∧ (c123Spec.fivarSm.arr x.1).length = x.2.length ∧
          (c123Spec.fweight.arr x.1).length = x.2.length ∧ ∀ r ∈ c123Spec.freso.arr x.1, r.length = x.2.length := by
        decide +kernel
      have all' := fun arm w (hw : c123Spec.fwave.lookup arm = some w) => all (arm, w) (mem_of_lookup hw)
      exact ⟨by decide +kernel, rfl, rfl, rfl, rfl, fun a ha => (by cases ha), fun a w hw => (all' a w hw).1,
        fun a w hw => (all' a w hw).2.1, fun a w hw => (all' a w hw).2.2.1, fun a w hw => (all' a w hw).2.2.2.1,
        fun a w hw => (all' a w hw).2.2.2.2.1, fun a w hw => (all' a w hw).2.2.2.2.2⟩
  refine ⟨hb, by decide +kernel, 100, 102, 2, ?_, by decide +kernel⟩
  have h := C122_grid hb.ok (lo := 100) (n := 2)
    ⟨("B", [100, 101]), by decide +kernel, by decide +kernel⟩ ⟨("R", [101, 102]), by decide +kernel, by decide +kernel⟩
    (by
      rintro w ⟨x, hx, hw⟩
      have : ∀ x ∈ c123Spec.fwave, ∀ w ∈ x.2, w = 100 ∨ w = 101 ∨ w = 102 := by decide +kernel
      rcases this x hx w hw with rfl | rfl | rfl
      · exact ⟨0, by decide +kernel⟩
      · exact ⟨1, by decide +kernel⟩
      · exact ⟨2, by decide +kernel⟩)
  have e : (100 : ℚ) + ((2 : Nat) : ℚ) * c123Spec.dwave = 102 := by decide +kernel
  rwa [e] at h

/-- The coadded spectrum. -/
def c123Coadd : Spectrum ℚ :=
  (c123Spec.coaddArmsForest id (fun v _ => v) (fun _ => 0) 0 0 (fun _ => 1) (fun _ => 1)).toOption.getD c123Spec

theorem c123_coadd : IsCoaddOf c123Spec c123Coadd := by
  refine ⟨id, fun v _ => v, fun _ => 0, 0, 0, fun _ => 1, fun _ => 1, ?_⟩
  unfold c123Coadd
  cases h : c123Spec.coaddArmsForest id (fun v _ => v) (fun _ => 0) 0 0 (fun _ => 1) (fun _ => 1) with
  | ok t => rfl
  | error e =>
    have : (c123Spec.coaddArmsForest id (fun v _ => v) (fun _ => 0) 0 0 (fun _ => 1) (fun _ => 1)).toOption.isSome = true := by
      decide +kernel
    rw [h] at this
    cases this

/-- The hypotheses of `C123_given_variance`; the fits are valid and the pixels are not trivial. -/
example : DisjointArms c122Cfg c123Spec ∧ List.Forall₂ IsCoaddOf [c123Spec] [c123Coadd] ∧ GoodVar c123State ∧
    (c122Cfg.fitOne c123State c123Spec).valid = true ∧
    (goodData (c122Cfg.fitOne c123State c123Coadd)).map (fun p => (p.wave, p.flux, p.ivar)) =
      [(100, 1, 1), (101, 2, 3), (102, 3, 1)] :=
  ⟨c123_disjoint, .cons c123_coadd .nil, fun _ => ⟨zero_le_one, two_pos⟩, by decide +kernel, by decide +kernel⟩

/-- The statistics of the variance fitter (bins of the wavelength from 99 to 103 and one bin of the inverse variance),
filled as in the code: one call of `add` for every arm. -/
def c123Var : FitterFns (FullState ℚ) (Spectrum ℚ) (StackSums ℚ) (List Nat) (List ℚ) :=
  { c86Var with
    varAcc := fun rank _ l => ((VarLss.new (n := 2) ⟨99, 103, 1, 1, [0, 10]⟩ (by decide) rank 1).addSpectra
      (l.map (fun s => (varInput s).map (List.map fun p => ⟨p.1, p.2.1, p.2.2⟩)))).1.numQsos
    addQ := fun l => l.headD [], varUpd := fun g _ => g }

/-- **C123.** The variance fitter of the code is not of this kind: with two arms the quasar counts twice. -/
theorem C123_refuted : ¬ SeesPixels c123Var := by
  intro h
  have key := h 0 c123State [c122Cfg.fitOne c123State c123Spec] [c122Cfg.fitOne c123State c123Coadd]
    (.cons (pair_fit ⟨c123_disjoint, c123_coadd⟩ fun _ => ⟨zero_le_one, two_pos⟩).1 .nil)
  have e1 : c123Var.varAcc 0 c123State [c122Cfg.fitOne c123State c123Spec] = [2] := by decide +kernel
  have e2 : c123Var.varAcc 0 c123State [c122Cfg.fitOne c123State c123Coadd] = [1] := by decide +kernel
  rw [e1, e2] at key
  cases key

/-- A variance fitter of this kind, as `C123_partial` asks for. -/
example : SeesPixels c86Var ∧ ∀ g q, GoodVar g → GoodVar (c86Var.varUpd g q) := ⟨fun _ _ _ _ _ => rfl, fun _ _ h => h⟩

/-- Two quasars with `C123_partial` on one rank: both are fitted. -/
example : ∀ u ∈ [c123Spec, c123Spec], DisjointArms c122Cfg u := by
  intro u hu
  have : u = c123Spec := by simpa using hu
  exact this ▸ c123_disjoint

end Verif.Props
