import Verif.Proofs.Shared
import Verif.Props.Interp
import Verif.Props.RankFree

/-!
# C91: the interpolators shared by the fitter and the continuum model
-/

namespace Verif.Props
open Verif Verif.Np Verif.Model Verif.Model.Prog Verif.Spec Verif.Proofs

section
variable {K Q D V : Type} [Field K] [LinearOrder K] [IsStrictOrderedRing K] [FloorRing K]

/-- **C91** (`reset`). An interpolator after `reset` is the one newly made of the table, whatever it held before and
whatever was in the memory of the new arrays. -/
theorem C91_reset (junk junk' junk2 : Nat → K) (natural : Bool) (x0 dx : K) (fp ep fp' ep' ep2 : List K)
    (hn : 4 ≤ fp'.length) :
    ((InterpObj.newCubic junk natural x0 dx fp ep).reset junk' fp' ep').call =
      (InterpObj.newCubic junk2 natural x0 dx fp' ep2).call ∧
    ((InterpObj.newCubic junk natural x0 dx fp ep).reset junk' fp' ep').fp = fp' ∧
    ((InterpObj.newCubic junk natural x0 dx fp ep).reset junk' fp' ep').ep = ep' := by
  have key : InterpObj.secondDer junk' natural fp' dx = InterpObj.secondDer junk2 natural fp' dx := by
    unfold InterpObj.secondDer toArr
    cases natural with
    | false =>
      simp only [Bool.false_eq_true, if_false]
      exact List.map_congr_left fun i hi => splineNotaknot_junk junk' junk2 hn _ dx (List.mem_range.mp hi)
    | true =>
      simp only [if_true]
      refine List.map_congr_left fun i hi => ?_
      obtain ⟨g0, g1, g⟩ := splineNatural_spec junk2 junk2 (show 2 ≤ fp'.length by omega) (fun i => fp'.getD i 0) (dxp := dx)
      exact C42_unique junk' junk' (by omega) _ g0 g1 (fun i h1 h2 => g i h1 h2) i (List.mem_range.mp hi)
  refine ⟨?_, rfl, rfl⟩
  funext x
  change ((CubicInterp.eval ⟨x0, dx, fp', InterpObj.secondDer junk' natural fp' dx⟩ x).getD 0) =
    ((CubicInterp.eval ⟨x0, dx, fp', InterpObj.secondDer junk2 natural fp' dx⟩ x).getD 0)
  rw [key]

omit [IsStrictOrderedRing K] in
/-- **C91** (`reset` of a linear interpolator). Values and errors are the new ones, the grid stays. -/
theorem C91_reset_linear (junk : Nat → K) (x0 dx : K) (fp ep fp' ep' : List K) :
    ((InterpObj.lin ⟨x0, dx, fp⟩ ep).reset junk fp' ep').call = (InterpObj.lin ⟨x0, dx, fp'⟩ ep).call ∧
    ((InterpObj.lin ⟨x0, dx, fp⟩ ep).reset junk fp' ep').grid = (x0, dx) ∧
    ((InterpObj.lin ⟨x0, dx, fp⟩ ep).reset junk fp' ep').fp = fp' ∧
    ((InterpObj.lin ⟨x0, dx, fp⟩ ep).reset junk fp' ep').ep = ep' := ⟨rfl, rfl, rfl, rfl⟩

omit [IsStrictOrderedRing K] in
/-- **C91.** The run of `iterate` on the objects, on any number of ranks and from the objects of the constructor, is the
run of the fitter by value, in which every fit of a spectrum uses the mean continuum, the variance and eta of the last
update: the same spectra, the same iterations and the same tables in the attributes file. `fiducial` is the table of
`--fiducial-varlss`; without it the variance is fit in the iterations. -/
theorem C91_by_value (C : FullCfg K) (P : VarPart K Q) (table : List (List K) → D) (stats : Q → D)
    (fiducial : Option (LinInterp K)) (q : Q) (c : FitterCodecs (StackSums K) Q V) (fname : String) (niter n : Nat)
    (specs : Nat → List (Spectrum K)) :
    let objs := runJob n (fun r => (FitObjs.fns C P table stats).iterate c fname niter fiducial.isNone r
      (FitObjs.new C P fiducial q) (specs r))
    let vals := runJob n (fun r => (FitVals.fns C P table stats).iterate c fname niter fiducial.isNone r
      (FitVals.new C P fiducial q) (specs r))
    SameOutcome (SameFunctions C) objs.1 vals.1 ∧ objs.2 = vals.2 := by
  intro objs vals
  refine runJob_rel fun r _ => ?_
  have h := (sim_objs (C := C) (P := P) fiducial.isNone ((FitObjs.new C P fiducial q).obj 1)
    ((FitObjs.new C P fiducial q).obj 2) table stats).iterate c fname niter r (new_rel fiducial q) (specs r)
  refine h.mono ?_
  rintro a b ⟨hab, h2⟩
  have hl : Link C a.1 b.1 := by
    cases hf : fiducial.isNone with
    | true => rw [hf] at hab; exact hab.1
    | false => rw [hf] at hab; exact hab.1
  exact ⟨h2, by rw [hl.mean]; rfl, hl.var.1, hl.eta.1⟩

omit [IsStrictOrderedRing K] in
theorem resultsOf_rel {A B : Type} {S : A → B → Prop} {x : Outcome A} {y : Outcome B} (h : SameOutcome S x y) :
    ∀ a ∈ resultsOf x, ∃ b, S a b := by
  intro a ha
  cases x with
  | done l =>
    cases y with
    | done l' =>
      obtain ⟨e, he, hea⟩ := List.mem_filterMap.mp ha
      have hex : ∃ e', SameResult S e e' := by
        have h' : List.Forall₂ (SameResult S) l l' := h
        clear ha h
        induction h' with
        | nil => cases he
        | @cons u v _ _ huv _ ih =>
          rcases List.mem_cons.mp he with rfl | he
          · exact ⟨v, huv⟩
          · exact ih he
      obtain ⟨e', hee⟩ := hex
      cases e with
      | error _ => cases hea
      | ok a' =>
        cases hea
        cases e' with
        | error _ => exact absurd hee id
        | ok b => exact ⟨b, hee⟩
    | _ => exact absurd h id
  | _ => cases ha

/-- **C91** (`fit_final_varlss`). After `iterate`, on every rank: the continuum model has the mean continuum of the
fitter. If the variance was fit in the iterations, then it has the variance and eta of the fitter too. With a fiducial
table the final fit of the variance has not reached the model: its variance is the table, and eta is one. -/
theorem C91_model (C : FullCfg K) (P : VarPart K Q) (table : List (List K) → D) (stats : Q → D)
    (fiducial : Option (LinInterp K)) (q : Q) (c : FitterCodecs (StackSums K) Q V) (fname : String) (niter n : Nat)
    (specs : Nat → List (Spectrum K)) :
    ∀ x ∈ resultsOf (runJob n (fun r => (FitObjs.fns C P table stats).iterate c fname niter fiducial.isNone r
      (FitObjs.new C P fiducial q) (specs r))).1,
    (x.1.obj x.1.model.mean).call = (x.1.obj x.1.fitter.mean).call ∧
    (fiducial = none → (x.1.obj x.1.model.var).call = (x.1.obj x.1.fitter.var).call ∧
      (x.1.obj x.1.model.eta).call = (x.1.obj x.1.fitter.eta).call) ∧
    (∀ f, fiducial = some f → (∀ w, (x.1.obj x.1.model.var).call w = (f.eval w).getD 0) ∧
      (f.dxp ≠ 0 → 4 ≤ f.fp.length → ∀ w, (x.1.obj x.1.model.eta).call w = 1)) := by
  intro x hx
  have h : SameOutcome _ _ _ ∧ _ := runJob_rel (n := n) fun r _ => (sim_objs (C := C) (P := P) fiducial.isNone
    ((FitObjs.new C P fiducial q).obj 1) ((FitObjs.new C P fiducial q).obj 2) table stats).iterate c fname niter r
      (new_rel fiducial q) (specs r)
  obtain ⟨y, hy, -⟩ := resultsOf_rel h.1 x hx
  cases fiducial with
  | none =>
    have hm : x.1.model = x.1.fitter := hy.2.1
    rw [hm]
    exact ⟨rfl, fun _ => ⟨rfl, rfl⟩, (fun f hf => (by cases hf))⟩
  | some f =>
    obtain ⟨-, -, h3, -, h5, h6⟩ := hy
    refine ⟨by rw [h3], (fun hf => (by cases hf)), ?_⟩
    rintro f' hf
    cases hf
    refine ⟨fun w => by rw [h5]; rfl, fun hd hn w => ?_⟩
    rw [h6]
    change ((CubicInterp.notaknot C.junk f.xp0 f.dxp (List.replicate f.fp.length 1)).eval w).getD 0 = 1
    rw [C43_linear C.junk hd (by simpa using hn) (a := 1) (b := 0) (by
      intro k y hk
      rw [List.getElem?_replicate] at hk
      split at hk
      · cases hk; ring
      · cases hk) w]
    simp

end

/-! ### Concrete cases -/

/-- A spline made of one table and reset to another one. -/
example : ((InterpObj.newCubic (fun _ => 7) true 0 1 [5, 5, 5, 5] []).reset (fun _ => 9) [0, 1, 0, 1] [] : InterpObj ℚ).call
      (1 / 2) = 3 / 4 ∧ ((InterpObj.newCubic (fun _ => 7) false 0 1 [5, 5, 5, 5] []).reset (fun _ => 9) [0, 1, 0, 1] [] :
      InterpObj ℚ).call (1 / 2) = 1 := by
  decide +kernel

/-- A variance fitter that always finds `v`. -/
def c91Var (v : ℚ) : VarPart ℚ Unit where
  x0 := 3302
  dx := 8
  n := 4
  fitEta := true
  acc _ _ := ()
  add _ := ()
  solve _ _ _ := ((List.replicate 4 v, List.replicate 4 0), (List.replicate 4 (v + 1), List.replicate 4 0))

/-- Weights after two iterations, and variance and eta of the continuum model. -/
def c91Job (v : ℚ) (fiducial : Option (LinInterp ℚ)) : List (List (Dict (List ℚ)) × ℚ × ℚ × ℚ) :=
  (resultsOf (runJob 0 (fun r => (FitObjs.fns c86Cfg (c91Var v) id (fun _ => [])).iterate c86Codecs "" 2
      fiducial.isNone r (FitObjs.new c86Cfg (c91Var v) fiducial ()) [c86Spec2, c52Spec])).1).map
    (fun x => (x.2.1.map (fun s => s.fweight), (x.1.obj x.1.model.var).call 3310, (x.1.obj x.1.model.eta).call 3310,
      (x.1.obj x.1.fitter.var).call 3310))

/-- The second iteration uses what was fit in the first one: other weights for another fit of the variance. With a
fiducial table the fits have no effect on weights or model, but the fitter has the new variance. -/
example : (c91Job 2 none).map (·.2) = [(2, 3, 2)] ∧ (c91Job 4 none).map (·.2) = [(4, 5, 4)] ∧
    (c91Job 2 none).map (·.1) ≠ (c91Job 4 none).map (·.1) ∧
    (c91Job 2 (some ⟨3300, 10, [1, 1, 1, 1]⟩)).map (·.2) = [(1, 1, 2)] ∧
    (c91Job 4 (some ⟨3300, 10, [1, 1, 1, 1]⟩)).map (·.2) = [(1, 1, 4)] ∧
    (c91Job 2 (some ⟨3300, 10, [1, 1, 1, 1]⟩)).map (·.1) = (c91Job 4 (some ⟨3300, 10, [1, 1, 1, 1]⟩)).map (·.1) := by
  decide +kernel

end Verif.Props
