import Verif.Proofs.RelProg
import Verif.Spec.Shared

/-!
# Lemmas: fitters with related states
-/

namespace Verif.Proofs
open Verif Verif.Model Verif.Model.Prog Verif.Spec

theorem RelP.mono {V W A B : Type} {R S : A → B → Prop} {p : Prog V W A} {q : Prog V W B} (h : RelP R p q)
    (hS : ∀ a b, R a b → S a b) : RelP S p q := by
  induction h with
  | ret h => exact .ret (hS _ _ h)
  | raise e => exact .raise e
  | abort => exact .abort
  | emit w _ ih => exact .emit w ih
  | bcast v _ ih => exact .bcast v ih
  | scatter v _ ih => exact .scatter v ih
  | gather v _ ih => exact .gather v ih
  | reduce op v _ ih => exact .reduce op v ih
  | allreduce op v _ ih => exact .allreduce op v ih

section
variable {G G' Sp R Q D V : Type}

/-- Two fitters whose states are in the relation `L` during the iterations, and in `N` after `fit_final_varlss`. -/
structure SimFns (F : FitterFns G Sp R Q D) (F' : FitterFns G' Sp R Q D) (hf : Bool) (L N : G → G' → Prop) : Prop where
  fit : ∀ g g', L g g' → F.fitOne g = F'.fitOne g'
  valid : F.valid = F'.valid
  stack : ∀ g g' l, F.stack g l = F'.stack g' l
  addR : F.addR = F'.addR
  meanL : ∀ g g' t, L g g' → L (F.meanUpd g t).1 (F'.meanUpd g' t).1 ∧ (F.meanUpd g t).2 = (F'.meanUpd g' t).2
  meanN : ∀ g g' t, N g g' → N (F.meanUpd g t).1 (F'.meanUpd g' t).1 ∧ (F.meanUpd g t).2 = (F'.meanUpd g' t).2
  acc : ∀ r g g' l, F.varAcc r g l = F'.varAcc r g' l
  addQ : F.addQ = F'.addQ
  varL : hf = true → ∀ g g' q, L g g' → L (F.varUpd g q) (F'.varUpd g' q)
  varN : hf = false → ∀ g g' q, N g g' → N (F.varUpd g q) (F'.varUpd g' q)
  new : hf = false → ∀ g g', L g g' → N (F.newVar g) (F'.newVar g')
  norm : ∀ g g', L g g' → F.normalize g = F'.normalize g'
  eta : ∀ g g', L g g' → F.etaCalib g = F'.etaCalib g'
  cont : ∀ g g', L g g' ∨ N g g' → F.dataCont g = F'.dataCont g'
  flux : ∀ g g', L g g' ∨ N g g' → F.dataFlux g = F'.dataFlux g'
  fluxRf : ∀ g g', L g g' ∨ N g g' → F.dataFluxRf g = F'.dataFluxRf g'
  var : ∀ g g', L g g' ∨ N g g' → F.dataVar g = F'.dataVar g'
  stats : ∀ g g', L g g' ∨ N g g' → F.dataStats g = F'.dataStats g'

variable {F : FitterFns G Sp R Q D} {F' : FitterFns G' Sp R Q D} {hf : Bool} {L N : G → G' → Prop}
  (h : SimFns F F' hf L N) (c : FitterCodecs R Q V)

include h

theorem SimFns.fitContinua {W : Type} {g : G} {g' : G'} (hg : L g g') (l : List Sp) :
    RelP (V := V) (W := W) (fun x y => x = y) (F.fitContinua c g l) (F'.fitContinua c g' l) := by
  unfold FitterFns.fitContinua
  dsimp only
  rw [h.fit g g' hg, h.valid]
  refine .allreduce _ _ fun x => .allreduce _ _ fun z => ?_
  split
  · exact .raise _
  · exact .ret rfl

theorem SimFns.saveEv {g : G} {g' : G'} (hg : L g g' ∨ N g g') (s : Saver) (b : Bool) (suff : String) :
    F.saveEv s b suff g = F'.saveEv s b suff g' := by
  unfold FitterFns.saveEv FitterFns.saveExts
  rw [h.cont g g' hg, h.flux g g' hg, h.fluxRf g g' hg, h.var g g' hg]

theorem SimFns.meanContL {W : Type} {g : G} {g' : G'} (hg : L g g') (l : List Sp) :
    RelP (V := V) (W := W) (fun x y => L x.1 y.1 ∧ x.2 = y.2) (F.updateMeanCont c g l) (F'.updateMeanCont c g' l) := by
  unfold FitterFns.updateMeanCont
  rw [h.valid, h.stack g g', h.addR]
  exact .allreduce _ _ fun x => .ret (h.meanL g g' _ hg)

theorem SimFns.meanContN {W : Type} {g : G} {g' : G'} (hg : N g g') (l : List Sp) :
    RelP (V := V) (W := W) (fun x y => N x.1 y.1 ∧ x.2 = y.2) (F.updateMeanCont c g l) (F'.updateMeanCont c g' l) := by
  unfold FitterFns.updateMeanCont
  rw [h.valid, h.stack g g', h.addR]
  exact .allreduce _ _ fun x => .ret (h.meanN g g' _ hg)

theorem SimFns.varStep {W : Type} (rank : Nat) {g : G} {g' : G'} (hg : L g g') (l : List Sp) :
    RelP (V := V) (W := W) (fun x y => L x y) (F.varStep c rank hf g l) (F'.varStep c rank hf g' l) := by
  unfold FitterFns.varStep
  cases hhf : hf with
  | false => exact .ret hg
  | true =>
    rw [if_pos rfl, if_pos rfl]
    unfold FitterFns.updateVarLssEta
    rw [h.valid, h.acc rank g g', h.addQ]
    exact .allreduce _ _ fun x => .ret (h.varL hhf g g' _ hg)

theorem SimFns.iterLoop (s : Saver) (rank : Nat) (k it : Nat) {g : G} {g' : G'} (hg : L g g') (l : List Sp) :
    RelP (fun x y => L x.1 y.1 ∧ x.2 = y.2) (F.iterLoop c s rank hf k it g l) (F'.iterLoop c s rank hf k it g' l) := by
  induction k generalizing it g g' l with
  | zero => exact .ret ⟨hg, rfl⟩
  | succ k ih =>
    unfold FitterFns.iterLoop
    rw [h.saveEv (.inl hg)]
    refine RelP.emits ?_ _
    refine (h.fitContinua c hg l).bind ?_
    rintro f f' rfl
    refine (h.meanContL c hg f.1).bind ?_
    rintro m m' ⟨hm, hb⟩
    refine (h.varStep c rank hm f.1).bind ?_
    intro g2 g2' hg2
    rw [hb]
    cases m'.2 with
    | true => exact .ret ⟨hg2, rfl⟩
    | false => exact ih (it + 1) hg2 f.1

/-- The two fitters write the same files and give the same spectra. -/
theorem SimFns.iterate (fname : String) (niter rank : Nat) {g : G} {g' : G'} (hg : L g g') (l : List Sp) :
    RelP (fun x y => (if hf then L x.1 y.1 else N x.1 y.1) ∧ x.2 = y.2)
      (F.iterate c fname niter hf rank g l) (F'.iterate c fname niter hf rank g' l) := by
  unfold FitterFns.iterate
  dsimp only
  refine RelP.emits ?_ _
  refine (h.iterLoop c _ rank niter 0 hg l).bind ?_
  rintro ⟨g1, l1⟩ ⟨g1', l1'⟩ ⟨hg1, hl1⟩
  dsimp only at hg1 hl1 ⊢
  subst hl1
  rw [h.saveEv (.inl hg1)]
  refine RelP.emits ?_ _
  have ht : F.tweak g1 l1.1 = F'.tweak g1' l1.1 := by
    unfold FitterFns.tweak
    rw [h.valid, h.norm g1 g1' hg1, h.eta g1 g1' hg1]
  rw [ht]
  generalize F'.tweak g1' l1.1 = t
  have hv : RelP (V := V) (fun x y => if hf then L x y else N x y)
      (F.finalVar c (Saver.init (D := String × D) fname rank).2 rank hf g1 t)
      (F'.finalVar c (Saver.init (D := String × D) fname rank).2 rank hf g1' t) := by
    unfold FitterFns.finalVar
    cases hhf : hf with
    | true => exact .ret hg1
    | false =>
      simp only [Bool.false_eq_true, if_false]
      refine RelP.bind (R := fun x y => N x y) ?_ ?_
      · unfold FitterFns.fitFinalVarlss
        refine RelP.bind (R := fun x y => N x y) ?_ ?_
        · unfold FitterFns.updateVarLssEta
          rw [h.valid, h.acc rank (F.newVar g1) (F'.newVar g1'), h.addQ]
          exact .allreduce _ _ fun x => .ret (h.varN hhf _ _ _ (h.new hhf _ _ hg1))
        · intro a b hab
          exact (h.meanContN c hab t).bind fun x y hxy => .ret hxy.1
      · intro a b hab
        rw [h.saveEv (.inr hab)]
        exact RelP.emits (.ret hab) _
  refine hv.bind ?_
  intro a b hab
  have hs : F.dataStats a = F'.dataStats b := by
    refine h.stats a b ?_
    cases hf with
    | true => exact .inl hab
    | false => exact .inr hab
  rw [hs]
  exact RelP.emits (.ret ⟨hab, rfl⟩) _

end

section
variable {K Q D : Type} [Field K] [LinearOrder K] [FloorRing K] {C : FullCfg K} {P : VarPart K Q}

omit [LinearOrder K] [FloorRing K] in
theorem obj_resetAt_self {w : FitObjs K Q} {r : Nat} (hr : r < w.heap.length) (fp ep : List K) :
    (w.resetAt C r fp ep).obj r = (w.obj r).reset C.junk fp ep := by
  unfold FitObjs.obj FitObjs.resetAt
  simp only [List.getD_eq_getElem?_getD, List.getElem?_modify, if_true]
  rw [List.getElem?_eq_getElem hr]
  rfl

omit [LinearOrder K] [FloorRing K] in
theorem obj_resetAt_ne {w : FitObjs K Q} {r r' : Nat} (hr : r ≠ r') (fp ep : List K) :
    (w.resetAt C r fp ep).obj r' = w.obj r' := by
  unfold FitObjs.obj FitObjs.resetAt
  simp only [List.getD_eq_getElem?_getD, List.getElem?_modify, if_neg hr]
  simp

omit [LinearOrder K] [FloorRing K] in
theorem obj_append {w : FitObjs K Q} {r : Nat} (hr : r < w.heap.length) (l : List (InterpObj K)) (f : FitRefs) :
    ({ w with heap := w.heap ++ l, fitter := f } : FitObjs K Q).obj r = w.obj r := by
  unfold FitObjs.obj
  simp only [List.getD_eq_getElem?_getD, List.getElem?_append_left hr]

omit [LinearOrder K] [FloorRing K] in
theorem reset_newCubic (junk : Nat → K) (nat : Bool) (x0 dx : K) (fp ep fp' ep' : List K) :
    (InterpObj.newCubic junk nat x0 dx fp ep).reset junk fp' ep' = .newCubic junk nat x0 dx fp' ep' := rfl

theorem call_newCubic (junk : Nat → K) (x0 dx : K) (fp ep : List K) :
    (InterpObj.newCubic junk false x0 dx fp ep).call = Spectrum.dataInterp junk (x0, dx, fp) := rfl

/-- What the fitter sees of its objects is the state by value. -/
structure Link (C : FullCfg K) (w : FitObjs K Q) (g : FitVals K Q) : Prop where
  ltMean : w.fitter.mean < w.heap.length
  ltVar : w.fitter.var < w.heap.length
  ltEta : w.fitter.eta < w.heap.length
  meanVar : w.fitter.mean ≠ w.fitter.var
  meanEta : w.fitter.mean ≠ w.fitter.eta
  varEta : w.fitter.var ≠ w.fitter.eta
  mean : w.obj w.fitter.mean = .newCubic C.junk false C.rf.x0 C.rf.dx g.full.cont g.full.contErr
  var : (w.obj w.fitter.var).call = g.full.varlss ∧ (w.obj w.fitter.var).fp = g.varFp ∧ (w.obj w.fitter.var).ep = g.varEp
  eta : (w.obj w.fitter.eta).call = g.full.eta ∧ (w.obj w.fitter.eta).fp = g.etaFp ∧ (w.obj w.fitter.eta).ep = g.etaEp
  stack : w.stack = g.full.stack
  stats : w.stats = g.stats

/-- Variance and eta are splines over the grid of the variance fitter. -/
def CubicVar (C : FullCfg K) (P : VarPart K Q) (w : FitObjs K Q) (g : FitVals K Q) : Prop :=
  w.obj w.fitter.var = .newCubic C.junk false P.x0 P.dx g.varFp g.varEp ∧
  w.obj w.fitter.eta = .newCubic C.junk false P.x0 P.dx g.etaFp g.etaEp

/-- During the iterations. -/
def LoopRel (C : FullCfg K) (P : VarPart K Q) (hf : Bool) (v0 e0 : InterpObj K) (w : FitObjs K Q) (g : FitVals K Q) : Prop :=
  Link C w g ∧ w.model = w.fitter ∧ (hf = true → CubicVar C P w g) ∧
    (hf = false → w.obj w.fitter.var = v0 ∧ w.obj w.fitter.eta = e0)

/-- After the final fit of the variance. -/
def FinalRel (C : FullCfg K) (P : VarPart K Q) (v0 e0 : InterpObj K) (w : FitObjs K Q) (g : FitVals K Q) : Prop :=
  Link C w g ∧ CubicVar C P w g ∧ w.model.mean = w.fitter.mean ∧
    (∀ r ∈ [w.model.var, w.model.eta], r < w.heap.length ∧ r ≠ w.fitter.mean ∧ r ≠ w.fitter.var ∧ r ≠ w.fitter.eta) ∧
    w.obj w.model.var = v0 ∧ w.obj w.model.eta = e0

theorem Link.meanUpd {w : FitObjs K Q} {g : FitVals K Q} (h : Link C w g) (t : StackSums K) :
    Link C (FitObjs.meanUpd C w t).1 { g with full := (C.update g.full t).1 } ∧
    (FitObjs.meanUpd C w t).2 = (C.update g.full t).2 := by
  have hfp : (w.obj w.fitter.mean).fp = g.full.cont := by rw [h.mean]; rfl
  have hw : ∀ r, (FitObjs.meanUpd C w t).1.obj r = (w.resetAt C w.fitter.mean (C.update g.full t).1.cont
      (C.update g.full t).1.contErr).obj r := by
    intro r
    unfold FitObjs.meanUpd FullCfg.update
    rw [hfp]
    rfl
  have hl : (FitObjs.meanUpd C w t).1.heap.length = w.heap.length := by
    unfold FitObjs.meanUpd FitObjs.resetAt
    simp
  have hr : (FitObjs.meanUpd C w t).1.fitter = w.fitter := rfl
  refine ⟨⟨?_, ?_, ?_, h.meanVar, h.meanEta, h.varEta, ?_, ?_, ?_, rfl, h.stats⟩, ?_⟩
  · rw [hl]; exact h.ltMean
  · rw [hl]; exact h.ltVar
  · rw [hl]; exact h.ltEta
  · rw [hr, hw, obj_resetAt_self h.ltMean, h.mean]; rfl
  · rw [hr, hw, obj_resetAt_ne h.meanVar]; exact h.var
  · rw [hr, hw, obj_resetAt_ne h.meanEta]; exact h.eta
  · unfold FitObjs.meanUpd FullCfg.update
    rw [hfp]

omit [FloorRing K] in
theorem meanUpd_ne {w : FitObjs K Q} (t : StackSums K) {r : Nat} (hr : w.fitter.mean ≠ r) :
    (FitObjs.meanUpd C w t).1.obj r = w.obj r := by
  unfold FitObjs.meanUpd
  exact obj_resetAt_ne hr _ _

theorem LoopRel.meanUpd {hf : Bool} {v0 e0 : InterpObj K} {w : FitObjs K Q} {g : FitVals K Q}
    (h : LoopRel C P hf v0 e0 w g) (t : StackSums K) :
    LoopRel C P hf v0 e0 (FitObjs.meanUpd C w t).1 { g with full := (C.update g.full t).1 } ∧
    (FitObjs.meanUpd C w t).2 = (C.update g.full t).2 := by
  obtain ⟨h1, h2, h3, h4⟩ := h
  have e1 := meanUpd_ne (C := C) (w := w) t h1.meanVar
  have e2 := meanUpd_ne (C := C) (w := w) t h1.meanEta
  refine ⟨⟨(h1.meanUpd t).1, h2, fun hh => ?_, fun hh => ?_⟩, (h1.meanUpd t).2⟩
  · exact ⟨e1.trans (h3 hh).1, e2.trans (h3 hh).2⟩
  · exact ⟨e1.trans (h4 hh).1, e2.trans (h4 hh).2⟩

theorem FinalRel.meanUpd {v0 e0 : InterpObj K} {w : FitObjs K Q} {g : FitVals K Q}
    (h : FinalRel C P v0 e0 w g) (t : StackSums K) :
    FinalRel C P v0 e0 (FitObjs.meanUpd C w t).1 { g with full := (C.update g.full t).1 } ∧
    (FitObjs.meanUpd C w t).2 = (C.update g.full t).2 := by
  obtain ⟨h1, h2, h3, h4, h5, h6⟩ := h
  have e1 := meanUpd_ne (C := C) (w := w) t h1.meanVar
  have e2 := meanUpd_ne (C := C) (w := w) t h1.meanEta
  have hl : (FitObjs.meanUpd C w t).1.heap.length = w.heap.length := by
    unfold FitObjs.meanUpd FitObjs.resetAt
    simp
  refine ⟨⟨(h1.meanUpd t).1, ⟨e1.trans h2.1, e2.trans h2.2⟩, h3, ?_, ?_, ?_⟩, (h1.meanUpd t).2⟩
  · intro r hr
    have := h4 r hr
    rw [hl]
    exact this
  · exact (meanUpd_ne t (h4 w.model.var (by simp)).2.1.symm).trans h5
  · exact (meanUpd_ne t (h4 w.model.eta (by simp)).2.1.symm).trans h6

theorem Link.varUpd {w : FitObjs K Q} {g : FitVals K Q} (h : Link C w g) (hc : CubicVar C P w g) (q : Q) :
    Link C (FitObjs.varUpd C P w q) (FitVals.varUpd C P g q) ∧
    CubicVar C P (FitObjs.varUpd C P w q) (FitVals.varUpd C P g q) ∧
    (FitObjs.varUpd C P w q).heap.length = w.heap.length ∧ (FitObjs.varUpd C P w q).fitter = w.fitter ∧
    (FitObjs.varUpd C P w q).model = w.model ∧
    ∀ r, r ≠ w.fitter.var → r ≠ w.fitter.eta → (FitObjs.varUpd C P w q).obj r = w.obj r := by
  have e1 : (w.obj w.fitter.var).fp = g.varFp := h.var.2.1
  have e2 : (w.obj w.fitter.eta).fp = g.etaFp := h.eta.2.1
  let r := P.solve g.varFp g.etaFp q
  have hlen : ∀ r fp ep, (w.resetAt C r fp ep).heap.length = w.heap.length := by
    intro r fp ep
    unfold FitObjs.resetAt
    simp
  by_cases hE : P.fitEta = true
  · have hw : FitObjs.varUpd C P w q =
        { (w.resetAt C w.fitter.var r.1.1 r.1.2).resetAt C w.fitter.eta r.2.1 r.2.2 with stats := q } := by
      unfold FitObjs.varUpd
      dsimp only
      rw [e1, e2, if_pos hE]
    have hg : FitVals.varUpd C P g q =
        { full := { g.full with varlss := FitVals.spline C P r.1.1, eta := FitVals.spline C P r.2.1 }
          varFp := r.1.1, varEp := r.1.2, etaFp := r.2.1, etaEp := r.2.2, stats := q } := by
      unfold FitVals.varUpd
      dsimp only
      rw [if_pos hE]
    rw [hw, hg]
    have ho : ∀ k, FitObjs.obj { (w.resetAt C w.fitter.var r.1.1 r.1.2).resetAt C w.fitter.eta r.2.1 r.2.2 with
        stats := q } k = ((w.resetAt C w.fitter.var r.1.1 r.1.2).resetAt C w.fitter.eta r.2.1 r.2.2).obj k :=
      fun _ => rfl
    have hl2 : ((w.resetAt C w.fitter.var r.1.1 r.1.2).resetAt C w.fitter.eta r.2.1 r.2.2).heap.length =
        w.heap.length := by
      unfold FitObjs.resetAt
      simp
    have o1 : ((w.resetAt C w.fitter.var r.1.1 r.1.2).resetAt C w.fitter.eta r.2.1 r.2.2).obj w.fitter.var =
        .newCubic C.junk false P.x0 P.dx r.1.1 r.1.2 := by
      rw [obj_resetAt_ne h.varEta.symm, obj_resetAt_self h.ltVar, hc.1]; rfl
    have o2 : ((w.resetAt C w.fitter.var r.1.1 r.1.2).resetAt C w.fitter.eta r.2.1 r.2.2).obj w.fitter.eta =
        .newCubic C.junk false P.x0 P.dx r.2.1 r.2.2 := by
      rw [obj_resetAt_self (by rw [hlen]; exact h.ltEta), obj_resetAt_ne h.varEta, hc.2]; rfl
    have o3 : ∀ k, k ≠ w.fitter.var → k ≠ w.fitter.eta →
        ((w.resetAt C w.fitter.var r.1.1 r.1.2).resetAt C w.fitter.eta r.2.1 r.2.2).obj k = w.obj k := by
      intro k h1 h2
      rw [obj_resetAt_ne h2.symm, obj_resetAt_ne h1.symm]
    refine ⟨⟨?_, ?_, ?_, h.meanVar, h.meanEta, h.varEta, ?_, ?_, ?_, h.stack, rfl⟩, ⟨?_, ?_⟩, hl2, rfl, rfl, ?_⟩
    · exact hl2.symm ▸ h.ltMean
    · exact hl2.symm ▸ h.ltVar
    · exact hl2.symm ▸ h.ltEta
    · exact (o3 _ h.meanVar h.meanEta).trans h.mean
    · rw [ho]
      change (FitObjs.obj _ w.fitter.var).call = _ ∧ (FitObjs.obj _ w.fitter.var).fp = _ ∧ (FitObjs.obj _ w.fitter.var).ep = _
      rw [o1]
      exact ⟨rfl, rfl, rfl⟩
    · rw [ho]
      change (FitObjs.obj _ w.fitter.eta).call = _ ∧ (FitObjs.obj _ w.fitter.eta).fp = _ ∧ (FitObjs.obj _ w.fitter.eta).ep = _
      rw [o2]
      exact ⟨rfl, rfl, rfl⟩
    · exact o1
    · exact o2
    · exact o3
  · have hw : FitObjs.varUpd C P w q = { w.resetAt C w.fitter.var r.1.1 r.1.2 with stats := q } := by
      unfold FitObjs.varUpd
      dsimp only
      rw [e1, e2, if_neg hE]
    have hg : FitVals.varUpd C P g q =
        { g with full := { g.full with varlss := FitVals.spline C P r.1.1 }, varFp := r.1.1, varEp := r.1.2, stats := q } := by
      unfold FitVals.varUpd
      dsimp only
      rw [if_neg hE]
    rw [hw, hg]
    have o1 : (w.resetAt C w.fitter.var r.1.1 r.1.2).obj w.fitter.var =
        .newCubic C.junk false P.x0 P.dx r.1.1 r.1.2 := by
      rw [obj_resetAt_self h.ltVar, hc.1]; rfl
    have o2 : (w.resetAt C w.fitter.var r.1.1 r.1.2).obj w.fitter.eta = w.obj w.fitter.eta := obj_resetAt_ne h.varEta _ _
    refine ⟨⟨?_, ?_, ?_, h.meanVar, h.meanEta, h.varEta, ?_, ?_, ?_, h.stack, rfl⟩, ⟨?_, ?_⟩, hlen _ _ _, rfl, rfl, ?_⟩
    · exact (hlen _ _ _).symm ▸ h.ltMean
    · exact (hlen _ _ _).symm ▸ h.ltVar
    · exact (hlen _ _ _).symm ▸ h.ltEta
    · exact (obj_resetAt_ne h.meanVar.symm _ _).trans h.mean
    · change (FitObjs.obj (w.resetAt C w.fitter.var r.1.1 r.1.2) w.fitter.var).call = _ ∧
        (FitObjs.obj (w.resetAt C w.fitter.var r.1.1 r.1.2) w.fitter.var).fp = _ ∧
        (FitObjs.obj (w.resetAt C w.fitter.var r.1.1 r.1.2) w.fitter.var).ep = _
      rw [o1]
      exact ⟨rfl, rfl, rfl⟩
    · change (FitObjs.obj (w.resetAt C w.fitter.var r.1.1 r.1.2) w.fitter.eta).call = _ ∧
        (FitObjs.obj (w.resetAt C w.fitter.var r.1.1 r.1.2) w.fitter.eta).fp = _ ∧
        (FitObjs.obj (w.resetAt C w.fitter.var r.1.1 r.1.2) w.fitter.eta).ep = _
      rw [o2]
      exact h.eta
    · exact o1
    · exact o2.trans hc.2
    · intro k h1 _
      exact obj_resetAt_ne h1.symm _ _

theorem LoopRel.newVar {hf : Bool} (hhf : hf = false) {v0 e0 : InterpObj K} {w : FitObjs K Q} {g : FitVals K Q}
    (h : LoopRel C P hf v0 e0 w g) : FinalRel C P v0 e0 (FitObjs.newVar C P w) (FitVals.newVar C P g) := by
  obtain ⟨h1, h2, -, h4⟩ := h
  have hlen : (FitObjs.newVar C P w).heap.length = w.heap.length + 2 := by
    unfold FitObjs.newVar
    simp
  have ho : ∀ r < w.heap.length, (FitObjs.newVar C P w).obj r = w.obj r := fun r hr => obj_append hr _ _
  have o1 : (FitObjs.newVar C P w).obj w.heap.length = FitObjs.constructInterp C P (1 / 10) := by
    unfold FitObjs.newVar FitObjs.obj
    simp [List.getD_eq_getElem?_getD]
  have o2 : (FitObjs.newVar C P w).obj (w.heap.length + 1) = FitObjs.constructInterp C P 1 := by
    unfold FitObjs.newVar FitObjs.obj
    simp [List.getD_eq_getElem?_getD]
  have r1 : (FitObjs.newVar C P w).fitter.mean = w.fitter.mean := rfl
  have r2 : (FitObjs.newVar C P w).fitter.var = w.heap.length := rfl
  have r3 : (FitObjs.newVar C P w).fitter.eta = w.heap.length + 1 := rfl
  have r4 : (FitObjs.newVar C P w).model = w.fitter := h2
  have a1 := h1.ltMean
  have a2 := h1.ltVar
  have a3 := h1.ltEta
  refine ⟨⟨?_, ?_, ?_, ?_, ?_, ?_, ?_, ?_, ?_, h1.stack, h1.stats⟩, ⟨?_, ?_⟩, ?_, ?_, ?_, ?_⟩
  · rw [hlen, r1]; omega
  · rw [hlen, r2]; omega
  · rw [hlen, r3]; omega
  · rw [r1, r2]; omega
  · rw [r1, r3]; omega
  · rw [r2, r3]; omega
  · rw [r1, ho _ a1]; exact h1.mean
  · rw [r2, o1]; exact ⟨rfl, rfl, rfl⟩
  · rw [r3, o2]; exact ⟨rfl, rfl, rfl⟩
  · rw [r2, o1]; rfl
  · rw [r3, o2]; rfl
  · rw [r4, r1]
  · intro r hr
    rw [r4] at hr
    rw [hlen, r1, r2, r3]
    have := h1.meanVar
    have := h1.meanEta
    simp only [List.mem_cons, List.not_mem_nil, or_false] at hr
    rcases hr with rfl | rfl
    · exact ⟨by omega, h1.meanVar.symm, by omega, by omega⟩
    · exact ⟨by omega, h1.meanEta.symm, by omega, by omega⟩
  · rw [r4, ho _ a2]; exact (h4 hhf).1
  · rw [r4, ho _ a3]; exact (h4 hhf).2

/-- The fitter on its objects and the fitter by value. -/
theorem sim_objs (hf : Bool) (v0 e0 : InterpObj K) (table : List (List K) → D) (stats : Q → D) :
    SimFns (FitObjs.fns C P table stats) (FitVals.fns C P table stats) hf (LoopRel C P hf v0 e0) (FinalRel C P v0 e0) := by
  have link : ∀ w g, LoopRel C P hf v0 e0 w g ∨ FinalRel C P v0 e0 w g → Link C w g := by
    rintro w g (h | h) <;> exact h.1
  refine ⟨?_, rfl, fun _ _ _ => rfl, rfl, fun w g t h => h.meanUpd t, fun w g t h => h.meanUpd t,
    fun _ _ _ _ => rfl, rfl, ?_, ?_, fun hh w g h => h.newVar hh, ?_, ?_, ?_, ?_, ?_, ?_, ?_⟩
  · rintro w g ⟨h1, h2, -, -⟩
    funext s
    change FitObjs.fitOne C w s = C.fitOne g.full s
    unfold FitObjs.fitOne FullCfg.fitOne FullCfg.meancont
    dsimp only
    rw [h2, h1.mean, h1.var.1, h1.eta.1, call_newCubic]
  · rintro hh w g q ⟨h1, h2, h3, -⟩
    obtain ⟨k1, k2, -, k4, k5, -⟩ := h1.varUpd (h3 hh) q
    exact ⟨k1, k5.trans (h2.trans k4.symm), fun _ => k2, fun h => by rw [hh] at h; cases h⟩
  · rintro - w g q ⟨h1, h2, h3, h4, h5, h6⟩
    obtain ⟨k1, k2, k3, k4, k5, k6⟩ := h1.varUpd h2 q
    have m1 := h4 w.model.var (by simp)
    have m2 := h4 w.model.eta (by simp)
    refine ⟨k1, k2, ?_, ?_, ?_, ?_⟩
    · change (FitObjs.varUpd C P w q).model.mean = (FitObjs.varUpd C P w q).fitter.mean
      rw [k5, k4]; exact h3
    · change ∀ r ∈ [(FitObjs.varUpd C P w q).model.var, (FitObjs.varUpd C P w q).model.eta],
        r < (FitObjs.varUpd C P w q).heap.length ∧ r ≠ (FitObjs.varUpd C P w q).fitter.mean ∧
        r ≠ (FitObjs.varUpd C P w q).fitter.var ∧ r ≠ (FitObjs.varUpd C P w q).fitter.eta
      rw [k5, k4, k3]; exact h4
    · change (FitObjs.varUpd C P w q).obj (FitObjs.varUpd C P w q).model.var = _
      rw [k5, k6 _ m1.2.2.1 m1.2.2.2]; exact h5
    · change (FitObjs.varUpd C P w q).obj (FitObjs.varUpd C P w q).model.eta = _
      rw [k5, k6 _ m2.2.2.1 m2.2.2.2]; exact h6
  · rintro w g h
    funext s
    change (if C.normalize = true then normSpec w.stack s else s) = _
    rw [h.1.stack]
    rfl
  · rintro w g h
    funext s
    change (if C.etaCalib = true then etaCalibIvar (w.obj w.fitter.eta).call s else s) = _
    rw [h.1.eta.1]
    rfl
  · intro w g h
    change table [(w.obj w.fitter.mean).fp, (w.obj w.fitter.mean).ep] = _
    rw [(link w g h).mean]
    rfl
  · intro w g h
    change table [w.stack.fp] = _
    rw [(link w g h).stack]
    rfl
  · intro w g h
    change table [w.stack.fpRf, w.stack.epRf] = _
    rw [(link w g h).stack]
    rfl
  · intro w g h
    change table [(w.obj w.fitter.var).fp, (w.obj w.fitter.var).ep, (w.obj w.fitter.eta).fp, (w.obj w.fitter.eta).ep] = _
    rw [(link w g h).var.2.1, (link w g h).var.2.2, (link w g h).eta.2.1, (link w g h).eta.2.2]
    rfl
  · intro w g h
    change stats w.stats = _
    rw [(link w g h).stats]
    rfl

theorem new_rel (fid : Option (LinInterp K)) (q : Q) :
    LoopRel C P fid.isNone ((FitObjs.new C P fid q).obj 1) ((FitObjs.new C P fid q).obj 2) (FitObjs.new C P fid q)
      (FitVals.new C P fid q) := by
  have n3 : (0 : Nat) < 3 ∧ (1 : Nat) < 3 ∧ (2 : Nat) < 3 ∧ (0 : Nat) ≠ 1 ∧ (0 : Nat) ≠ 2 ∧ (1 : Nat) ≠ 2 := by decide
  cases fid with
  | none =>
    have e : (FitObjs.new C P none q).obj 2 = .newCubic C.junk false P.x0 P.dx (List.replicate P.n 1) (List.replicate P.n 0) := by
      change InterpObj.newCubic C.junk false P.x0 P.dx (List.replicate (List.replicate P.n (1 / 10 : K)).length 1)
        (List.replicate (List.replicate P.n (1 / 10 : K)).length 0) = _
      rw [List.length_replicate]
    have e' : (FitObjs.new C P none q).obj (FitObjs.new C P none q).fitter.eta = .newCubic C.junk false P.x0 P.dx
      (List.replicate P.n 1) (List.replicate P.n 0) := e
    refine ⟨⟨n3.1, n3.2.1, n3.2.2.1, n3.2.2.2.1, n3.2.2.2.2.1, n3.2.2.2.2.2, rfl, ⟨rfl, rfl, rfl⟩, ?_, rfl, rfl⟩, rfl,
      fun _ => ⟨rfl, e'⟩, fun _ => ⟨rfl, rfl⟩⟩
    rw [e']
    exact ⟨rfl, rfl, rfl⟩
  | some f =>
    refine ⟨⟨n3.1, n3.2.1, n3.2.2.1, n3.2.2.2.1, n3.2.2.2.2.1, n3.2.2.2.2.2, rfl, ⟨rfl, rfl, rfl⟩, ⟨rfl, rfl, rfl⟩, rfl,
      rfl⟩, rfl, fun h => ?_, fun _ => ⟨rfl, rfl⟩⟩
    cases h

end
end Verif.Proofs
