import Verif.Model.FitterErr
import Verif.Proofs.Fitter
import Verif.Spec.RunEnds

/-!
# Lemmas on iterations with updates that fail
-/

namespace Verif.Proofs
open Verif Verif.Np Verif.Model Verif.Model.Prog Verif.Model.FitterFns Verif.Spec

section
variable {V W A B : Type}

/-- All ranks have results `a` with `ok a`, or all raise the same exception `e` with `err e`. -/
def AllOrNone (n : Nat) (P : Nat → Prog V W A) (ok : (Nat → A) → Prop) (err : Err → Prop) : Prop :=
  ∃ M : Nat → List W, (∃ a, ok a ∧ Sync n P (fun r => .ok (a r)) M) ∨ (∃ e, err e ∧ Sync n P (fun _ => .error e) M)

theorem AllOrNone.ret (n : Nat) {a : Nat → A} {ok : (Nat → A) → Prop} {err : Err → Prop} (h : ok a) :
    AllOrNone n (fun r => (.ret (a r) : Prog V W A)) ok err := ⟨_, .inl ⟨a, h, sync_ret n a⟩⟩

theorem AllOrNone.bind {n : Nat} {P : Nat → Prog V W A} {ok : (Nat → A) → Prop} {err : Err → Prop}
    (h : AllOrNone n P ok err) {f : Nat → A → Prog V W B} {ok' : (Nat → B) → Prop}
    (hf : ∀ a, ok a → AllOrNone n (fun r => f r (a r)) ok' err) : AllOrNone n (fun r => (P r).bind (f r)) ok' err := by
  obtain ⟨M, ⟨a, ha, hs⟩ | ⟨e, he, hs⟩⟩ := h
  · obtain ⟨M', ⟨b, hb, hs'⟩ | ⟨e, he, hs'⟩⟩ := hf a ha
    · exact ⟨_, .inl ⟨b, hb, hs.bind (f := f) hs'⟩⟩
    · exact ⟨_, .inr ⟨e, he, hs.bind (f := f) hs'⟩⟩
  · exact ⟨_, .inr ⟨e, he, hs.bind_error f⟩⟩

theorem AllOrNone.emits {n : Nat} {P : Nat → Prog V W A} {ok : (Nat → A) → Prop} {err : Err → Prop}
    (h : AllOrNone n P ok err) (w : Nat → List W) : AllOrNone n (fun r => Prog.emits (w r) (P r)) ok err := by
  obtain ⟨M, ⟨a, ha, hs⟩ | ⟨e, he, hs⟩⟩ := h
  · exact ⟨_, .inl ⟨a, ha, sync_emits w hs⟩⟩
  · exact ⟨_, .inr ⟨e, he, sync_emits w hs⟩⟩

theorem AllOrNone.imp {n : Nat} {P : Nat → Prog V W A} {ok ok' : (Nat → A) → Prop} {err err' : Err → Prop}
    (h : AllOrNone n P ok err) (h1 : ∀ a, ok a → ok' a) (h2 : ∀ e, err e → err' e) : AllOrNone n P ok' err' := by
  obtain ⟨M, ⟨a, ha, hs⟩ | ⟨e, he, hs⟩⟩ := h
  · exact ⟨M, .inl ⟨a, h1 a ha, hs⟩⟩
  · exact ⟨M, .inr ⟨e, h2 e he, hs⟩⟩

theorem AllOrNone.orRaise {n : Nat} {o : Option Err} {P : Nat → Prog V W A} {ok : (Nat → A) → Prop} {err : Err → Prop}
    (h1 : ∀ e, o = some e → err e) (h2 : o = none → AllOrNone n P ok err) :
    AllOrNone n (fun r => orRaise o (P r)) ok err := by
  cases o with
  | none => exact h2 rfl
  | some e => exact ⟨_, .inr ⟨e, h1 e rfl, sync_raise n (fun _ => e)⟩⟩

theorem AllOrNone.allreduce {n : Nat} (op : Nat → List V → V) (v : Nat → V) {k : Nat → V → Prog V W A}
    {ok : (Nat → A) → Prop} {err : Err → Prop} (h : AllOrNone n (fun r => k r (op 0 ((List.range (n + 1)).map v))) ok err) :
    AllOrNone n (fun r => .allreduce (op r) (v r) (k r)) ok err := by
  obtain ⟨M, ⟨a, ha, hs⟩ | ⟨e, he, hs⟩⟩ := h
  · exact ⟨M, .inl ⟨a, ha, sync_allreduce op v hs⟩⟩
  · exact ⟨M, .inr ⟨e, he, sync_allreduce op v hs⟩⟩

end

section
variable {G Sp R Q D V W : Type} {F : FitterFns G Sp R Q D} {E : UpdateErrs G R Q} {c : FitterCodecs R Q V}

theorem all_updateMean (n : Nat) (g : G) (specs : Nat → List Sp) {err : Err → Prop} (he : ∀ e, UpdateRaises E e → err e) :
    AllOrNone n (fun r => (F.updateMeanContE E c g (specs r) : Prog V W _)) (fun a => ∃ m, a = fun _ => m) err := by
  unfold updateMeanContE
  exact AllOrNone.allreduce (fun _ => _) _ (AllOrNone.orRaise (fun e h => he e (.inl ⟨_, _, h⟩))
    fun _ => AllOrNone.ret n ⟨_, rfl⟩)

theorem all_updateVar (n : Nat) (g : G) (specs : Nat → List Sp) {err : Err → Prop} (he : ∀ e, UpdateRaises E e → err e) :
    AllOrNone n (fun r => (F.updateVarLssEtaE E c r g (specs r) : Prog V W _))
      (fun a => (∃ m, a = fun _ => m) ∧ ∃ g s, E.var g s = none) err := by
  unfold updateVarLssEtaE
  exact AllOrNone.allreduce (fun _ => _) _ (AllOrNone.orRaise (fun e h => he e (.inr ⟨_, _, h⟩))
    fun h => AllOrNone.ret n ⟨⟨_, rfl⟩, _, _, h⟩)

theorem all_varStep (n : Nat) (hf : Bool) (g : G) (specs : Nat → List Sp) {err : Err → Prop}
    (he : ∀ e, UpdateRaises E e → err e) :
    AllOrNone n (fun r => (F.varStepE E c r hf g (specs r) : Prog V W _))
      (fun a => (∃ m, a = fun _ => m) ∧ (hf = true → ∃ g s, E.var g s = none)) err := by
  unfold varStepE
  cases hf with
  | true =>
    simp only [if_true]
    exact (all_updateVar n g specs he).imp (fun a h => ⟨h.1, fun _ => h.2⟩) (fun _ h => h)
  | false =>
    simp only [Bool.false_eq_true, if_false]
    exact AllOrNone.ret n ⟨⟨_, rfl⟩, fun h => by simp at h⟩

/-- After the fits with `gs`, one after the other, no spectrum is valid. -/
def NoneValid (F : FitterFns G Sp R Q D) (n : Nat) (g : G) (sp : Nat → List Sp) (m : Nat) : Prop :=
  ∃ gs : List G, gs.head? = some g ∧ gs.length ≤ m ∧
    ∀ r ≤ n, ∀ x ∈ sp r, F.valid (gs.foldl (fun y g => F.fitOne g y) x) = false

theorem all_fitContinua (n : Nat) (g : G) (sp : Nat → List Sp) {err : Err → Prop} {m : Nat}
    (he : NoneValid F n g sp (m + 1) → err .qsonic) :
    AllOrNone n (fun r => (F.fitContinua c g (sp r) : Prog V W _))
      (fun a => ∀ r, (a r).1 = (sp r).map (F.fitOne g)) err := by
  have h := sync_fitContinua (F := F) (c := c) (W := W) n (fun _ => g) sp
  by_cases hv : ((List.range (n + 1)).flatMap (fun r => (sp r).map (F.fitOne g))).countP (fun s => F.valid s) = 0
  · simp only [if_pos hv] at h
    refine ⟨_, .inr ⟨.qsonic, he ⟨[g], rfl, by simp, fun r hr x hx => ?_⟩, h⟩⟩
    have := List.countP_eq_zero.mp hv (F.fitOne g x) (List.mem_flatMap.mpr
      ⟨r, List.mem_range.mpr (by omega), List.mem_map.mpr ⟨x, hx, rfl⟩⟩)
    simpa using this
  · simp only [if_neg hv] at h
    exact ⟨_, .inl ⟨_, fun r => rfl, h⟩⟩

theorem all_iterLoop (n : Nat) (hf : Bool) (sv : Nat → Saver) (m it : Nat) (g : G) (sp : Nat → List Sp)
    {err : Err → Prop} (he : ∀ e, UpdateRaises E e → err e) (hv : NoneValid F n g sp m → err .qsonic) :
    AllOrNone n (fun r => F.iterLoopE E c (sv r) r hf m it g (sp r))
      (fun a => (∃ g', ∀ r, (a r).1 = g') ∧ (hf = true → 0 < m → ∃ g s, E.var g s = none)) err := by
  induction m generalizing it g sp with
  | zero => exact AllOrNone.ret n ⟨⟨g, fun _ => rfl⟩, fun _ h => absurd h (by omega)⟩
  | succ m ih =>
    unfold iterLoopE
    refine AllOrNone.emits ?_ _
    refine (all_fitContinua n g sp (m := m) hv).bind fun a ha => ?_
    refine (all_updateMean n g (fun r => (a r).1) he).bind fun b hb => ?_
    obtain ⟨mm, hb⟩ := hb
    simp only [hb]
    refine (all_varStep n hf mm.1 (fun r => (a r).1) he).bind fun d hd => ?_
    obtain ⟨⟨g2, hd⟩, hvar⟩ := hd
    simp only [hd]
    by_cases hm : mm.2 = true
    · simp only [if_pos hm]
      exact AllOrNone.ret n ⟨⟨g2, fun _ => rfl⟩, fun h _ => hvar h⟩
    · simp only [if_neg hm]
      refine (ih (it + 1) g2 (fun r => (a r).1) ?_).imp (fun b hb => ⟨hb.1, fun h _ => hvar h⟩) (fun _ h => h)
      rintro ⟨gs, h1, h2, h3⟩
      refine hv ⟨g :: gs, rfl, by simpa using h2, fun r hr x hx => ?_⟩
      rw [List.foldl_cons]
      refine h3 r hr _ ?_
      change _ ∈ (a r).1
      rw [ha r]
      exact List.mem_map.mpr ⟨x, hx, rfl⟩

/-- The iterations: all ranks end, or all raise the same exception. -/
theorem all_iterate (n : Nat) (hf : Bool) (fname : String) (niter : Nat) (g : G) (sp : Nat → List Sp)
    {err : Err → Prop} (he : ∀ e, UpdateRaises E e → err e) (hv : NoneValid F n g sp niter → err .qsonic) :
    AllOrNone n (fun r => F.iterateE E c fname niter hf r g (sp r))
      (fun _ => (hf = true → 0 < niter) → ∃ g s, E.var g s = none) err := by
  unfold iterateE
  dsimp only
  refine AllOrNone.emits ?_ _
  refine (all_iterLoop n hf (fun r => (Saver.init (D := String × D) fname r).2) niter 0 g sp he hv).bind ?_
  rintro a ⟨⟨g', hg'⟩, hvar⟩
  simp only [hg']
  refine AllOrNone.emits ?_ _
  have hfin : AllOrNone n (fun r => F.finalVarE E c (Saver.init (D := String × D) fname r).2 r hf g'
      (F.tweak g' (a r).2.1)) (fun _ => hf = false → ∃ g s, E.var g s = none) err := by
    unfold finalVarE
    cases hf with
    | true =>
      simp only [if_true]
      exact AllOrNone.ret n (fun h => by simp at h)
    | false =>
      simp only [Bool.false_eq_true, if_false]
      unfold fitFinalVarlssE
      refine AllOrNone.bind (ok := fun _ => ∃ g s, E.var g s = none) ?_ fun b hb => AllOrNone.emits (AllOrNone.ret n fun _ => hb) _
      refine (all_updateVar n (F.newVar g') (fun r => F.tweak g' (a r).2.1) he).bind ?_
      rintro _ ⟨⟨g1, rfl⟩, h1⟩
      refine (all_updateMean n g1 (fun r => F.tweak g' (a r).2.1) he).bind ?_
      rintro _ ⟨m2, rfl⟩
      exact AllOrNone.ret n h1
  refine hfin.bind fun b hb => AllOrNone.emits (AllOrNone.ret n fun h => ?_) _
  cases hf with
  | true => exact hvar rfl (h rfl)
  | false => exact hb rfl

/-! ### Without failures -/

theorem iterLoopE_none (s : Saver) (rank : Nat) (hf : Bool) (m it : Nat) (g : G) (specs : List Sp) :
    F.iterLoopE ⟨fun _ _ => none, fun _ _ => none⟩ c s rank hf m it g specs = F.iterLoop c s rank hf m it g specs := by
  induction m generalizing it g specs with
  | zero => rfl
  | succ m ih =>
    unfold iterLoopE iterLoop
    simp only [ih]
    rfl

theorem iterateE_none (fname : String) (niter : Nat) (hf : Bool) (rank : Nat) (g : G) (specs : List Sp) :
    F.iterateE ⟨fun _ _ => none, fun _ _ => none⟩ c fname niter hf rank g specs =
      F.iterate c fname niter hf rank g specs := by
  unfold iterateE iterate
  simp only [iterLoopE_none]
  rfl

end
end Verif.Proofs
