import Verif.Model.Mpi
import Verif.Spec.SameJob
import Mathlib.Data.List.Forall2
import Mathlib.Data.Option.Defs

/-!
# Programs that communicate in the same way
-/

namespace Verif.Proofs
open Verif.Model Verif.Model.Prog Verif.Spec

variable {V W A B : Type}

/-- The two programs do the same up to their results, which are in the relation `R`. -/
inductive RelP (R : A → B → Prop) : Prog V W A → Prog V W B → Prop
  | ret {a b} : R a b → RelP R (.ret a) (.ret b)
  | raise (e) : RelP R (.raise e) (.raise e)
  | abort : RelP R .abort .abort
  | emit (w) {k k'} : RelP R k k' → RelP R (.emit w k) (.emit w k')
  | bcast (v) {k k'} : (∀ x, RelP R (k x) (k' x)) → RelP R (.bcast v k) (.bcast v k')
  | scatter (v) {k k'} : (∀ x, RelP R (k x) (k' x)) → RelP R (.scatter v k) (.scatter v k')
  | gather (v) {k k'} : (∀ x, RelP R (k x) (k' x)) → RelP R (.gather v k) (.gather v k')
  | reduce (op v) {k k'} : (∀ x, RelP R (k x) (k' x)) → RelP R (.reduce op v k) (.reduce op v k')
  | allreduce (op v) {k k'} : (∀ x, RelP R (k x) (k' x)) → RelP R (.allreduce op v k) (.allreduce op v k')

variable {R : A → B → Prop}

theorem RelP.bind {A' B' : Type} {S : A' → B' → Prop} {p : Prog V W A} {q : Prog V W B} (h : RelP R p q)
    {f : A → Prog V W A'} {g : B → Prog V W B'} (hf : ∀ a b, R a b → RelP S (f a) (g b)) :
    RelP S (p.bind f) (q.bind g) := by
  induction h with
  | ret h => exact hf _ _ h
  | raise e => exact .raise e
  | abort => exact .abort
  | emit w _ ih => exact .emit w ih
  | bcast v _ ih => exact .bcast v ih
  | scatter v _ ih => exact .scatter v ih
  | gather v _ ih => exact .gather v ih
  | reduce op v _ ih => exact .reduce op v ih
  | allreduce op v _ ih => exact .allreduce op v ih

theorem RelP.emits {p : Prog V W A} {q : Prog V W B} (h : RelP R p q) (ws : List W) :
    RelP R (Prog.emits ws p) (Prog.emits ws q) := by
  induction ws with
  | nil => exact h
  | cons w ws ih => exact .emit w ih

theorem RelP.peel {p : Prog V W A} {q : Prog V W B} (h : RelP R p q) :
    (Prog.peel p).1 = (Prog.peel q).1 ∧ RelP R (Prog.peel p).2 (Prog.peel q).2 := by
  induction h with
  | ret h => exact ⟨rfl, .ret h⟩
  | raise e => exact ⟨rfl, .raise e⟩
  | abort => exact ⟨rfl, .abort⟩
  | emit w _ ih => exact ⟨congrArg (w :: ·) ih.1, ih.2⟩
  | bcast v h _ => exact ⟨rfl, .bcast v h⟩
  | scatter v h _ => exact ⟨rfl, .scatter v h⟩
  | gather v h _ => exact ⟨rfl, .gather v h⟩
  | reduce op v h _ => exact ⟨rfl, .reduce op v h⟩
  | allreduce op v h _ => exact ⟨rfl, .allreduce op v h⟩

theorem RelP.isAbort {p : Prog V W A} {q : Prog V W B} (h : RelP R p q) : p.isAbort = q.isAbort := by
  cases h <;> rfl

/-- Both lists have an element without value, or the values are in relation. -/
theorem mapM_rel {α β γ δ : Type} {T : α → β → Prop} {S : γ → δ → Prop} {f : α → Option γ} {g : β → Option δ}
    (h : ∀ a b, T a b → Option.Rel S (f a) (g b)) {l : List α} {l' : List β} (hl : List.Forall₂ T l l') :
    Option.Rel (List.Forall₂ S) (l.mapM f) (l'.mapM g) := by
  induction hl with
  | nil => exact .some .nil
  | @cons a b l l' hab _ ih =>
    rw [List.mapM_cons, List.mapM_cons]
    have h1 := h a b hab
    cases hfa : f a with
    | none =>
      cases hgb : g b with
      | none => exact .none
      | some y => rw [hfa, hgb] at h1; cases h1
    | some x =>
      cases hgb : g b with
      | none => rw [hfa, hgb] at h1; cases h1
      | some y =>
        rw [hfa, hgb] at h1
        cases h1 with
        | some hxy =>
          cases hm : l.mapM f with
          | none =>
            cases hm' : l'.mapM g with
            | none => exact .none
            | some ys => rw [hm, hm'] at ih; cases ih
          | some xs =>
            cases hm' : l'.mapM g with
            | none => rw [hm, hm'] at ih; cases ih
            | some ys =>
              rw [hm, hm'] at ih
              cases ih with
              | some hs => exact .some (.cons hxy hs)

theorem forall₂_map_rel {α β γ δ : Type} {T : α → β → Prop} {S : γ → δ → Prop} {f : α → γ} {g : β → δ}
    (h : ∀ a b, T a b → S (f a) (g b)) {l : List α} {l' : List β} (hl : List.Forall₂ T l l') :
    List.Forall₂ S (l.map f) (l'.map g) := by
  induction hl with
  | nil => exact .nil
  | cons hab _ ih => exact .cons (h _ _ hab) ih

theorem forall₂_map_same {α β γ : Type} {T : α → β → Prop} {f : α → γ} {g : β → γ}
    (h : ∀ a b, T a b → f a = g b) {l : List α} {l' : List β} (hl : List.Forall₂ T l l') : l.map f = l'.map g := by
  induction hl with
  | nil => rfl
  | cons hab _ ih => rw [List.map_cons, List.map_cons, h _ _ hab, ih]

theorem any_rel {α β : Type} {T : α → β → Prop} {f : α → Bool} {g : β → Bool}
    (h : ∀ a b, T a b → f a = g b) {l : List α} {l' : List β} (hl : List.Forall₂ T l l') : l.any f = l'.any g := by
  induction hl with
  | nil => rfl
  | cons hab _ ih => rw [List.any_cons, List.any_cons, h _ _ hab, ih]

theorem zipWith_app_rel {α β γ δ ε : Type} {T : α → β → Prop} {S : γ → δ → Prop} {f : α → ε → γ} {g : β → ε → δ}
    (h : ∀ a b, T a b → ∀ x, S (f a x) (g b x)) {l : List α} {l' : List β} (hl : List.Forall₂ T l l') (xs : List ε) :
    List.Forall₂ S (List.zipWith f l xs) (List.zipWith g l' xs) := by
  induction hl generalizing xs with
  | nil => exact .nil
  | cons hab _ ih =>
    cases xs with
    | nil => exact .nil
    | cons x xs => exact .cons (h _ _ hab x) (ih xs)

/-- Two continuations which were given the same value. -/
def RelK {X : Type} (R : A → B → Prop) (a : V × (X → Prog V W A)) (b : V × (X → Prog V W B)) : Prop :=
  a.1 = b.1 ∧ ∀ x, RelP R (a.2 x) (b.2 x)

/-- The other ranks before a collective. -/
theorem peels {os : List (Prog V W A)} {os' : List (Prog V W B)} (h : List.Forall₂ (RelP R) os os') :
    os.map (fun p => (Prog.peel p).1) = os'.map (fun p => (Prog.peel p).1) ∧
    List.Forall₂ (RelP R) (os.map (fun p => (Prog.peel p).2)) (os'.map (fun p => (Prog.peel p).2)) ∧
    (os.map (fun p => (Prog.peel p).2)).any Prog.isAbort = (os'.map (fun p => (Prog.peel p).2)).any Prog.isAbort := by
  have h2 := forall₂_map_rel (S := RelP R) (fun a b hab => (RelP.peel hab).2) h
  exact ⟨forall₂_map_same (fun a b hab => (RelP.peel hab).1) h, h2, any_rel (fun a b hab => hab.isAbort) h2⟩

/-- Equal logs and related outcomes. -/
def RelOut (R : A → B → Prop) (x : Outcome A × List W × List (List W)) (y : Outcome B × List W × List (List W)) : Prop :=
  SameOutcome R x.1 y.1 ∧ x.2 = y.2

theorem run_rel {p : Prog V W A} {q : Prog V W B} (h : RelP R p q) {os : List (Prog V W A)} {os' : List (Prog V W B)}
    (ho : List.Forall₂ (RelP R) os os') (rl : List W) (ol : List (List W)) :
    RelOut R (run p os rl ol) (run q os' rl ol) := by
  induction h generalizing os os' rl ol with
  | emit w _ ih => exact ih ho _ _
  | abort =>
    unfold run
    rw [(peels ho).1]
    exact ⟨trivial, rfl⟩
  | ret h =>
    obtain ⟨e1, e2, e3⟩ := peels ho
    unfold run
    dsimp only
    rw [e1, e3]
    have hr : ∀ (a : Prog V W A) (b : Prog V W B), RelP R a b → Option.Rel (SameResult R) (a.result? : Option (Except Err A)) (b.result? : Option (Except Err B)) := by
      intro a b hab
      cases hab with
      | ret h => exact .some h
      | raise e => exact .some rfl
      | _ => exact .none
    have hm := mapM_rel hr e2
    split
    · exact ⟨trivial, rfl⟩
    · generalize (os.map (fun p => (Prog.peel p).2)).mapM Prog.result? = x at hm ⊢
      generalize (os'.map (fun p => (Prog.peel p).2)).mapM Prog.result? = y at hm ⊢
      cases hm with
      | none => exact ⟨trivial, rfl⟩
      | some hs => exact ⟨.cons h hs, rfl⟩
  | raise e =>
    obtain ⟨e1, e2, e3⟩ := peels ho
    unfold run
    dsimp only
    rw [e1, e3]
    have hr : ∀ (a : Prog V W A) (b : Prog V W B), RelP R a b → Option.Rel (SameResult R) (a.result? : Option (Except Err A)) (b.result? : Option (Except Err B)) := by
      intro a b hab
      cases hab with
      | ret h => exact .some h
      | raise e => exact .some rfl
      | _ => exact .none
    have hm := mapM_rel hr e2
    split
    · exact ⟨trivial, rfl⟩
    · generalize (os.map (fun p => (Prog.peel p).2)).mapM Prog.result? = x at hm ⊢
      generalize (os'.map (fun p => (Prog.peel p).2)).mapM Prog.result? = y at hm ⊢
      cases hm with
      | none => exact ⟨trivial, rfl⟩
      | some hs => exact ⟨.cons rfl hs, rfl⟩
  | bcast v hk ih =>
    obtain ⟨e1, e2, e3⟩ := peels ho
    unfold run
    dsimp only
    rw [e1, e3]
    have hr : ∀ a b, RelP R a b → Option.Rel (fun (k : V → Prog V W A) (k' : V → Prog V W B) => ∀ x, RelP R (k x) (k' x))
        a.asBcast? b.asBcast? := by
      intro a b hab
      cases hab with
      | bcast v h => exact .some h
      | _ => exact .none
    have hm := mapM_rel hr e2
    split
    · exact ⟨trivial, rfl⟩
    · generalize (os.map (fun p => (Prog.peel p).2)).mapM Prog.asBcast? = x at hm ⊢
      generalize (os'.map (fun p => (Prog.peel p).2)).mapM Prog.asBcast? = y at hm ⊢
      cases hm with
      | none => exact ⟨trivial, rfl⟩
      | some hs => exact ih v (forall₂_map_rel (fun a b hab => hab v) hs) _ _
  | scatter vs hk ih =>
    obtain ⟨e1, e2, e3⟩ := peels ho
    unfold run
    dsimp only
    rw [e1, e3]
    have hr : ∀ a b, RelP R a b → Option.Rel (fun (k : V → Prog V W A) (k' : V → Prog V W B) => ∀ x, RelP R (k x) (k' x))
        a.asScatter? b.asScatter? := by
      intro a b hab
      cases hab with
      | scatter v h => exact .some h
      | _ => exact .none
    have hm := mapM_rel hr e2
    split
    · exact ⟨trivial, rfl⟩
    · generalize (os.map (fun p => (Prog.peel p).2)).mapM Prog.asScatter? = x at hm ⊢
      generalize (os'.map (fun p => (Prog.peel p).2)).mapM Prog.asScatter? = y at hm ⊢
      cases hm with
      | none => exact ⟨trivial, rfl⟩
      | @some ks ks' hs =>
        match vs with
        | none => exact ⟨trivial, rfl⟩
        | some [] => exact ⟨trivial, rfl⟩
        | some (v :: vs') =>
          dsimp only
          rw [hs.length_eq]
          split
          · exact ih v (zipWith_app_rel (fun a b hab x => hab x) hs vs') _ _
          · exact ⟨trivial, rfl⟩
  | gather v hk ih =>
    obtain ⟨e1, e2, e3⟩ := peels ho
    unfold run
    dsimp only
    rw [e1, e3]
    have hr : ∀ a b, RelP R a b → Option.Rel (RelK R) (a.asGather? : Option (V × (Option (List V) → Prog V W A)))
        (b.asGather? : Option (V × (Option (List V) → Prog V W B))) := by
      intro a b hab
      cases hab with
      | gather v h => exact .some ⟨rfl, h⟩
      | _ => exact .none
    have hm := mapM_rel hr e2
    split
    · exact ⟨trivial, rfl⟩
    · generalize (os.map (fun p => (Prog.peel p).2)).mapM Prog.asGather? = x at hm ⊢
      generalize (os'.map (fun p => (Prog.peel p).2)).mapM Prog.asGather? = y at hm ⊢
      cases hm with
      | none => exact ⟨trivial, rfl⟩
      | some hs =>
        dsimp only
        rw [forall₂_map_same (fun a b hab => hab.1) hs]
        exact ih _ (forall₂_map_rel (fun a b hab => hab.2 none) hs) _ _
  | reduce op v hk ih =>
    obtain ⟨e1, e2, e3⟩ := peels ho
    unfold run
    dsimp only
    rw [e1, e3]
    have hr : ∀ a b, RelP R a b → Option.Rel (RelK R) (a.asReduce? : Option (V × (Option V → Prog V W A)))
        (b.asReduce? : Option (V × (Option V → Prog V W B))) := by
      intro a b hab
      cases hab with
      | reduce op v h => exact .some ⟨rfl, h⟩
      | _ => exact .none
    have hm := mapM_rel hr e2
    split
    · exact ⟨trivial, rfl⟩
    · generalize (os.map (fun p => (Prog.peel p).2)).mapM Prog.asReduce? = x at hm ⊢
      generalize (os'.map (fun p => (Prog.peel p).2)).mapM Prog.asReduce? = y at hm ⊢
      cases hm with
      | none => exact ⟨trivial, rfl⟩
      | some hs =>
        dsimp only
        rw [forall₂_map_same (fun a b hab => hab.1) hs]
        exact ih _ (forall₂_map_rel (fun a b hab => hab.2 none) hs) _ _
  | allreduce op v hk ih =>
    obtain ⟨e1, e2, e3⟩ := peels ho
    unfold run
    dsimp only
    rw [e1, e3]
    have hr : ∀ a b, RelP R a b → Option.Rel (RelK R) (a.asAllreduce? : Option (V × (V → Prog V W A)))
        (b.asAllreduce? : Option (V × (V → Prog V W B))) := by
      intro a b hab
      cases hab with
      | allreduce op v h => exact .some ⟨rfl, h⟩
      | _ => exact .none
    have hm := mapM_rel hr e2
    split
    · exact ⟨trivial, rfl⟩
    · generalize (os.map (fun p => (Prog.peel p).2)).mapM Prog.asAllreduce? = x at hm ⊢
      generalize (os'.map (fun p => (Prog.peel p).2)).mapM Prog.asAllreduce? = y at hm ⊢
      cases hm with
      | none => exact ⟨trivial, rfl⟩
      | some hs =>
        dsimp only
        rw [forall₂_map_same (fun a b hab => hab.1) hs]
        exact ih _ (forall₂_map_rel (fun a b hab => hab.2 _) hs) _ _

/-- Two jobs with programs that do the same. -/
theorem runJob_rel {n : Nat} {P : Nat → Prog V W A} {P' : Nat → Prog V W B} (h : ∀ r ≤ n, RelP R (P r) (P' r)) :
    SameOutcome R (runJob n P).1 (runJob n P').1 ∧ (runJob n P).2 = (runJob n P').2 := by
  have ho : List.Forall₂ (RelP R) ((List.range n).map (fun i => P (i + 1))) ((List.range n).map (fun i => P' (i + 1))) := by
    rw [List.forall₂_map_left_iff, List.forall₂_map_right_iff, List.forall₂_same]
    intro i hi
    exact h _ (List.mem_range.mp hi)
  have := run_rel (h 0 (Nat.zero_le n)) ho [] (List.replicate n [])
  unfold runJob
  dsimp only
  refine ⟨this.1, ?_⟩
  rw [this.2]

end Verif.Proofs
