import Verif.Proofs.ExceptList
import Verif.Spec.ArmOrderRead

/-!
# Lemmas: readers with the arms in another order
-/

namespace Verif.Proofs
open Verif Verif.Np Verif.Model Verif.Spec

/-- If the first succeeds, so does the second, with a related value. -/
def OkRel {α β : Type} (R : α → β → Prop) (a : Except Err α) (b : Except Err β) : Prop :=
  ∀ x, a = .ok x → ∃ y, b = .ok y ∧ R x y

theorem OkRel.bind {α β γ δ : Type} {R : α → β → Prop} {S : γ → δ → Prop} {a : Except Err α} {b : Except Err β}
    {f : α → Except Err γ} {g : β → Except Err δ} (h : OkRel R a b) (hf : ∀ x y, R x y → OkRel S (f x) (g y)) :
    OkRel S (a.bind f) (b.bind g) := by
  intro z hz
  cases a with
  | error e => cases hz
  | ok x =>
    obtain ⟨y, rfl, hxy⟩ := h x rfl
    exact hf x y hxy z hz

theorem OkRel.refl {α : Type} {R : α → α → Prop} (hR : ∀ x, R x x) (a : Except Err α) : OkRel R a a :=
  fun x h => ⟨x, h, hR x⟩

theorem OkRel.mapM {α β γ : Type} {R : β → γ → Prop} {f : α → Except Err β} {g : α → Except Err γ} {l : List α}
    (h : ∀ a ∈ l, OkRel R (f a) (g a)) : OkRel (List.Forall₂ R) (l.mapM f) (l.mapM g) := by
  induction l with
  | nil => intro x hx; cases hx; exact ⟨[], rfl, .nil⟩
  | cons a l ih =>
    rw [List.mapM_cons, List.mapM_cons]
    refine OkRel.bind (h a List.mem_cons_self) fun x y hxy => ?_
    refine OkRel.bind (ih fun b hb => h b (List.mem_cons_of_mem _ hb)) fun xs ys hs => ?_
    intro z hz
    cases hz
    exact ⟨_, rfl, .cons hxy hs⟩

/-- `mapM` over a list in another order. -/
theorem OkRel.mapM_perm {α β : Type} {f : α → Except Err β} {l l' : List α} (h : l.Perm l') :
    OkRel List.Perm (l.mapM f) (l'.mapM f) := by
  induction h with
  | nil => exact OkRel.refl (fun _ => .refl _) _
  | cons a _ ih =>
    rw [List.mapM_cons, List.mapM_cons]
    refine OkRel.bind (OkRel.refl (R := fun x y => x = y) (fun _ => rfl) _) fun x y hxy => ?_
    subst hxy
    refine OkRel.bind ih fun xs ys hs => ?_
    intro z hz
    cases hz
    exact ⟨_, rfl, hs.cons x⟩
  | swap a b l =>
    intro z hz
    rw [List.mapM_cons, List.mapM_cons] at hz
    rw [List.mapM_cons, List.mapM_cons]
    cases hb : f b with
    | error e => rw [hb] at hz; cases hz
    | ok y =>
      cases ha : f a with
      | error e => rw [ha, hb] at hz; cases hz
      | ok x =>
        cases hl : l.mapM f with
        | error e => rw [ha, hb, hl] at hz; cases hz
        | ok xs =>
          rw [ha, hb, hl] at hz
          cases hz
          exact ⟨_, rfl, .swap _ _ _⟩
  | trans _ _ ih1 ih2 =>
    intro z hz
    obtain ⟨y, hy, h1⟩ := ih1 z hz
    obtain ⟨w, hw, h2⟩ := ih2 y hy
    exact ⟨w, hw, h1.trans h2⟩

theorem forall₂_flatten {α β : Type} {R : α → β → Prop} {l : List (List α)} {l' : List (List β)}
    (h : List.Forall₂ (List.Forall₂ R) l l') : List.Forall₂ R l.flatten l'.flatten := by
  induction h with
  | nil => exact .nil
  | cons h1 _ ih => exact List.rel_append h1 ih

variable {Val Wv Im Re Co : Type}

theorem fromDictionary_perm (r : Row Val) {data data' : List (ArmData Wv Im Re)} (h : data.Perm data')
    (cont : Option (List Co)) (idx : Nat) : OkRel RawOrder (fromDictionary r data cont idx) (fromDictionary r data' cont idx) := by
  unfold fromDictionary
  have e : data.all (fun a => a.reso.isNone) = data'.all (fun a => a.reso.isNone) := by
    rw [Bool.eq_iff_iff, List.all_eq_true, List.all_eq_true]
    exact ⟨fun hx a ha => hx a (h.mem_iff.mpr ha), fun hx a ha => hx a (h.mem_iff.mp ha)⟩
  rw [e]
  refine OkRel.bind (OkRel.mapM_perm h) fun x y hxy => ?_
  cases cont with
  | none => intro z hz; cases hz; exact ⟨_, rfl, rfl, rfl, hxy⟩
  | some l =>
    refine OkRel.bind (OkRel.refl (R := fun x y => x = y) (fun _ => rfl) (getIdx l idx)) fun a b hab => ?_
    subst hab
    intro z hz
    cases hz
    exact ⟨_, rfl, rfl, rfl, hxy⟩

theorem generateFrom_perm {data data' : List (ArmData Wv Im Re)} (h : data.Perm data') (cont : Option (List Co))
    (rs : List (Row Val)) (idx : Nat) :
    OkRel (List.Forall₂ RawOrder) (generateFrom data cont idx rs) (generateFrom data' cont idx rs) := by
  induction rs generalizing idx with
  | nil => intro z hz; cases hz; exact ⟨[], rfl, .nil⟩
  | cons r rs ih =>
    refine OkRel.bind (fromDictionary_perm r h cont idx) fun x y hxy => ?_
    refine OkRel.bind (ih (idx + 1)) fun xs ys hs => ?_
    intro z hz
    cases hz
    exact ⟨_, rfl, .cons hxy hs⟩

variable [LinearOrder Val]

theorem readOne_perm (argsort : List Val → List Nat) (ids : List Val) (file : Option (SpecFile Val Wv Im Re))
    {arms arms' : List String} (h : arms.Perm arms') (skip : Bool) :
    OkRel (fun x y => x.1.Perm y.1 ∧ x.2 = y.2) (readOneHealpixFile argsort ids file arms skip)
      (readOneHealpixFile argsort ids file arms' skip) := by
  cases file with
  | none => intro x hx; cases hx
  | some file =>
    refine OkRel.bind (OkRel.refl (R := fun x y => x = y) (fun _ => rfl) _) fun a b hab => ?_
    subst hab
    refine OkRel.bind (OkRel.refl (R := fun x y => x = y) (fun _ => rfl) _) fun a b hab => ?_
    subst hab
    refine OkRel.bind (OkRel.mapM_perm h) fun x y hxy => ?_
    refine OkRel.bind (OkRel.refl (R := fun x y => x = y) (fun _ => rfl) _) fun a b hab => ?_
    subst hab
    intro z hz
    cases hz
    exact ⟨_, rfl, hxy, rfl⟩

theorem readGroup_perm (argsort : List Val → List Nat) (file : Option (SpecFile Val Wv Im Re))
    {arms arms' : List String} (h : arms.Perm arms') (skip : Bool) (cat : List (Row Val)) :
    OkRel (List.Forall₂ RawOrder) (readGroup (Co := Co) argsort file arms skip cat)
      (readGroup (Co := Co) argsort file arms' skip cat) := by
  refine OkRel.bind (readOne_perm argsort _ file h skip) ?_
  rintro ⟨x, xi, xf⟩ ⟨y, yi, yf⟩ ⟨hxy, e⟩
  cases e
  refine OkRel.bind (OkRel.refl (R := fun x y => x = y) (fun _ => rfl) _) fun a b hab => ?_
  subst hab
  exact generateFrom_perm hxy none a 0

theorem readGroupUncoadd_perm (argsort : List Val → List Nat) (cols : List String) (file : Option (SpecFile Val Wv Im Re))
    {arms arms' : List String} (h : arms.Perm arms') (skip : Bool) (cat : List (Row Val)) :
    OkRel (List.Forall₂ RawOrder) (readGroupUncoadd (Co := Co) argsort cols file arms skip cat)
      (readGroupUncoadd (Co := Co) argsort cols file arms' skip cat) := by
  refine OkRel.bind (readOne_perm argsort _ file h skip) ?_
  rintro ⟨x, xi, xf⟩ ⟨y, yi, yf⟩ ⟨hxy, e⟩
  cases e
  refine OkRel.bind (OkRel.refl (R := fun x y => x = y) (fun _ => rfl) _) fun a b hab => ?_
  subst hab
  refine OkRel.bind (OkRel.refl (R := fun x y => x = y) (fun _ => rfl) _) fun c d hcd => ?_
  subst hcd
  split
  · intro z hz; cases hz
  · exact generateFrom_perm hxy none _ 0

theorem healpixCoadd_perm (argsort : List Val → List Nat) (files : Val → Val → Option (SpecFile Val Wv Im Re))
    {arms arms' : List String} (h : arms.Perm arms') (skip : Bool) (cat : List (Row Val)) :
    OkRel (List.Forall₂ RawOrder) (readHealpixCoadd (Co := Co) argsort files arms skip cat)
      (readHealpixCoadd (Co := Co) argsort files arms' skip cat) := by
  refine OkRel.bind (OkRel.refl (R := fun x y => x = y) (fun _ => rfl) _) fun a b hab => ?_
  subst hab
  refine OkRel.bind (OkRel.mapM (R := List.Forall₂ RawOrder) fun g _ => ?_) fun x y hxy => ?_
  · refine OkRel.bind (OkRel.refl (R := fun x y => x = y) (fun _ => rfl) _) fun c d hcd => ?_
    subst hcd
    exact readGroup_perm argsort _ h skip g
  · intro z hz
    cases hz
    exact ⟨_, rfl, forall₂_flatten hxy⟩

theorem healpixUncoadd_perm (argsort : List Val → List Nat) (cols : List String)
    (files : Val → Val → Option (SpecFile Val Wv Im Re))
    {arms arms' : List String} (h : arms.Perm arms') (skip : Bool) (cat : List (Row Val)) :
    OkRel (List.Forall₂ RawOrder) (readHealpixUncoadd (Co := Co) argsort cols files arms skip cat)
      (readHealpixUncoadd (Co := Co) argsort cols files arms' skip cat) := by
  refine OkRel.bind (OkRel.refl (R := fun x y => x = y) (fun _ => rfl) _) fun a b hab => ?_
  subst hab
  refine OkRel.bind (OkRel.mapM (R := List.Forall₂ RawOrder) fun g _ => ?_) fun x y hxy => ?_
  · refine OkRel.bind (OkRel.refl (R := fun x y => x = y) (fun _ => rfl) _) fun c d hcd => ?_
    subst hcd
    exact readGroupUncoadd_perm argsort cols _ h skip g
  · intro z hz
    cases hz
    exact ⟨_, rfl, forall₂_flatten hxy⟩

theorem tile_perm (argsort : List Val → List Nat) (files : Val → Val → Val → Option (SpecFile Val Wv Im Re))
    {arms arms' : List String} (h : arms.Perm arms') (skip : Bool) (cat : List (Row Val)) :
    OkRel (List.Forall₂ RawOrder) (readTile (Co := Co) argsort files arms skip cat)
      (readTile (Co := Co) argsort files arms' skip cat) := by
  refine OkRel.bind (OkRel.refl (R := fun x y => x = y) (fun _ => rfl) _) fun a b hab => ?_
  subst hab
  refine OkRel.bind (OkRel.mapM (R := List.Forall₂ RawOrder) fun g _ => ?_) fun x y hxy => ?_
  · refine OkRel.bind (OkRel.refl (R := fun x y => x = y) (fun _ => rfl) _) fun c d hcd => ?_
    subst hcd
    exact readGroup_perm argsort _ h skip g
  · intro z hz
    cases hz
    exact ⟨_, rfl, forall₂_flatten hxy⟩

theorem mock_perm (argsort : List Val → List Nat) (files : Val → Option (SpecFile Val Wv Im Re))
    (truths : Val → Option (TruthFile Val Re Co))
    {arms arms' : List String} (h : arms.Perm arms') (skip tc : Bool) (cat : List (Row Val)) :
    OkRel (List.Forall₂ RawOrder) (readMock argsort files truths arms skip tc cat)
      (readMock argsort files truths arms' skip tc cat) := by
  refine OkRel.bind (OkRel.refl (R := fun x y => x = y) (fun _ => rfl) _) fun a b hab => ?_
  subst hab
  refine OkRel.bind (readOne_perm argsort _ _ h skip) ?_
  rintro ⟨x, xi, xf⟩ ⟨y, yi, yf⟩ ⟨hxy, e⟩
  cases e
  refine OkRel.bind (OkRel.refl (R := fun x y => x = y) (fun _ => rfl) _) fun c d hcd => ?_
  subst hcd
  refine OkRel.bind (OkRel.refl (R := fun x y => x = y) (fun _ => rfl) _) fun p q hpq => ?_
  subst hpq
  split
  · exact generateFrom_perm hxy p c 0
  · split
    · intro z hz; cases hz
    · rename_i t _
      exact OkRel.bind (OkRel.mapM_perm hxy) fun u v huv => generateFrom_perm huv p c 0

theorem readsSame_of {a a' : Except Err (List (RawSpectrum Val Wv Im Re Co))}
    (h : OkRel (List.Forall₂ RawOrder) a a') (h' : OkRel (List.Forall₂ RawOrder) a' a) : ReadsSame a a' := by
  refine ⟨h, fun l' hl' => ?_⟩
  obtain ⟨l, hl, hr⟩ := h' l' hl'
  refine ⟨l, hl, hr.flip.imp ?_⟩
  exact fun x y hxy => ⟨hxy.1.symm, hxy.2.1.symm, hxy.2.2.symm⟩

end Verif.Proofs
