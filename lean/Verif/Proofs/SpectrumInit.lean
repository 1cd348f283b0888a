import Verif.Proofs.Dict
import Verif.Proofs.ExceptList
import Verif.Spec.Spectrum

/-! Lemmas about the constructor. -/

namespace Verif.Proofs
open Verif.Np Verif.Model Verif.Spec List

variable {K : Type} [Field K] [LinearOrder K]

theorem dictGet_ok {α : Type} {d : Dict α} {k : String} {v : α} :
    dictGet d k = .ok v ↔ d.lookup k = some v := by
  unfold dictGet
  cases d.lookup k <;> simp

theorem except_bind_eq_ok {ε α β : Type} {x : Except ε α} {f : α → Except ε β} {b : β} :
    (x >>= f) = .ok b ↔ ∃ a, x = .ok a ∧ f a = .ok b := by
  cases x with
  | error e => simp
  | ok a => simp

theorem cleanArm_ok {mask : List Nat} {flux ivar : List (Fl K)} {c : List (Fl K) × List (Fl K)}
    (h : cleanArm mask flux ivar = .ok c) :
    mask.length = flux.length ∧ ivar.length = flux.length ∧ c.1.length = flux.length ∧
      c.2.length = flux.length ∧
      ∀ (i : Nat) m f v, mask[i]? = some m → flux[i]? = some f → ivar[i]? = some v →
        c.1[i]? = some (zeroBad f (badPixel m f v)) ∧ c.2[i]? = some (zeroBad v (badPixel m f v)) := by
  unfold cleanArm at h
  split at h
  next hl =>
    simp only [Except.ok.injEq] at h
    subst h
    refine ⟨hl.1, hl.2.symm, by simp; omega, by simp; omega, ?_⟩
    intro i m f v hm hf hv
    constructor <;> simp [List.getElem?_zipWith, List.getElem?_zip_eq_some, hm, hf, hv, List.zip]
  · simp at h

/-- What one step of the loop does. -/
theorem initStep_ok {d : InitData K} {s t : InitSpec K} {arm : String}
    (h : initStep d s arm = .ok t) :
    ∃ flux ivar mask c, d.flux.lookup arm = some flux ∧ d.ivar.lookup arm = some ivar ∧
      d.mask.lookup arm = some mask ∧ cleanArm mask flux ivar = .ok c ∧
      t.flux = s.flux.set arm c.1 ∧ t.ivar = s.ivar.set arm c.2 ∧
      (d.reso = [] ∧ t.reso = s.reso ∨
        ∃ r, d.reso ≠ [] ∧ d.reso.lookup arm = some r ∧ t.reso = s.reso.set arm r) := by
  unfold initStep at h
  simp only [except_bind_eq_ok, dictGet_ok] at h
  obtain ⟨flux, hf, ivar, hv, mask, hm, c, hc, h⟩ := h
  refine ⟨flux, ivar, mask, c, hf, hv, hm, hc, ?_⟩
  split at h
  next hr =>
    simp at h
    subst h
    exact ⟨rfl, rfl, Or.inl ⟨hr, rfl⟩⟩
  next hr =>
    simp only [except_bind_eq_ok, dictGet_ok] at h
    obtain ⟨r, hr', h⟩ := h
    simp at h
    subst h
    exact ⟨rfl, rfl, Or.inr ⟨r, hr, hr', rfl⟩⟩

/-- The entries of an arm after the constructor's loop. -/
structure ArmInit (d : InitData K) (s : InitSpec K) (arm : String) : Prop where
  ex : ∃ flux ivar mask c, d.flux.lookup arm = some flux ∧ d.ivar.lookup arm = some ivar ∧
      d.mask.lookup arm = some mask ∧ cleanArm mask flux ivar = .ok c ∧
      s.flux.lookup arm = some c.1 ∧ s.ivar.lookup arm = some c.2 ∧
      (d.reso = [] ∨ ∃ r, d.reso.lookup arm = some r ∧ s.reso.lookup arm = some r)

theorem init_foldlM {d : InitData K} {arms : List String} {s t : InitSpec K}
    (h : arms.foldlM (initStep d) s = .ok t) (done : String → Prop)
    (hs : ∀ a, done a → ArmInit d s a) : ∀ a, done a ∨ a ∈ arms → ArmInit d t a := by
  induction arms generalizing s done with
  | nil =>
    simp at h
    subst h
    intro a ha
    rcases ha with ha | ha
    · exact hs a ha
    · simp at ha
  | cons x arms ih =>
    rw [List.foldlM_cons, except_bind_eq_ok] at h
    obtain ⟨u, hu, h⟩ := h
    obtain ⟨flux, ivar, mask, c, hf, hv, hm, hc, e1, e2, e3⟩ := initStep_ok hu
    intro a ha
    refine ih h (fun a => done a ∨ a = x) ?_ a (by
      rcases ha with ha | ha
      · exact Or.inl (Or.inl ha)
      · rcases List.mem_cons.mp ha with ha | ha
        · exact Or.inl (Or.inr ha)
        · exact Or.inr ha)
    intro a ha
    by_cases hax : a = x
    · subst hax
      refine ⟨flux, ivar, mask, c, hf, hv, hm, hc, ?_, ?_, ?_⟩
      · rw [e1, lookup_set, if_pos rfl]
      · rw [e2, lookup_set, if_pos rfl]
      · rcases e3 with ⟨h1, _⟩ | ⟨r, _, h2, h3⟩
        · exact Or.inl h1
        · exact Or.inr ⟨r, h2, by rw [h3, lookup_set, if_pos rfl]⟩
    · have ha' : done a := by
        rcases ha with ha | ha
        · exact ha
        · exact absurd ha hax
      obtain ⟨flux', ivar', mask', c', hf', hv', hm', hc', g1, g2, g3⟩ := (hs a ha').ex
      refine ⟨flux', ivar', mask', c', hf', hv', hm', hc', ?_, ?_, ?_⟩
      · rw [e1, lookup_set, if_neg hax, g1]
      · rw [e2, lookup_set, if_neg hax, g2]
      · rcases g3 with g3 | ⟨r', g3, g4⟩
        · exact Or.inl g3
        · refine Or.inr ⟨r', g3, ?_⟩
          rcases e3 with ⟨h1, h2⟩ | ⟨r, _, h2, h3⟩
          · rw [h2, g4]
          · rw [h3, lookup_set, if_neg hax, g4]

theorem init_keys {d : InitData K} {arms : List String} {s t : InitSpec K}
    (h : arms.foldlM (initStep d) s = .ok t) :
    (∀ a, a ∈ t.flux.keys ↔ a ∈ s.flux.keys ∨ a ∈ arms) ∧
      ∀ a, a ∈ t.ivar.keys ↔ a ∈ s.ivar.keys ∨ a ∈ arms := by
  induction arms generalizing s with
  | nil => simp at h; subst h; simp
  | cons x arms ih =>
    rw [List.foldlM_cons, except_bind_eq_ok] at h
    obtain ⟨u, hu, h⟩ := h
    obtain ⟨flux, ivar, mask, c, hf, hv, hm, hc, e1, e2, e3⟩ := initStep_ok hu
    obtain ⟨h1, h2⟩ := ih h
    constructor
    · intro a
      rw [h1, e1, mem_keys_set, List.mem_cons]
      tauto
    · intro a
      rw [h2, e2, mem_keys_set, List.mem_cons]
      tauto

theorem init_foldlM_ok {d : InitData K} {arms : List String} (s : InitSpec K)
    (h : ∀ a ∈ arms, ∃ flux ivar mask, d.flux.lookup a = some flux ∧ d.ivar.lookup a = some ivar ∧
      d.mask.lookup a = some mask ∧ mask.length = flux.length ∧ flux.length = ivar.length ∧
      (d.reso = [] ∨ a ∈ d.reso.keys)) :
    ∃ t, arms.foldlM (initStep d) s = .ok t := by
  induction arms generalizing s with
  | nil => exact ⟨s, rfl⟩
  | cons x arms ih =>
    obtain ⟨flux, ivar, mask, h1, h2, h3, h4, h5, h6⟩ := h x (by simp)
    have : ∃ u, initStep d s x = .ok u := by
      unfold initStep
      simp only [dictGet_ok.mpr h1, dictGet_ok.mpr h2, dictGet_ok.mpr h3, except_bind_ok, cleanArm,
        h4, h5, and_self, if_true]
      split
      · exact ⟨_, rfl⟩
      next hr =>
        rcases h6 with h6 | h6
        · exact absurd h6 hr
        · obtain ⟨r, hr'⟩ := lookup_isSome h6
          simp only [dictGet_ok.mpr hr', except_bind_ok]
          exact ⟨_, rfl⟩
    obtain ⟨u, hu⟩ := this
    obtain ⟨t, ht⟩ := ih u (fun a ha => h a (by simp [ha]))
    exact ⟨t, by rw [List.foldlM_cons, hu]; exact ht⟩

end Verif.Proofs
