import Verif.Model.Calibration
import Verif.Proofs.MaskSeq

/-! # Lemmas on the calibrators -/

namespace Verif.Proofs
open Verif.Np Verif.Model Verif.Spec

section
variable {α β : Type}

/-- Updates of a dictionary along the entries of another one, by arm. -/
theorem foldl_update_arm {F : String → List α → List β → List β} {l : Dict (List α)}
    {d : Dict (List β)} (hl : l.keys.Nodup) (hk : d.keys = l.keys) :
    (l.foldl (fun (d : Dict (List β)) x => d.set x.1 (F x.1 x.2 (d.arr x.1))) d).keys = d.keys ∧
    ∀ a ∈ l.keys, (l.foldl (fun (d : Dict (List β)) x => d.set x.1 (F x.1 x.2 (d.arr x.1))) d).arr a =
      F a (l.arr a) (d.arr a) := by
  have gen : ∀ (m : Dict (List α)) (d : Dict (List β)), m.keys.Nodup → (∀ a ∈ m.keys, a ∈ d.keys) →
      (m.foldl (fun (d : Dict (List β)) x => d.set x.1 (F x.1 x.2 (d.arr x.1))) d).keys = d.keys ∧
      ∀ a, (m.foldl (fun (d : Dict (List β)) x => d.set x.1 (F x.1 x.2 (d.arr x.1))) d).arr a =
        if a ∈ m.keys then F a (m.arr a) (d.arr a) else d.arr a := by
    intro m
    induction m with
    | nil => intro d _ _; exact ⟨rfl, fun a => by simp [Dict.keys]⟩
    | cons x m ih =>
      intro d hn hs
      obtain ⟨x1, x2⟩ := x
      rw [keys_cons, List.nodup_cons] at hn
      have hx : x1 ∈ d.keys := hs x1 (by rw [keys_cons]; simp)
      have hset : (d.set x1 (F x1 x2 (d.arr x1))).keys = d.keys := by
        rw [keys_set, if_pos hx]
      obtain ⟨h1, h2⟩ := ih (d.set x1 (F x1 x2 (d.arr x1))) hn.2 (fun a ha => by
        rw [hset]; exact hs a (by rw [keys_cons]; simp [ha]))
      rw [List.foldl_cons]
      refine ⟨by rw [h1, hset], fun a => ?_⟩
      rw [h2, arr_set]
      by_cases e : a = x1
      · subst e
        rw [if_neg hn.1, if_pos rfl, if_pos (by rw [keys_cons]; simp)]
        have : Dict.arr ((a, x2) :: m) a = x2 := arr_of_lookup (by simp)
        rw [this]
      · rw [if_neg e]
        have : Dict.arr ((x1, x2) :: m) a = Dict.arr m a := by
          unfold Dict.arr
          rw [List.lookup_cons, show (a == x1) = false by simpa using e]
        rw [this, keys_cons]
        simp [e]
  obtain ⟨h1, h2⟩ := gen l d hl (fun a ha => by rw [hk]; exact ha)
  exact ⟨h1, fun a ha => by rw [h2, if_pos ha]⟩
end

variable {K : Type} [Field K] [LinearOrder K]

/-- New ivar of all arms, by arm. -/
theorem foldl_setIvar (F : String → List K → List K → List K) (l : Dict (List K)) (s : Spectrum K) :
    l.foldl (fun s x => s.setIvar x.1 (F x.1 x.2 (s.fivar.arr x.1))) s =
      { s with
        fivar := l.foldl (fun (d : Dict (List K)) x => d.set x.1 (F x.1 x.2 (d.arr x.1))) s.fivar } := by
  induction l generalizing s with
  | nil => rfl
  | cons x l ih => rw [List.foldl_cons, ih]; rfl

/-- The additive branch as a plain fold, when every arm has a continuum. -/
theorem foldlM_additive (eta varlss : K → K) (cont : Dict (List K)) (l : Dict (List K)) (s : Spectrum K)
    (hc : s.cont = cont) (h : ∀ x ∈ l, x.1 ∈ cont.keys) :
    l.foldlM (additiveArm eta varlss) s =
      .ok (l.foldl (fun s x => s.setIvar x.1
        ((fun a w y => List.zipWith (fun w p => additivePix (eta w) (varlss w) p.1 p.2) w
          ((cont.arr a).zip y)) x.1 x.2 (s.fivar.arr x.1))) s) := by
  induction l generalizing s with
  | nil => rfl
  | cons x l ih =>
    have hx := lookup_eq_arr (h x List.mem_cons_self)
    have e : additiveArm eta varlss s x = .ok (s.setIvar x.1
        (List.zipWith (fun w p => additivePix (eta w) (varlss w) p.1 p.2) x.2
          ((cont.arr x.1).zip (s.fivar.arr x.1)))) := by
      unfold additiveArm
      rw [hc, hx]
      rfl
    rw [List.foldlM_cons, e]
    exact ih _ hc (fun y hy => h y (List.mem_cons_of_mem _ hy))

/-- An arm without continuum is an error. -/
theorem foldlM_additive_error (eta varlss : K → K) (l : Dict (List K)) (s : Spectrum K)
    (h : ∃ x ∈ l, x.1 ∉ s.cont.keys) :
    l.foldlM (additiveArm eta varlss) s = .error .keyError := by
  induction l generalizing s with
  | nil => simp at h
  | cons x l ih =>
    rw [List.foldlM_cons]
    cases hl : s.cont.lookup x.1 with
    | none =>
      have e : additiveArm eta varlss s x = .error .keyError := by
        unfold additiveArm; rw [hl]; rfl
      rw [e]; rfl
    | some c =>
      have e : additiveArm eta varlss s x = .ok (s.setIvar x.1
          (List.zipWith (fun w p => additivePix (eta w) (varlss w) p.1 p.2) x.2
            (c.zip (s.fivar.arr x.1)))) := by
        unfold additiveArm; rw [hl]; rfl
      rw [e]
      refine ih _ ?_
      obtain ⟨y, hy, hy'⟩ := h
      rcases List.mem_cons.mp hy with rfl | hy
      · exact absurd (mem_keys_of_lookup hl) hy'
      · exact ⟨y, hy, hy'⟩

theorem zipWith_pix {α β γ : Type} {f : α → β → γ} {l : List α} {m : List β} {i : Nat} {a : α} {b : β}
    (h1 : l[i]? = some a) (h2 : m[i]? = some b) : (List.zipWith f l m)[i]? = some (f a b) := by
  rw [List.getElem?_zipWith, h1, h2]

end Verif.Proofs
