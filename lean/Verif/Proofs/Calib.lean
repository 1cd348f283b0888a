import Verif.Model.Calib
import Verif.Proofs.Sync
import Mathlib.Tactic.Linarith
import Mathlib.Tactic.Ring
import Mathlib.Tactic.FieldSimp
import Mathlib.Algebra.Order.Group.Abs
import Mathlib.Algebra.Order.Ring.Abs
import Mathlib.Algebra.BigOperators.Group.List.Basic

/-!
# Lemmas on the calibration script
-/

namespace Verif.Proofs
open Verif.Model Verif.Model.Prog Verif.Np

/-! ### `mpi_fnc_bcast` in step -/

theorem sync_fncBcast {V W β : Type} (n : Nat) (c : Codec (Option β) V) (called : W) (fnc : Nat → Except Err β)
    {x : β} (h : fnc 0 = .ok x) :
    Sync n (fun r => mpiFncBcast c called (fnc r) true r) (fun _ => .ok x)
      (fun r => if r = 0 then [called] else []) := by
  have h1 := sync_emits (fun r => if r = 0 then [called] else [])
    (sync_bcast (n := n) (fun r => c.enc (if r = 0 then some x else none))
      (k := fun _ v => (orRaise .qsonic (c.dec v) : Prog V W β)) (x := fun _ => .ok x) (M := fun _ => []) (by
        simp only [if_true, c.dec_enc]
        exact sync_ret n _))
  refine h1.congr (fun r _ => ?_) (fun _ _ => rfl) (fun r _ => by rw [List.append_nil])
  unfold mpiFncBcast
  by_cases h0 : r = 0
  · subst h0
    rw [h]
    rfl
  · simp [h0, emits]

theorem sync_fncBcast_error {V W β : Type} (n : Nat) (c : Codec (Option β) V) (called : W)
    (fnc : Nat → Except Err β) {e : Err} (h : fnc 0 = .error e) (he : e.isException = true) :
    Sync n (fun r => mpiFncBcast c called (fnc r) true r) (fun _ => .error .qsonic)
      (fun r => if r = 0 then [called] else []) := by
  have h1 := sync_emits (fun r => if r = 0 then [called] else [])
    (sync_bcast (n := n) (fun _ => c.enc none)
      (k := fun _ v => (orRaise .qsonic (c.dec v) : Prog V W β)) (x := fun _ => .error .qsonic) (M := fun _ => []) (by
        simp only [c.dec_enc]
        exact sync_raise n _))
  refine h1.congr (fun r _ => ?_) (fun _ _ => rfl) (fun r _ => by rw [List.append_nil])
  unfold mpiFncBcast
  by_cases h0 : r = 0
  · subst h0
    rw [h]
    simp [he, emits]
  · simp [h0, emits]

theorem sync_ofExcept {V W A : Type} (n : Nat) (x : Nat → Except Err A) :
    Sync n (fun r => (ofExcept (x r) : Prog V W A)) x (fun _ => []) := by
  refine (sync_fin n x).congr (fun r _ => ?_) (fun _ _ => rfl) (fun _ _ => rfl)
  cases x r <;> rfl

/-! ### Files -/

theorem flatMap_take_drop {α : Type} (l : List α) (p m : Nat) :
    (List.range m).flatMap (fun r => (l.drop (p * r)).take p) = l.take (p * m) := by
  induction m with
  | zero => simp
  | succ m ih =>
    rw [List.range_succ, List.flatMap_append, ih, List.flatMap_singleton, Nat.mul_succ, List.take_add]

theorem filesThisRank_eq {α : Type} (files : List α) (rank size : Nat) :
    filesThisRank files rank size =
      (files.drop (max 1 (files.length / size) * rank)).take (max 1 (files.length / size)) := by
  unfold filesThisRank
  dsimp only
  generalize max 1 (files.length / size) = p
  rw [List.take_eq_take_iff, List.length_drop]
  omega

theorem flatMap_files {α : Type} (files : List α) (size : Nat) :
    (List.range size).flatMap (fun r => filesThisRank files r size) =
      files.take (max 1 (files.length / size) * size) := by
  rw [← flatMap_take_drop]
  refine List.flatMap_congr fun r _ => ?_
  exact filesThisRank_eq files r size

/-! ### Stacking -/

section
variable {K : Type} [Field K] [LinearOrder K] [FloorRing K]

theorem length_fancyIadd (a : List K) (p : List (Nat × K)) : (fancyIadd a p).length = a.length := by
  unfold fancyIadd
  have : ∀ b : List K, (p.foldl (fun b x => b.set x.1 (a.getD x.1 0 + x.2)) b).length = b.length := by
    induction p with
    | nil => exact fun _ => rfl
    | cons x p ih =>
      intro b
      rw [List.foldl_cons, ih, List.length_set]
  exact this a

/-- With distinct indices every value is added. -/
theorem getD_fancyIadd (a : List K) (p : List (Nat × K)) (hn : (p.map Prod.fst).Nodup)
    (hl : ∀ x ∈ p, x.1 < a.length) (j : Nat) :
    (fancyIadd a p).getD j 0 = a.getD j 0 + ((p.filter (fun x => decide (x.1 = j))).map Prod.snd).sum := by
  have key : ∀ b : List K, b.length = a.length →
      (p.foldl (fun b x => b.set x.1 (a.getD x.1 0 + x.2)) b).getD j 0 =
        if j ∈ p.map Prod.fst then a.getD j 0 + ((p.filter (fun x => decide (x.1 = j))).map Prod.snd).sum
        else b.getD j 0 := by
    induction p with
    | nil => intro b _; simp
    | cons x p ih =>
      intro b hb
      rw [List.map_cons, List.nodup_cons] at hn
      rw [List.foldl_cons, ih hn.2 (fun y hy => hl y (.tail _ hy)) _ (by rw [List.length_set, hb])]
      by_cases hj : j = x.1
      · subst hj
        rw [if_neg hn.1, if_pos (by simp)]
        have hx := hl x (.head _)
        have e : p.filter (fun y => decide (y.1 = x.1)) = [] := by
          rw [List.filter_eq_nil_iff]
          intro y hy he
          rw [decide_eq_true_eq] at he
          exact hn.1 (List.mem_map.mpr ⟨y, hy, he⟩)
        rw [List.filter_cons, if_pos (by simp), e]
        simp [List.getD_eq_getElem?_getD, hx, hb]
      · have h1 : (j ∈ (x :: p).map Prod.fst) ↔ j ∈ p.map Prod.fst := by
          rw [List.map_cons, List.mem_cons]
          exact or_iff_right hj
        have h2 : (x :: p).filter (fun y => decide (y.1 = j)) = p.filter (fun y => decide (y.1 = j)) := by
          rw [List.filter_cons, if_neg]
          rw [decide_eq_true_eq]
          exact fun h => hj h.symm
        have h3 : (b.set x.1 (a.getD x.1 0 + x.2)).getD j 0 = b.getD j 0 := by
          rw [List.getD_eq_getElem?_getD, List.getElem?_set_ne (fun h => hj h.symm), ← List.getD_eq_getElem?_getD]
        rw [h2, h3]
        exact if_congr h1.symm rfl rfl
  have h := key a rfl
  unfold fancyIadd
  rw [h]
  split
  · rfl
  · next hj =>
    have e : p.filter (fun y => decide (y.1 = j)) = [] := by
      rw [List.filter_eq_nil_iff]
      intro y hy he
      rw [decide_eq_true_eq] at he
      exact hj (List.mem_map.mpr ⟨y, hy, he⟩)
    rw [e]
    simp

theorem length_vecSum (n : Nat) (l : List (List K)) (h : ∀ a ∈ l, a.length = n) : (vecSum n l).length = n := by
  unfold vecSum
  have : ∀ b : List K, b.length = n → (l.foldl (fun a b => List.zipWith (· + ·) a b) b).length = n := by
    induction l with
    | nil => exact fun _ h => h
    | cons a l ih =>
      intro b hb
      rw [List.foldl_cons]
      exact ih (fun x hx => h x (.tail _ hx)) _ (by rw [List.length_zipWith, hb, h a (.head _), min_self])
  exact this _ (List.length_replicate ..)

theorem getD_vecSum (n : Nat) (l : List (List K)) (h : ∀ a ∈ l, a.length = n) (j : Nat) (hj : j < n) :
    (vecSum n l).getD j 0 = (l.map (fun a => a.getD j 0)).sum := by
  unfold vecSum
  have : ∀ b : List K, b.length = n → (l.foldl (fun a b => List.zipWith (· + ·) a b) b).getD j 0 =
      b.getD j 0 + (l.map (fun a => a.getD j 0)).sum := by
    induction l with
    | nil => intro b _; simp
    | cons a l ih =>
      intro b hb
      have ha := h a (.head _)
      rw [List.foldl_cons, ih (fun x hx => h x (.tail _ hx)) _ (by rw [List.length_zipWith, hb, ha, min_self])]
      have : (List.zipWith (· + ·) b a).getD j 0 = b.getD j 0 + a.getD j 0 := by
        simp [List.getD_eq_getElem?_getD, hb, ha, hj]
      rw [this, List.map_cons, List.sum_cons, add_assoc]
  rw [this _ (List.length_replicate ..)]
  simp [List.getD_eq_getElem?_getD, hj]

variable [IsStrictOrderedRing K]

/-- No tie: `round` is the nearest integer. -/
theorem pyRound_eq_iff {x : K} (h : x - ⌊x⌋ ≠ 1 / 2) (j : Int) : pyRound x = j ↔ |x - j| < 1 / 2 := by
  have h1 := Int.floor_le x
  have h2 := Int.lt_floor_add_one x
  unfold pyRound
  rw [abs_lt]
  constructor
  · rintro rfl
    split
    · next h3 => constructor <;> linarith
    · next h3 =>
      have h4 : 1 / 2 < x - ⌊x⌋ := lt_of_le_of_ne (not_lt.mp h3) (Ne.symm h)
      rw [if_pos h4]
      push_cast
      constructor <;> linarith
  · rintro ⟨h3, h4⟩
    split
    · next h5 =>
      have : (⌊x⌋ : K) < j + 1 := by linarith
      have h6 : ⌊x⌋ < j + 1 := by exact_mod_cast this
      have : (j : K) < ⌊x⌋ + 1 := by linarith
      have h7 : j < ⌊x⌋ + 1 := by exact_mod_cast this
      omega
    · next h5 =>
      have h5' : 1 / 2 < x - ⌊x⌋ := lt_of_le_of_ne (not_lt.mp h5) (Ne.symm h)
      rw [if_pos h5']
      have : (⌊x⌋ : K) < j := by linarith
      have h6 : ⌊x⌋ < j := by exact_mod_cast this
      have : (j : K) < ⌊x⌋ + 2 := by linarith
      have h7 : j < ⌊x⌋ + 2 := by exact_mod_cast this
      omega

end

end Verif.Proofs
