import Verif.Model.MpiUtils
import Verif.Spec.Balance
import Mathlib.Tactic.Linarith
import Mathlib.Tactic.Ring
import Mathlib.Algebra.BigOperators.Group.List.Basic
import Mathlib.Algebra.Order.BigOperators.Group.List

/-! Helper lemmas about `balance_load`. -/

namespace Verif.Proofs
open Verif.Np Verif.Model List

variable {α : Type}


abbrev qload (q : List (List α)) : Nat := Verif.Spec.queueLoad q

theorem flatten_modify_append_perm (qs : List (List (List α))) (i : Nat) (h : i < qs.length)
    (c : List α) : (qs.modify i (· ++ [c])).flatten ~ c :: qs.flatten := by
  induction qs generalizing i with
  | nil => simp at h
  | cons q qs ih =>
    cases i with
    | zero =>
      simp only [List.modify_zero_cons, List.flatten_cons]
      rw [List.append_assoc]
      exact (List.perm_append_comm_assoc q [c] qs.flatten)
    | succ i =>
      simp only [List.modify_succ_cons, List.flatten_cons]
      refine (List.Perm.append_left q (ih i (by simpa using h))).trans ?_
      exact List.perm_middle

theorem map_qload_modify (qs : List (List (List α))) (i : Nat) (c : List α) :
    (qs.modify i (· ++ [c])).map qload = (qs.map qload).modify i (· + c.length) := by
  induction qs generalizing i with
  | nil => simp
  | cons q qs ih =>
    cases i with
    | zero => simp [qload, Verif.Spec.queueLoad]
    | succ i => simp [ih]

/-- Invariant of the loop: the load counters are the loads of the queues. -/
structure BInv (n : Nat) (st : List Nat × List (List (List α))) : Prop where
  len : st.2.length = n
  loads : st.1 = st.2.map qload

theorem BInv.init (n : Nat) :
    BInv n ((List.replicate n 0, List.replicate n []) : List Nat × List (List (List α))) :=
  ⟨by simp, by simp [qload, Verif.Spec.queueLoad]⟩

theorem balanceStep_ok {n : Nat} (hn : 0 < n) {st : List Nat × List (List (List α))}
    (hI : BInv n st) (c : List α) :
    ∃ i, ∃ h : i < st.1.length, (∀ x ∈ st.1, st.1[i] ≤ x) ∧
      balanceStep st c = .ok (st.1.modify i (· + c.length), st.2.modify i (· ++ [c])) ∧
      BInv n (st.1.modify i (· + c.length), st.2.modify i (· ++ [c])) := by
  have hlen : st.1.length = n := by rw [hI.loads, List.length_map, hI.len]
  have hne : st.1 ≠ [] := by
    intro h; rw [h] at hlen; simp at hlen; omega
  obtain ⟨i, hi, hlt, hmin⟩ := argmin_spec hne
  refine ⟨i, hlt, hmin, by simp [balanceStep, hi], ?_, ?_⟩
  · simp [hI.len]
  · simp only [map_qload_modify]; rw [hI.loads]

theorem balanceLoop_ok {n : Nat} (hn : 0 < n) (cats : List (List α))
    {st : List Nat × List (List (List α))} (hI : BInv n st) :
    ∃ st', balanceLoop cats st = .ok st' ∧ BInv n st' ∧ st'.2.flatten ~ st.2.flatten ++ cats := by
  induction cats generalizing st with
  | nil => exact ⟨st, rfl, hI, by simp⟩
  | cons c cats ih =>
    obtain ⟨i, h, -, hs, hI'⟩ := balanceStep_ok hn hI c
    obtain ⟨st', h1, h2, h3⟩ := ih hI'
    refine ⟨st', by simp [balanceLoop, hs, h1], h2, ?_⟩
    have hi2 : i < st.2.length := by
      have := h; rw [hI.loads] at this; simpa using this
    refine h3.trans ?_
    refine ((flatten_modify_append_perm st.2 i hi2 c).append_right cats).trans ?_
    simpa using List.perm_middle.symm

/-- Spread of the loads. -/
def Spread (M : Nat) (l : List Nat) : Prop := ∀ a ∈ l, ∀ b ∈ l, a ≤ b + M

theorem Spread.step {M : Nat} {l : List Nat} (hl : Spread M l) {i : Nat} (h : i < l.length)
    (hmin : ∀ x ∈ l, l[i] ≤ x) {c : Nat} (hc : c ≤ M) : Spread M (l.modify i (· + c)) := by
  have key : ∀ x ∈ l.modify i (· + c), x ∈ l ∨ x = l[i] + c := by
    intro x hx
    obtain ⟨j, hj, rfl⟩ := List.getElem_of_mem hx
    rw [List.getElem_modify]
    split
    · rename_i e; subst e; right; rfl
    · left; exact List.getElem_mem _
  intro a ha b hb
  rcases key a ha with ha | rfl <;> rcases key b hb with hb | rfl
  · exact hl a ha b hb
  · have := hl a ha _ (List.getElem_mem h); omega
  · have := hmin b hb; omega
  · omega

theorem balanceLoop_spread {n M : Nat} (hn : 0 < n) (cats : List (List α))
    (hc : ∀ c ∈ cats, c.length ≤ M)
    {st st' : List Nat × List (List (List α))} (hI : BInv n st) (hs : Spread M st.1)
    (h : balanceLoop cats st = .ok st') : Spread M st'.1 := by
  induction cats generalizing st with
  | nil => simp [balanceLoop] at h; subst h; exact hs
  | cons c cats ih =>
    obtain ⟨i, hi, hmin, hstep, hI'⟩ := balanceStep_ok hn hI c
    simp only [balanceLoop, hstep] at h
    exact ih (fun c hc' => hc c (by simp [hc'])) hI'
      (hs.step hi hmin (hc c (by simp))) h

theorem sum_le_of_spread {M : Nat} {l : List Nat} (hl : Spread M l) {a : Nat} (ha : a ∈ l) :
    l.length * a ≤ l.sum + (l.length - 1) * M := by
  obtain ⟨s, t, rfl⟩ := List.append_of_mem ha
  have aux : ∀ u : List Nat, (∀ b ∈ u, a ≤ b + M) → u.length * a ≤ u.sum + u.length * M := by
    intro u hu
    induction u with
    | nil => simp
    | cons x u ih =>
      have h1 := hu x (by simp)
      have h2 := ih (fun b hb => hu b (by simp [hb]))
      simp only [List.length_cons, List.sum_cons]
      nlinarith
  have h1 := aux s (fun b hb => hl a ha b (by simp [hb]))
  have h2 := aux t (fun b hb => hl a ha b (by simp [hb]))
  simp only [List.length_append, List.length_cons, List.sum_append, List.sum_cons]
  have : s.length + (t.length + 1) - 1 = s.length + t.length := by omega
  rw [this]
  nlinarith

theorem qload_flatten (qs : List (List (List α))) :
    (qs.map qload).sum = (qs.flatten.map List.length).sum := by
  induction qs with
  | nil => rfl
  | cons q qs ih => simp [ih, qload, Verif.Spec.queueLoad]

theorem sortBySizeDesc_perm (split : List (List α)) : sortBySizeDesc split ~ split :=
  List.perm_insertionSort _ _

/-- Idle ranks: as long as a rank without load exists, the next non-empty chunk goes to one. -/
theorem balanceLoop_idle {n : Nat} (hn : 0 < n) (cats : List (List α))
    (hc : ∀ c ∈ cats, c ≠ [])
    {st st' : List Nat × List (List (List α))} (hI : BInv n st)
    (h : balanceLoop cats st = .ok st') :
    st'.1.count 0 = st.1.count 0 - cats.length := by
  induction cats generalizing st with
  | nil => simp [balanceLoop] at h; subst h; simp
  | cons c cats ih =>
    obtain ⟨i, hi, hmin, hstep, hI'⟩ := balanceStep_ok hn hI c
    simp only [balanceLoop, hstep] at h
    rw [ih (fun c hc' => hc c (by simp [hc'])) hI' h]
    have hpos : 0 < c.length := List.length_pos_iff.mpr (hc c (by simp))
    have hcount : (st.1.modify i (· + c.length)).count 0 = st.1.count 0 - 1 := by
      rw [List.modify_eq_set_get _ (by simpa using hi), List.count_set (by simpa using hi)]
      have hne : ¬ (st.1[i] + c.length = 0) := by omega
      simp only [List.get_eq_getElem, beq_iff_eq]
      by_cases h0 : st.1[i] = 0
      · simp [h0, hpos.ne']
      · have : st.1.count 0 = 0 := by
          rw [List.count_eq_zero]
          intro hm
          have := hmin 0 hm
          omega
        simp [h0, this]
    rw [hcount]
    simp only [List.length_cons]
    omega

theorem mem_modify_append {qs : List (List (List α))} {i : Nat} (h : i < qs.length) {c : List α}
    {a : List (List α)} (ha : a ∈ qs.modify i (· ++ [c])) : a ∈ qs ∨ a = qs[i] ++ [c] := by
  obtain ⟨j, hj, rfl⟩ := List.getElem_of_mem ha
  rw [List.getElem_modify]
  split
  · rename_i e; subst e; right; rfl
  · left; exact List.getElem_mem _

/-- With chunks in descending order every queue is descending, and no queue exceeds another by more
than its smallest chunk. -/
theorem balanceLoop_desc {n : Nat} (hn : 0 < n) (cats : List (List α))
    (hc : cats.Pairwise (fun a b => b.length ≤ a.length))
    {st st' : List Nat × List (List (List α))} (hI : BInv n st)
    (hord : ∀ q ∈ st.2, ∀ x ∈ q, ∀ c ∈ cats, c.length ≤ x.length)
    (hdesc : ∀ q ∈ st.2, q.Pairwise (fun a b => b.length ≤ a.length))
    (hs : ∀ a ∈ st.2, ∀ c ∈ a, ∀ b ∈ st.2, qload a ≤ qload b + c.length)
    (h : balanceLoop cats st = .ok st') :
    (∀ q ∈ st'.2, q.Pairwise (fun a b => b.length ≤ a.length)) ∧
    ∀ a ∈ st'.2, ∀ c ∈ a, ∀ b ∈ st'.2, qload a ≤ qload b + c.length := by
  induction cats generalizing st with
  | nil => simp [balanceLoop] at h; subst h; exact ⟨hdesc, hs⟩
  | cons c cats ih =>
    obtain ⟨i, hi, hmin, hstep, hI'⟩ := balanceStep_ok hn hI c
    simp only [balanceLoop, hstep] at h
    rw [List.pairwise_cons] at hc
    have hi2 : i < st.2.length := by
      have := hi; rw [hI.loads] at this; simpa using this
    have hmem : st.2[i] ∈ st.2 := List.getElem_mem _
    have hload : ∀ q ∈ st.2, qload st.2[i] ≤ qload q := by
      intro q hq
      have := hmin (qload q) (by rw [hI.loads]; exact List.mem_map_of_mem hq)
      have e : st.1[i] = qload st.2[i] := by
        simp only [hI.loads, List.getElem_map]
      rwa [e] at this
    have hq' : qload (st.2[i] ++ [c]) = qload st.2[i] + c.length := by
      simp [qload, Verif.Spec.queueLoad]
    refine ih hc.2 hI' ?_ ?_ ?_ h
    · intro q hq x hx d hd
      rcases mem_modify_append hi2 hq with hq | rfl
      · exact hord q hq x hx d (by simp [hd])
      · rcases List.mem_append.mp hx with hx | hx
        · exact hord _ hmem x hx d (by simp [hd])
        · simp only [List.mem_singleton] at hx
          subst hx
          exact hc.1 d hd
    · intro q hq
      rcases mem_modify_append hi2 hq with hq | rfl
      · exact hdesc q hq
      · rw [List.pairwise_append]
        refine ⟨hdesc _ hmem, by simp, ?_⟩
        intro x hx y hy
        simp only [List.mem_singleton] at hy
        subst hy
        exact hord _ hmem x hx _ (by simp)
    · intro a ha x hx b hb
      rcases mem_modify_append hi2 ha with ha | rfl <;> rcases mem_modify_append hi2 hb with hb | rfl
      · exact hs a ha x hx b hb
      · have := hs a ha x hx _ hmem
        rw [hq']; omega
      · have h1 := hload b hb
        have h2 : c.length ≤ x.length := by
          rcases List.mem_append.mp hx with hx | hx
          · exact hord _ hmem x hx _ (by simp)
          · simp only [List.mem_singleton] at hx
            subst hx; exact le_refl _
        rw [hq']; omega
      · omega

theorem sortBySizeDesc_sorted (split : List (List α)) :
    (sortBySizeDesc split).Pairwise (fun a b => b.length ≤ a.length) := by
  haveI : Std.Total (fun a b : List α => b.length ≤ a.length) := ⟨fun a b => le_total _ _⟩
  haveI : IsTrans (List α) (fun a b : List α => b.length ≤ a.length) :=
    ⟨fun a b c h1 h2 => le_trans h2 h1⟩
  exact List.pairwise_insertionSort _ _

end Verif.Proofs
