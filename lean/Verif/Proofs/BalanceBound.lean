import Verif.Proofs.Balance

/-! `balance_load` compared with the best assignment: the bound of Graham for the longest-first rule. -/

namespace Verif.Proofs
open Verif.Np Verif.Model List

variable {α : Type}

/-- There is an assignment of the chunks to `n` ranks with at most `L` on each. -/
def Feasible (n : Nat) (chunks : List (List α)) (L : Nat) : Prop :=
  ∃ other : List (List (List α)), other.length = n ∧ other.flatten ~ chunks ∧ ∀ b ∈ other, qload b ≤ L

theorem Feasible.perm {n L : Nat} {a b : List (List α)} (h : Feasible n a L) (hp : a ~ b) : Feasible n b L := by
  obtain ⟨o, h1, h2, h3⟩ := h
  exact ⟨o, h1, h2.trans hp, h3⟩

theorem Feasible.tail {n L : Nat} {c : List α} {a : List (List α)} (h : Feasible n (c :: a) L) : Feasible n a L := by
  obtain ⟨o, h1, h2, h3⟩ := h
  obtain ⟨b, hb, hcb⟩ := List.mem_flatten.mp (h2.mem_iff.mpr List.mem_cons_self)
  obtain ⟨o1, o2, rfl⟩ := List.append_of_mem hb
  obtain ⟨s, t, rfl⟩ := List.append_of_mem hcb
  refine ⟨o1 ++ (s ++ t) :: o2, by simpa using h1, ?_, ?_⟩
  · have : (o1 ++ (s ++ c :: t) :: o2).flatten ~ c :: (o1 ++ (s ++ t) :: o2).flatten := by
      simp only [List.flatten_append, List.flatten_cons, List.append_assoc, List.cons_append]
      refine (List.Perm.append_left o1.flatten (List.perm_middle)).trans ?_
      exact List.perm_middle
    exact (this.symm.trans h2).cons_inv
  · intro x hx
    simp only [List.mem_append, List.mem_cons] at hx
    rcases hx with hx | rfl | hx
    · exact h3 x (by simp [hx])
    · have := h3 _ (List.mem_append_right o1 List.mem_cons_self)
      simp only [qload, Verif.Spec.queueLoad, List.map_append, List.map_cons, List.sum_append, List.sum_cons] at this ⊢
      omega
    · exact h3 x (by simp [hx])

theorem Feasible.sum {n L : Nat} {a : List (List α)} (h : Feasible n a L) : (a.map List.length).sum ≤ n * L := by
  obtain ⟨o, h1, h2, h3⟩ := h
  rw [← (h2.map List.length).sum_eq, ← qload_flatten, ← h1]
  have := List.sum_le_card_nsmul (o.map qload) L (by
    intro x hx
    obtain ⟨b, hb, rfl⟩ := List.mem_map.mp hx
    exact h3 b hb)
  simpa using this

theorem Feasible.mem {n L : Nat} {a : List (List α)} (h : Feasible n a L) {c : List α} (hc : c ∈ a) : c.length ≤ L := by
  obtain ⟨o, h1, h2, h3⟩ := h
  obtain ⟨b, hb, hcb⟩ := List.mem_flatten.mp (h2.mem_iff.mpr hc)
  exact le_trans (List.le_sum_of_mem (List.mem_map_of_mem hcb)) (h3 b hb)

/-- Sum over the queues of the number of chunks plus the number of those with `p`. -/
theorem count_flatten (p : List α → Bool) (o : List (List (List α))) :
    (o.map (fun b => b.length + b.countP p)).sum = o.flatten.length + o.flatten.countP p := by
  induction o with
  | nil => rfl
  | cons b o ih =>
    simp only [List.map_cons, List.sum_cons, ih, List.flatten_cons, List.length_append, List.countP_append]
    omega

/-- Chunks larger than a third: the longest-first rule does not exceed the best assignment. -/
theorem large_chunks {n L : Nat} {q : List (List (List α))} (hq : q.length = n) {c : List α}
    (hmin : ∀ a ∈ q, ∀ x ∈ a, c.length ≤ x.length) (hF : Feasible n (c :: q.flatten) L) (hc : L < 3 * c.length)
    {l : Nat} (hl : ∀ a ∈ q, l ≤ qload a) : l + c.length ≤ L := by
  by_contra hlt
  have hcL := hF.mem List.mem_cons_self
  obtain ⟨o, h1, h2, h3⟩ := hF
  let big : List α → Bool := fun x => decide (L < x.length + c.length)
  have hge : ∀ b ∈ o, ∀ x ∈ b, c.length ≤ x.length := by
    intro b hb x hx
    have : x ∈ c :: q.flatten := h2.mem_iff.mp (List.mem_flatten.mpr ⟨b, hb, hx⟩)
    rcases List.mem_cons.mp this with rfl | h
    · exact le_rfl
    · obtain ⟨a, ha, hxa⟩ := List.mem_flatten.mp h
      exact hmin a ha x hxa
  have hO : ∀ b ∈ o, b.length + b.countP big ≤ 2 := by
    intro b hb
    have hb3 := h3 b hb
    have hbg := hge b hb
    match b, hb3, hbg with
    | [], _, _ => simp
    | [x], _, _ =>
      have := List.countP_le_length (p := big) (l := [x])
      simp only [List.length_singleton] at this ⊢
      omega
    | [x, y], hb3, hbg =>
      have hx := hbg x (by simp)
      have hy := hbg y (by simp)
      simp only [qload, Verif.Spec.queueLoad, List.map_cons, List.map_nil, List.sum_cons, List.sum_nil] at hb3
      have e1 : big x = false := by simp only [big, decide_eq_false_iff_not]; omega
      have e2 : big y = false := by simp only [big, decide_eq_false_iff_not]; omega
      simp [e1, e2]
    | x :: y :: z :: r, hb3, hbg =>
      have hx := hbg x (by simp)
      have hy := hbg y (by simp)
      have hz := hbg z (by simp)
      simp only [qload, Verif.Spec.queueLoad, List.map_cons, List.sum_cons] at hb3
      omega
  have hQ : ∀ a ∈ q, 2 ≤ a.length + a.countP big := by
    intro a ha
    have hla := hl a ha
    match a, hla with
    | [], hla =>
      simp only [qload, Verif.Spec.queueLoad, List.map_nil, List.sum_nil] at hla
      omega
    | [x], hla =>
      simp only [qload, Verif.Spec.queueLoad, List.map_cons, List.map_nil, List.sum_cons, List.sum_nil] at hla
      have e1 : big x = true := by simp only [big, decide_eq_true_eq]; omega
      simp [e1]
    | x :: y :: r, _ => simp only [List.length_cons]; omega
  have s1 : (o.map (fun b => b.length + b.countP big)).sum ≤ n * 2 := by
    have := List.sum_le_card_nsmul (o.map (fun b => b.length + b.countP big)) 2 (by
      intro x hx
      obtain ⟨b, hb, rfl⟩ := List.mem_map.mp hx
      exact hO b hb)
    simpa [h1] using this
  have s2 : n * 2 ≤ (q.map (fun b => b.length + b.countP big)).sum := by
    have := List.card_nsmul_le_sum (q.map (fun b => b.length + b.countP big)) 2 (by
      intro x hx
      obtain ⟨b, hb, rfl⟩ := List.mem_map.mp hx
      exact hQ b hb)
    simpa [hq] using this
  rw [count_flatten, h2.length_eq, h2.countP_eq, List.length_cons, List.countP_cons] at s1
  rw [count_flatten] at s2
  omega

theorem balanceLoop_graham {n : Nat} (hn : 0 < n) (cats : List (List α))
    (hc : cats.Pairwise (fun a b => b.length ≤ a.length))
    {st st' : List Nat × List (List (List α))} (hI : BInv n st)
    (hord : ∀ q ∈ st.2, ∀ x ∈ q, ∀ c ∈ cats, c.length ≤ x.length)
    (hs : ∀ L, Feasible n st.2.flatten L → ∀ a ∈ st.2, 3 * n * qload a ≤ (4 * n - 1) * L)
    (h : balanceLoop cats st = .ok st') :
    ∀ L, Feasible n st'.2.flatten L → ∀ a ∈ st'.2, 3 * n * qload a ≤ (4 * n - 1) * L := by
  induction cats generalizing st with
  | nil => simp [balanceLoop] at h; subst h; exact hs
  | cons c cats ih =>
    obtain ⟨i, hi, hmin, hstep, hI'⟩ := balanceStep_ok hn hI c
    simp only [balanceLoop, hstep] at h
    rw [List.pairwise_cons] at hc
    have hi2 : i < st.2.length := by
      have := hi; rw [hI.loads] at this; simpa using this
    have hmem : st.2[i] ∈ st.2 := List.getElem_mem _
    have hload : ∀ q ∈ st.2, qload st.2[i] ≤ qload q := by
      intro q hq
      have := hmin (qload q) (by rw [hI.loads]; exact List.mem_map_of_mem hq)
      have e : st.1[i] = qload st.2[i] := by
        simp only [hI.loads, List.getElem_map]
      rwa [e] at this
    have hq' : qload (st.2[i] ++ [c]) = qload st.2[i] + c.length := by
      simp [qload, Verif.Spec.queueLoad]
    refine ih hc.2 hI' ?_ ?_ h
    · intro q hq x hx d hd
      rcases mem_modify_append hi2 hq with hq | rfl
      · exact hord q hq x hx d (by simp [hd])
      · rcases List.mem_append.mp hx with hx | hx
        · exact hord _ hmem x hx d (by simp [hd])
        · simp only [List.mem_singleton] at hx
          subst hx
          exact hc.1 d hd
    · intro L hF a ha
      have hF' : Feasible n (c :: st.2.flatten) L := hF.perm (flatten_modify_append_perm st.2 i hi2 c)
      rcases mem_modify_append hi2 ha with ha | rfl
      · exact hs L hF'.tail a ha
      · rw [hq']
        by_cases h3 : 3 * c.length ≤ L
        · have hsum := hF'.sum
          rw [List.map_cons, List.sum_cons, ← qload_flatten] at hsum
          have hle := List.card_nsmul_le_sum (st.2.map qload) (qload st.2[i]) (by
            intro x hx
            obtain ⟨b, hb, rfl⟩ := List.mem_map.mp hx
            exact hload b hb)
          rw [List.length_map, hI.len, show n • qload st.2[i] = n * qload st.2[i] from rfl] at hle
          obtain ⟨k, rfl⟩ : ∃ k, n = k + 1 := ⟨n - 1, by omega⟩
          have e : 4 * (k + 1) - 1 = 4 * k + 3 := by omega
          rw [e]
          nlinarith
        · have := large_chunks hI.len (c := c) (fun q hq x hx => hord q hq x hx c (by simp)) hF' (by omega) hload
          have h4 : 3 * n ≤ 4 * n - 1 := by omega
          exact Nat.mul_le_mul h4 this

end Verif.Proofs
