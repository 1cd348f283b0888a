import Verif.Proofs.Balance
import Verif.Proofs.BalanceBound

/-!
# C01, C02, C03: load balancing
-/

namespace Verif.Props
open Verif.Model Verif.Spec Verif.Proofs List

variable {α : Type}

/-- **C01.** For at least one rank `balance_load` succeeds, returns one queue per rank, and
the queues together hold exactly the given chunks with their multiplicities. -/
theorem C01_balance_load_partitions (split : List (List α)) (n : Nat) (hn : 0 < n) :
    ∃ q, balanceLoad split n = .ok q ∧ q.length = n ∧ q.flatten ~ split := by
  obtain ⟨st, h, hI, hp⟩ := balanceLoop_ok hn (sortBySizeDesc split) (BInv.init (α := α) n)
  refine ⟨st.2, by simp [balanceLoad, h], hI.len, hp.trans ?_⟩
  simpa using sortBySizeDesc_perm split

/-- **C01, error branch.** With no rank at all any chunk makes `np.argmin` fail. -/
theorem C01_balance_load_no_rank (split : List (List α)) :
    balanceLoad split 0 = (if split = [] then .ok [] else .error .valueError) := by
  have hp := sortBySizeDesc_perm split
  by_cases e : split = []
  · subst e; rfl
  · rw [if_neg e, balanceLoad]
    cases h : sortBySizeDesc split with
    | nil => rw [h] at hp; exact absurd hp.symm.eq_nil e
    | cons c cs => simp [balanceLoop, balanceStep, Np.argmin]

example : balanceLoad [[1], [2, 3], [4, 5, 6], []] 2 = .ok [[[4, 5, 6], []], [[2, 3], [1]]] := by
  decide

/-- **C02.** Any two ranks differ by at most the largest chunk. -/
theorem C02_balance_load_spread (split : List (List α)) (n M : Nat) (hn : 0 < n)
    (hM : ∀ c ∈ split, c.length ≤ M) (q : List (List (List α)))
    (hq : balanceLoad split n = .ok q) :
    ∀ a ∈ q, ∀ b ∈ q, queueLoad a ≤ queueLoad b + M := by
  obtain ⟨st, h, hI, -⟩ := balanceLoop_ok hn (sortBySizeDesc split) (BInv.init (α := α) n)
  simp only [balanceLoad, h, Except.ok.injEq] at hq
  subst hq
  have hs := balanceLoop_spread hn (sortBySizeDesc split) (M := M)
    (fun c hc => hM c ((sortBySizeDesc_perm split).mem_iff.mp hc)) (BInv.init (α := α) n)
    (by intro a ha b hb; simp [List.eq_of_mem_replicate ha]) h
  intro a ha b hb
  rw [hI.loads] at hs
  exact hs _ (List.mem_map_of_mem ha) _ (List.mem_map_of_mem hb)

/-- **C02.** The busiest rank carries at most the average plus `(1 - 1/n)` of the largest
chunk (written without division). -/
theorem C02_balance_load_average (split : List (List α)) (n M : Nat) (hn : 0 < n)
    (hM : ∀ c ∈ split, c.length ≤ M) (q : List (List (List α)))
    (hq : balanceLoad split n = .ok q) :
    ∀ a ∈ q, n * queueLoad a ≤ split.flatten.length + (n - 1) * M := by
  intro a ha
  have hs := C02_balance_load_spread split n M hn hM q hq
  obtain ⟨q', hq', hlen, hp⟩ := C01_balance_load_partitions split n hn
  rw [hq] at hq'; cases hq'
  have := sum_le_of_spread (l := q.map qload) (M := M) (by
    intro x hx y hy
    obtain ⟨a, ha, rfl⟩ := List.mem_map.mp hx
    obtain ⟨b, hb, rfl⟩ := List.mem_map.mp hy
    exact hs a ha b hb) (List.mem_map_of_mem ha)
  rw [qload_flatten, List.length_map, hlen] at this
  rw [List.length_flatten]
  rwa [(hp.map List.length).sum_eq] at this

/-- **C02.** Compared with *any* other assignment of the same chunks to the same number of
ranks, the busiest rank carries less than twice the load of that assignment's busiest rank:
`n * load ≤ (2n - 1) * L`. -/
theorem C02_balance_load_competitive (split : List (List α)) (n : Nat) (hn : 0 < n)
    (q : List (List (List α))) (hq : balanceLoad split n = .ok q)
    (other : List (List (List α))) (hother : other.length = n) (hperm : other.flatten ~ split)
    (L : Nat) (hL : ∀ b ∈ other, queueLoad b ≤ L) :
    ∀ a ∈ q, n * queueLoad a ≤ (2 * n - 1) * L := by
  intro a ha
  have hM : ∀ c ∈ split, c.length ≤ L := by
    intro c hc
    have hc' := hperm.mem_iff.mpr hc
    obtain ⟨b, hb, hcb⟩ := List.mem_flatten.mp hc'
    refine le_trans ?_ (hL b hb)
    exact List.le_sum_of_mem (List.mem_map_of_mem hcb)
  have h1 := C02_balance_load_average split n L hn hM q hq a ha
  have h2 : split.flatten.length ≤ n * L := by
    rw [List.length_flatten, ← (hperm.map List.length).sum_eq, ← qload_flatten, ← hother]
    have := List.sum_le_card_nsmul (other.map qload) L (by
      intro x hx
      obtain ⟨b, hb, rfl⟩ := List.mem_map.mp hx
      exact hL b hb)
    simpa using this
  have h3 : (2 * n - 1) * L = n * L + (n - 1) * L := by
    rw [← Nat.add_mul]; congr 1; omega
  omega

/-- **C02.** Chunks are handed out largest first: every queue is in descending order of size, and a rank
exceeds any other rank by at most its own smallest chunk. -/
theorem C02_balance_load_largest_first (split : List (List α)) (n : Nat) (hn : 0 < n)
    (q : List (List (List α))) (hq : balanceLoad split n = .ok q) :
    (∀ a ∈ q, a.Pairwise (fun x y => y.length ≤ x.length)) ∧
    ∀ a ∈ q, ∀ c ∈ a, ∀ b ∈ q, queueLoad a ≤ queueLoad b + c.length := by
  obtain ⟨st, h, hI, -⟩ := balanceLoop_ok hn (sortBySizeDesc split) (BInv.init (α := α) n)
  simp only [balanceLoad, h, Except.ok.injEq] at hq
  subst hq
  refine balanceLoop_desc hn _ (sortBySizeDesc_sorted split) (BInv.init (α := α) n) ?_ ?_ ?_ h
  · intro q hq x hx; rw [List.eq_of_mem_replicate hq] at hx; simp at hx
  · intro q hq; rw [List.eq_of_mem_replicate hq]; exact .nil
  · intro q hq x hx; rw [List.eq_of_mem_replicate hq] at hx; simp at hx

example : ∃ q, balanceLoad [[1], [2, 3], [4, 5, 6]] 2 = .ok q ∧
    (∀ c ∈ [[1], [2, 3], [4, 5, 6]], c.length ≤ 3) ∧ q.map queueLoad = [3, 3] := by
  refine ⟨[[[4, 5, 6]], [[2, 3], [1]]], ?_⟩; decide

/-- **C02.** Compared with *any* other assignment of the same chunks to the same number of ranks, the busiest rank
carries at most `4/3 - 1/(3n)` of the load of that assignment's busiest rank (written without division). -/
theorem C02_balance_load_four_thirds (split : List (List α)) (n : Nat) (hn : 0 < n)
    (q : List (List (List α))) (hq : balanceLoad split n = .ok q)
    (other : List (List (List α))) (hother : other.length = n) (hperm : other.flatten ~ split)
    (L : Nat) (hL : ∀ b ∈ other, queueLoad b ≤ L) :
    ∀ a ∈ q, 3 * n * queueLoad a ≤ (4 * n - 1) * L := by
  obtain ⟨st, h, hI, hp⟩ := balanceLoop_ok hn (sortBySizeDesc split) (BInv.init (α := α) n)
  simp only [balanceLoad, h, Except.ok.injEq] at hq
  subst hq
  have hp' : st.2.flatten ~ split := hp.trans (by simpa using sortBySizeDesc_perm split)
  refine balanceLoop_graham hn _ (sortBySizeDesc_sorted split) (BInv.init (α := α) n) ?_ ?_ h L
    ⟨other, hother, hperm.trans hp'.symm, hL⟩
  · intro q hq x hx; rw [List.eq_of_mem_replicate hq] at hx; simp at hx
  · intro L _ a ha; rw [List.eq_of_mem_replicate ha]; simp [qload, queueLoad]

/-- The factor is reached: five chunks on two ranks, loads 7 and 5 where 6 and 6 is possible. -/
example : ∃ q other : List (List (List Nat)), balanceLoad [[1, 2, 3], [4, 5, 6], [7, 8], [9, 10], [11, 12]] 2 = .ok q ∧
    other.length = 2 ∧ other.flatten ~ [[1, 2, 3], [4, 5, 6], [7, 8], [9, 10], [11, 12]] ∧
    (∀ b ∈ other, queueLoad b ≤ 6) ∧ ∃ a ∈ q, 3 * 2 * queueLoad a = (4 * 2 - 1) * 6 := by
  refine ⟨[[[1, 2, 3], [7, 8], [11, 12]], [[4, 5, 6], [9, 10]]],
    [[[1, 2, 3], [4, 5, 6]], [[7, 8], [9, 10], [11, 12]]], ?_⟩
  decide

/-- **C03.** With non-empty chunks exactly `n - #chunks` ranks (none if there are at least as
many chunks as ranks) get an empty queue. -/
theorem C03_balance_load_idle (split : List (List α)) (n : Nat) (hn : 0 < n)
    (hne : ∀ c ∈ split, c ≠ []) (q : List (List (List α)))
    (hq : balanceLoad split n = .ok q) :
    (q.filter (·.isEmpty)).length = n - split.length := by
  obtain ⟨st, h, hI, hp⟩ := balanceLoop_ok hn (sortBySizeDesc split) (BInv.init (α := α) n)
  simp only [balanceLoad, h, Except.ok.injEq] at hq
  subst hq
  have hp' : st.2.flatten ~ split := hp.trans (by simpa using sortBySizeDesc_perm split)
  have hi := balanceLoop_idle hn (sortBySizeDesc split)
    (fun c hc => hne c ((sortBySizeDesc_perm split).mem_iff.mp hc)) (BInv.init (α := α) n) h
  rw [(sortBySizeDesc_perm split).length_eq] at hi
  simp only [List.count_replicate_self] at hi
  rw [← hi, hI.loads, List.count, List.countP_map, ← List.countP_eq_length_filter]
  refine List.countP_congr ?_
  intro b hb
  simp only [Function.comp, beq_iff_eq, queueLoad]
  constructor
  · intro h; simp only [List.isEmpty_iff] at h; subst h; rfl
  · intro h
    rw [List.isEmpty_iff]
    by_contra hb'
    obtain ⟨c, cs, rfl⟩ := List.exists_cons_of_ne_nil hb'
    have hc : c ∈ split := hp'.mem_iff.mp (List.mem_flatten.mpr ⟨_, hb, by simp⟩)
    have := List.length_pos_iff.mpr (hne c hc)
    simp at h
    exact hne c hc h.1

/-- **C03.** Corollary: every rank has work if there are at least as many chunks as ranks. -/
theorem C03_balance_load_no_idle (split : List (List α)) (n : Nat) (hn : 0 < n)
    (hne : ∀ c ∈ split, c ≠ []) (hlen : n ≤ split.length) (q : List (List (List α)))
    (hq : balanceLoad split n = .ok q) : ∀ b ∈ q, b ≠ [] := by
  have h := C03_balance_load_idle split n hn hne q hq
  rw [Nat.sub_eq_zero_of_le hlen, List.length_eq_zero_iff, List.filter_eq_nil_iff] at h
  intro b hb hb'
  exact h b hb (by simp [hb'])

example : ∃ q, balanceLoad [[1], [2, 3], [4, 5, 6]] 3 = .ok q ∧
    (∀ c ∈ [[1], [2, 3], [4, 5, 6]], c ≠ []) ∧ 3 ≤ [[1], [2, 3], [4, 5, 6]].length ∧
    ∀ b ∈ q, b ≠ [] :=
  ⟨[[[4, 5, 6]], [[2, 3]], [[1]]], by decide⟩

example : balanceLoad [[1], [2, 3]] 4 = .ok [[[2, 3]], [[1]], [], []] := by decide

end Verif.Props
