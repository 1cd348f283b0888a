import Mathlib.Data.Rat.Floor
import Verif.Spec.VarLife
import Verif.Props.Subsample

/-!
# C93: life of the variance statistics
-/

namespace Verif.Props
open Verif Verif.Np Verif.Model Verif.Spec Verif.Proofs

variable {K : Type} [Field K] [LinearOrder K] [FloorRing K] {n : Nat} {c : VarCfg K}

namespace VarLife

/-- What holds at all times for the object of rank `r`. -/
structure Inv (h : 0 < n) (r size : Nat) (s : VarLss K n c) : Prop where
  start : s.sub.istart = ⟨(r * n) / size % n, Nat.mod_lt _ h⟩
  norm : MeanNormalized s.sub

omit [LinearOrder K] [FloorRing K] in
theorem reset_eq {h : 0 < n} {r size : Nat} {s : VarLss K n c} (hs : Inv h r size s) :
    s.reset = VarLss.new c h r size := by
  unfold VarLss.reset VarLss.new Subsample.reset Subsample.new
  rw [hs.start]

omit [LinearOrder K] [FloorRing K] in
theorem inv_new (h : 0 < n) (r size : Nat) : Inv h r size (VarLss.new c h r size) :=
  ⟨rfl, fun h => absurd rfl h⟩

theorem inv_add {h : 0 < n} {r size : Nat} {s : VarLss K n c} (hs : Inv h r size s) (l : List (VPix K)) :
    Inv h r size (s.add l).1 := by
  unfold VarLss.add
  split
  · unfold Subsample.add
    by_cases hn : s.sub.normalized = true
    · simp only [hn, if_true]
      exact ⟨hs.start, hs.norm⟩
    · simp only [hn]
      refine ⟨hs.start, ?_⟩
      intro hm
      exact absurd (hs.norm hm) hn
  · exact hs

/-- `finish` keeps the invariant; afterwards the sums are normalised. -/
theorem inv_finish {h : 0 < n} {r size : Nat} {s : VarLss K n c} (hs : Inv h r size s) (eps : K) (u : Bool) :
    Inv h r size (s.finish eps u).1 ∧ (s.finish eps u).1.sub.normalized = true ∧
      ((s.finish eps u).2 = none → (s.finish eps u).1.calculated = true) := by
  have h1 : (s.sub.getMeanNVar eps false).1.istart = s.sub.istart := run_istart eps s.sub (.var false)
  have h2 : (s.sub.getMeanNVar eps false).1.normalized = true := (run_normalized eps hs.norm (.var false)).2.1 rfl
  unfold VarLss.finish
  generalize s.sub.getMeanNVar eps false = p at h1 h2 ⊢
  obtain ⟨t, e⟩ := p
  cases e with
  | some e => exact ⟨⟨h1.trans hs.start, fun _ => h2⟩, h2, by simp⟩
  | none =>
    dsimp only at h1 h2 ⊢
    have t1 := h1
    have t2 := h2
    cases u with
    | false =>
      rw [if_neg (by simp)]
      exact ⟨⟨t1.trans hs.start, fun _ => t2⟩, t2, fun _ => rfl⟩
    | true =>
      rw [if_pos rfl]
      have g1 : (t.getMeanNCov eps (some [0, 1]) (some (c.nv + 2)) false).1.istart = t.istart :=
        run_istart eps t (.cov (some [0, 1]) (some (c.nv + 2)) false)
      have g2 : (t.getMeanNCov eps (some [0, 1]) (some (c.nv + 2)) false).1.normalized = true :=
        (run_normalized eps (s := t) (fun _ => t2) (.cov (some [0, 1]) (some (c.nv + 2)) false)).2.1 rfl
      unfold VarLss.finishCov
      generalize t.getMeanNCov eps (some [0, 1]) (some (c.nv + 2)) false = q at g1 g2 ⊢
      obtain ⟨q, e⟩ := q
      cases e with
      | some e => exact ⟨⟨(g1.trans t1).trans hs.start, fun _ => g2⟩, g2, by simp⟩
      | none => exact ⟨⟨(g1.trans t1).trans hs.start, fun _ => g2⟩, g2, fun _ => rfl⟩

omit [LinearOrder K] [FloorRing K] in
theorem allreduce_get (ranks : List (VarLss K n c)) {r : Nat} {s' : VarLss K n c}
    (h : (VarLss.allreduce ranks)[r]? = some s') :
    ∃ s, ranks[r]? = some s ∧ s'.sub.istart = s.sub.istart ∧ s'.sub.mean = s.sub.mean ∧
      s'.sub.normalized = s.sub.normalized := by
  unfold VarLss.allreduce Subsample.allreduce at h
  simp only [List.getElem?_zipWith, List.getElem?_map] at h
  cases hr : ranks[r]? with
  | none => simp [hr] at h
  | some s =>
    simp only [hr, Option.map_some] at h
    cases h
    exact ⟨s, rfl, rfl, rfl, rfl⟩

/-- The invariant of the objects of all ranks. -/
def InvAll (h : 0 < n) (size : Nat) (ranks : List (VarLss K n c)) : Prop :=
  ranks.length = size ∧ ∀ (r : Nat) (s : VarLss K n c), ranks[r]? = some s → Inv h r size s

theorem inv_calculate {h : 0 < n} {size : Nat} {ranks : List (VarLss K n c)} (hi : InvAll h size ranks) (eps : K)
    (u : Bool) : InvAll h size ((VarLss.calculate eps u ranks).map Prod.fst) := by
  unfold VarLss.calculate
  split
  · rw [List.map_map]
    have : List.map (Prod.fst ∘ fun s : VarLss K n c => (s, (none : Option Err))) ranks = ranks := List.map_id ranks
    rw [this]
    exact hi
  · refine ⟨?_, ?_⟩
    · rw [List.length_map, List.length_map]
      unfold VarLss.allreduce Subsample.allreduce
      simp [hi.1]
    · intro r s hs
      rw [List.getElem?_map, List.getElem?_map] at hs
      cases ha : (VarLss.allreduce ranks)[r]? with
      | none => simp [ha] at hs
      | some s' =>
        simp only [ha, Option.map_some] at hs
        cases hs
        obtain ⟨s, hr, h1, h2, h3⟩ := allreduce_get ranks ha
        have hI := hi.2 r s hr
        refine (inv_finish (s := s') ⟨h1.trans hI.start, ?_⟩ eps u).1
        unfold MeanNormalized
        rw [h2, h3]
        exact hI.norm

omit [LinearOrder K] [FloorRing K] in
theorem inv_modify {h : 0 < n} {size : Nat} {ranks : List (VarLss K n c)} (hi : InvAll h size ranks) (r : Nat)
    {f : VarLss K n c → VarLss K n c} (hf : ∀ s, Inv h r size s → Inv h r size (f s)) :
    InvAll h size (ranks.modify r f) := by
  refine ⟨by rw [List.length_modify]; exact hi.1, fun r' s hs => ?_⟩
  rw [List.getElem?_modify] at hs
  cases hr : ranks[r']? with
  | none => simp [hr] at hs
  | some s0 =>
    simp only [hr, Option.map_eq_map, Option.map_some] at hs
    have hI := hi.2 r' s0 hr
    by_cases e : r = r'
    · subst e
      simp only [if_true] at hs
      cases hs
      exact hf s0 hI
    · simp only [e, if_false] at hs
      cases hs
      exact hI

theorem inv_run {h : 0 < n} {size : Nat} {ranks : List (VarLss K n c)} (hi : InvAll h size ranks) (eps : K)
    (call : VarCall K) : InvAll h size (call.run eps ranks) := by
  cases call with
  | add r l => exact inv_modify hi r fun s hs => inv_add hs l
  | reset r => exact inv_modify hi r fun s hs => by rw [reset_eq hs]; exact inv_new h r size
  | calculate u => exact inv_calculate hi eps u

theorem inv_life (h : 0 < n) (size : Nat) (eps : K) (calls : List (VarCall K)) :
    InvAll h size (varLife c h size eps calls) := by
  have h0 : InvAll h size ((List.range size).map (fun r => VarLss.new c h r size)) := by
    refine ⟨by simp, fun r s hs => ?_⟩
    rw [List.getElem?_map] at hs
    by_cases hr : r < size
    · rw [List.getElem?_range hr] at hs
      cases hs
      exact inv_new h r size
    · rw [List.getElem?_eq_none (by simpa using hr)] at hs
      cases hs
  unfold varLife
  generalize (List.range size).map (fun r => VarLss.new c h r size) = ranks at h0
  induction calls generalizing ranks with
  | nil => exact h0
  | cons x calls ih => exact ih _ (inv_run h0 eps x)

end VarLife
open VarLife

/-- **C93.** Whatever was called before (spectra added, refused or not, statistics calculated or failed, other resets),
after `reset` on all ranks the objects are as new. So nothing of an iteration is left in the next one. -/
theorem C93_reset (c : VarCfg K) (h : 0 < n) (size : Nat) (eps : K) (calls : List (VarCall K)) :
    (varLife c h size eps calls).map VarLss.reset = (List.range size).map (fun r => VarLss.new c h r size) := by
  obtain ⟨hl, hi⟩ := inv_life (c := c) h size eps calls
  apply List.ext_getElem?
  intro r
  rw [List.getElem?_map, List.getElem?_map]
  by_cases hr : r < size
  · rw [List.getElem?_range hr, List.getElem?_eq_getElem (by omega)]
    simp only [Option.map_some]
    rw [reset_eq (hi r _ (List.getElem?_eq_getElem (by omega)))]
  · rw [List.getElem?_eq_none (by omega), List.getElem?_eq_none (by simpa using hr)]
    rfl

/-- **C93.** Calls after a `reset` of all ranks give what they give on new objects. -/
theorem C93_fresh (c : VarCfg K) (h : 0 < n) (size : Nat) (eps : K) (before after : List (VarCall K)) :
    varLife c h size eps (before ++ (List.range size).map VarCall.reset ++ after) = varLife c h size eps after := by
  have e : ∀ (m : Nat) (ranks : List (VarLss K n c)), ranks.length = m →
      ∀ k, k ≤ m → ((List.range k).map VarCall.reset).foldl (VarCall.run eps) ranks =
        (ranks.take k).map VarLss.reset ++ ranks.drop k := by
    intro m ranks hm k
    induction k with
    | zero => intro _; simp
    | succ k ih =>
      intro hk
      rw [List.range_succ, List.map_append, List.foldl_append, ih (by omega)]
      change ((ranks.take k).map VarLss.reset ++ ranks.drop k).modify k (fun s => s.reset) = _
      have hl : ((ranks.take k).map VarLss.reset).length = k := by
        rw [List.length_map, List.length_take]; omega
      rw [List.modify_eq_take_drop, List.take_left' hl, List.drop_left' hl, List.drop_eq_getElem_cons (by omega),
        List.take_succ_eq_append_getElem (by omega), List.map_append, List.append_assoc]
      rfl
  have hl : (varLife c h size eps before).length = size := (inv_life h size eps before).1
  have hr := C93_reset c h size eps before
  unfold varLife at hl hr ⊢
  rw [List.foldl_append, List.foldl_append, e size _ hl size (le_refl _), List.take_of_length_le (by omega),
    List.drop_of_length_le (by omega), List.append_nil, hr]

/-- **C93.** After the statistics were calculated without exception, a spectrum is refused: `add` raises and changes
neither the sums nor the numbers of quasars; calculating again changes nothing. -/
theorem C93_refused (c : VarCfg K) (h : 0 < n) (size : Nat) (eps : K) (calls : List (VarCall K)) (u : Bool)
    (hcalc : (varLife c h size eps calls).head?.any (·.calculated) = false)
    (hok : ∀ x ∈ VarLss.calculate eps u (varLife c h size eps calls), x.2 = none) :
    let ranks := (VarLss.calculate eps u (varLife c h size eps calls)).map Prod.fst
    (∀ s ∈ ranks, ∀ l, ∃ e, (s.add l).2 = some e ∧ (s.add l).1.sub = s.sub ∧ (s.add l).1.numQso = s.numQso ∧
      (s.add l).1.calculated = true) ∧
    ∀ u', (VarLss.calculate eps u' ranks).map Prod.fst = ranks := by
  have hi := inv_life (c := c) h size eps calls
  generalize varLife c h size eps calls = w at hi hcalc hok
  have key : ∀ s ∈ (VarLss.calculate eps u w).map Prod.fst, s.sub.normalized = true ∧ s.calculated = true := by
    unfold VarLss.calculate at hok ⊢
    rw [if_neg (by rw [hcalc]; simp)] at hok ⊢
    intro s hs
    obtain ⟨x, hx, rfl⟩ := List.mem_map.mp hs
    have hx2 := hok x hx
    obtain ⟨s', hs', rfl⟩ := List.mem_map.mp hx
    obtain ⟨r, hr⟩ := List.mem_iff_getElem?.mp hs'
    obtain ⟨s, hr, h1, h2, h3⟩ := allreduce_get w hr
    have hI := hi.2 r s hr
    have := inv_finish (s := s') (h := h) (r := r) (size := size)
      ⟨h1.trans hI.start, by unfold MeanNormalized; rw [h2, h3]; exact hI.norm⟩ eps u
    exact ⟨this.2.1, this.2.2 hx2⟩
  refine ⟨fun s hs l => ?_, fun u' => ?_⟩
  · obtain ⟨h1, h2⟩ := key s hs
    unfold VarLss.add
    split
    · unfold Subsample.add
      simp only [h1, if_true]
      exact ⟨_, rfl, trivial, trivial, h2⟩
    · exact ⟨_, rfl, rfl, rfl, h2⟩
  · generalize (VarLss.calculate eps u w).map Prod.fst = ranks at key
    cases ranks with
    | nil => simp [VarLss.calculate, VarLss.allreduce]
    | cons s ranks =>
      unfold VarLss.calculate
      rw [if_pos (by simpa using (key s (by simp)).2), List.map_map]
      exact List.map_id _

/-! ### Concrete cases -/

section
def lifeCfg : VarCfg ℚ := ⟨0, 2, 1, 1, [1, 3]⟩

/-- A refused spectrum is counted in `num_pixels` all the same. -/
theorem C93_pixels_refuted : ∃ (calls : List (VarCall ℚ)) (l : List (VPix ℚ)),
    ∃ s ∈ varLife (n := 2) lifeCfg (by decide) 1 0 calls, (s.add l).2 = some .runtimeError ∧
      (s.add l).1.numPixels ≠ s.numPixels := by
  refine ⟨[.add 0 [⟨1, 1, 2⟩], .add 0 [⟨1, 3, 2⟩], .calculate false], [⟨1, 1, 2⟩], ?_⟩
  decide +kernel

/-- The hypotheses of `C93_refused` with two spectra on two ranks. -/
example : (varLife (n := 2) lifeCfg (by decide) 2 0 [.add 0 [⟨1, 1, 2⟩], .add 1 [⟨1, 3, 2⟩]]).head?.any (·.calculated) = false ∧
    ((VarLss.calculate 0 true (varLife (n := 2) lifeCfg (by decide) 2 0 [.add 0 [⟨1, 1, 2⟩], .add 1 [⟨1, 3, 2⟩]])).map
      Prod.snd = [none, none]) ∧
    ((VarLss.calculate 0 true (varLife (n := 2) lifeCfg (by decide) 2 0 [.add 0 [⟨1, 1, 2⟩], .add 1 [⟨1, 3, 2⟩]])).map
      (fun x => x.1.meanRow 0) = [some [2], some [2]]) := by
  decide +kernel
end

end Verif.Props
