import Verif.Spec.Calib
import Verif.Proofs.Calib

/-!
# Lemmas on the calibration stack
-/

namespace Verif.Proofs
open Verif.Model Verif.Model.Prog Verif.Np Verif.Spec

variable {K : Type} [Field K] [LinearOrder K] [FloorRing K] [IsStrictOrderedRing K]

theorem noTie_add {x0 : K} (h : ∀ k : Int, x0 ≠ k + 1 / 2) (i : Nat) :
    (x0 + (i : K)) - ⌊x0 + (i : K)⌋ ≠ 1 / 2 := by
  intro he
  apply h (⌊x0 + (i : K)⌋ - i)
  push_cast
  linarith

theorem gridIdx {w1 dw x0 : K} (hd : 0 < dw) (i : Nat) : (w1 + (x0 + (i : K)) * dw - w1) / dw = x0 + (i : K) := by
  rw [add_sub_cancel_left, mul_div_assoc, div_self hd.ne', mul_one]

theorem nodup_idx {w1 dw : K} (hd : 0 < dw) {d : CalDelta K} (hg : OnGrid w1 dw d) :
    (d.pix.map (fun p => pyRound ((p.1 - w1) / dw))).Nodup := by
  obtain ⟨x0, m, hx, hw⟩ := hg
  have h1 : (d.wave.map (fun w => pyRound ((w - w1) / dw))).Nodup := by
    rw [hw, List.map_map]
    refine List.Nodup.map_on (fun i _ i' _ he => ?_) List.nodup_range
    simp only [Function.comp_apply, gridIdx hd] at he
    have e1 := (pyRound_eq_iff (noTie_add hx i) _).mp rfl
    have e2 := (pyRound_eq_iff (noTie_add hx i') _).mp rfl
    rw [he] at e1
    rw [abs_lt] at e1 e2
    have h1 : ((i : K) : K) < i' + 1 := by linarith
    have h2 : ((i' : K) : K) < i + 1 := by linarith
    have h1' : i < i' + 1 := by exact_mod_cast h1
    have h2' : i' < i + 1 := by exact_mod_cast h2
    omega
  have h2 : d.pix.map (fun p => pyRound ((p.1 - w1) / dw)) =
      (d.pix.map Prod.fst).map (fun w => pyRound ((w - w1) / dw)) := by
    rw [List.map_map]; rfl
  rw [h2]
  have h3 : (d.pix.map Prod.fst).Sublist d.wave := by
    unfold CalDelta.pix
    generalize d.wave = a
    generalize d.delta.zip d.weight = b
    induction a generalizing b with
    | nil => simp
    | cons x a ih =>
      cases b with
      | nil => simp
      | cons y b => exact (ih b).cons_cons x
  exact h1.sublist (h3.map _)

theorem selPix_lt (w1 dw : K) (n : Nat) (d : CalDelta K) : ∀ x ∈ selPix w1 dw n d, x.1 < n := by
  intro x hx
  unfold selPix at hx
  obtain ⟨p, hp, rfl⟩ := List.mem_map.mp hx
  have := (List.mem_filter.mp hp).2
  simp only [Bool.and_eq_true, decide_eq_true_eq] at this
  dsimp only
  omega

theorem selPix_nodup {w1 dw : K} (hd : 0 < dw) {d : CalDelta K} (hg : OnGrid w1 dw d) (n : Nat) :
    ((selPix w1 dw n d).map Prod.fst).Nodup := by
  have h := nodup_idx hd hg
  unfold selPix
  rw [List.map_map]
  have h1 : ((d.pix.map (fun p => (pyRound ((p.1 - w1) / dw), 1 + p.2.1, p.2.2))).filter
      (fun p => decide (0 ≤ p.1) && decide (p.1 < (n : Int)))).Nodup := by
    refine List.Nodup.filter _ ?_
    refine List.Nodup.of_map Prod.fst ?_
    rw [List.map_map]
    exact h
  have h2 : (((d.pix.map (fun p => (pyRound ((p.1 - w1) / dw), 1 + p.2.1, p.2.2))).filter
      (fun p => decide (0 ≤ p.1) && decide (p.1 < (n : Int)))).map Prod.fst).Nodup := by
    refine List.Nodup.sublist (List.Sublist.map Prod.fst List.filter_sublist) ?_
    rw [List.map_map]
    exact h
  have h3 : ((((d.pix.map (fun p => (pyRound ((p.1 - w1) / dw), 1 + p.2.1, p.2.2))).filter
      (fun p => decide (0 ≤ p.1) && decide (p.1 < (n : Int)))).map Prod.fst).map Int.toNat).Nodup := by
    refine List.Nodup.map_on (fun a ha b hb e => ?_) h2
    obtain ⟨p, hp, rfl⟩ := List.mem_map.mp ha
    obtain ⟨q, hq, rfl⟩ := List.mem_map.mp hb
    have hp := (List.mem_filter.mp hp).2
    have hq := (List.mem_filter.mp hq).2
    simp only [Bool.and_eq_true, decide_eq_true_eq] at hp hq
    omega
  rw [List.map_map] at h3
  exact h3

theorem selPix_filter {w1 dw : K} (hd : 0 < dw) {d : CalDelta K} (hg : OnGrid w1 dw d) {n j : Nat} (hj : j < n) :
    ((selPix w1 dw n d).filter (fun p => decide (p.1 = j))).map Prod.snd =
      (d.pix.filter (fun p => decide (|p.1 - (w1 + (j : K) * dw)| < dw / 2))).map
        (fun p => (1 + p.2.1, p.2.2)) := by
  have hno : ∀ p ∈ d.pix, (p.1 - w1) / dw - ⌊(p.1 - w1) / dw⌋ ≠ 1 / 2 := by
    intro p hp
    obtain ⟨x0, m, hx, hw⟩ := hg
    have hp1 : p.1 ∈ d.wave := (List.of_mem_zip (a := p.1) (b := p.2) hp).1
    rw [hw] at hp1
    obtain ⟨i, -, hi⟩ := List.mem_map.mp hp1
    rw [← hi, gridIdx hd]
    exact noTie_add hx i
  unfold selPix
  generalize d.pix = l at hno
  induction l with
  | nil => rfl
  | cons p l ih =>
    have ih := ih (fun q hq => hno q (.tail _ hq))
    have hp := pyRound_eq_iff (hno p (.head _)) j
    have hab : |(p.1 - w1) / dw - ((j : Int) : K)| < 1 / 2 ↔ |p.1 - (w1 + (j : K) * dw)| < dw / 2 := by
      have e : p.1 - (w1 + (j : K) * dw) = ((p.1 - w1) / dw - ((j : Int) : K)) * dw := by
        push_cast
        field_simp
        ring
      rw [e, abs_mul, abs_of_pos hd, show dw / 2 = 1 / 2 * dw by ring]
      exact (mul_lt_mul_iff_of_pos_right hd).symm
    rw [hab] at hp
    rw [List.map_cons, List.filter_cons]
    by_cases hin : |p.1 - (w1 + (j : K) * dw)| < dw / 2
    · have hidx := hp.mpr hin
      rw [if_pos (by simp only [hidx, Bool.and_eq_true, decide_eq_true_eq]; omega), List.map_cons,
        List.filter_cons, if_pos (by simp [hidx]), List.map_cons, ih]
      conv_rhs => rw [List.filter_cons, if_pos (by simpa using hin), List.map_cons]
    · conv_rhs => rw [List.filter_cons, if_neg (by simpa using hin)]
      rw [← ih]
      split
      · next hr =>
        rw [List.map_cons, List.filter_cons, if_neg]
        simp only [Bool.and_eq_true, decide_eq_true_eq] at hr
        rw [decide_eq_true_eq]
        intro e
        exact hin (hp.mp (by omega))
      · rfl

theorem stackOne_length (w1 dw : K) (n : Nat) (acc : List K × List K) (d : CalDelta K) :
    (stackOne w1 dw n acc d).1.length = acc.1.length ∧ (stackOne w1 dw n acc d).2.length = acc.2.length :=
  ⟨length_fancyIadd _ _, length_fancyIadd _ _⟩

theorem stackOne_getD {w1 dw : K} (hd : 0 < dw) {d : CalDelta K} (hg : OnGrid w1 dw d) {n j : Nat} (hj : j < n)
    (acc : List K × List K) (h1 : acc.1.length = n) (h2 : acc.2.length = n) :
    (stackOne w1 dw n acc d).1.getD j 0 = acc.1.getD j 0 +
      ((pixelsAt w1 dw j [d]).map (fun p => (1 + p.2.1) * p.2.2)).sum ∧
    (stackOne w1 dw n acc d).2.getD j 0 = acc.2.getD j 0 +
      ((pixelsAt w1 dw j [d]).map (fun p => p.2.2)).sum := by
  have e : pixelsAt w1 dw j [d] = d.pix.filter (fun p => decide (|p.1 - (w1 + (j : K) * dw)| < dw / 2)) := by
    unfold pixelsAt CalDelta.pix
    rw [List.flatMap_singleton]
  have hs := selPix_filter hd hg hj
  have hn := selPix_nodup hd hg n
  have hl := selPix_lt w1 dw n d
  rw [e]
  unfold stackOne
  dsimp only
  have hfil : ∀ f : K × K → K, (((selPix w1 dw n d).map (fun p => (p.1, f p.2))).filter
      (fun x => decide (x.1 = j))).map Prod.snd =
      (d.pix.filter (fun p => decide (|p.1 - (w1 + (j : K) * dw)| < dw / 2))).map
        (fun p => f (1 + p.2.1, p.2.2)) := by
    intro f
    have : (d.pix.filter (fun p => decide (|p.1 - (w1 + (j : K) * dw)| < dw / 2))).map
        (fun p => f (1 + p.2.1, p.2.2)) = ((d.pix.filter
        (fun p => decide (|p.1 - (w1 + (j : K) * dw)| < dw / 2))).map (fun p => (1 + p.2.1, p.2.2))).map f := by
      rw [List.map_map]; rfl
    rw [this, ← hs, List.map_map, List.filter_map, List.map_map]
    rfl
  have hnod : ∀ f : K × K → K, (((selPix w1 dw n d).map (fun p => (p.1, f p.2))).map Prod.fst).Nodup := by
    intro f
    rw [List.map_map]
    exact hn
  have hlt : ∀ f : K × K → K, ∀ x ∈ (selPix w1 dw n d).map (fun p => (p.1, f p.2)), x.1 < n := by
    intro f x hx
    obtain ⟨p, hp, rfl⟩ := List.mem_map.mp hx
    exact hl p hp
  constructor
  · rw [getD_fancyIadd _ _ (hnod fun q => q.1 * q.2) (by rw [h1]; exact hlt fun q => q.1 * q.2),
      hfil fun q => q.1 * q.2]
  · rw [getD_fancyIadd _ _ (hnod fun q => q.2) (by rw [h2]; exact hlt fun q => q.2), hfil fun q => q.2]

theorem pixelsAt_append (w1 dw : K) (j : Nat) (a b : List (CalDelta K)) :
    pixelsAt w1 dw j (a ++ b) = pixelsAt w1 dw j a ++ pixelsAt w1 dw j b := by
  unfold pixelsAt
  rw [List.flatMap_append, List.filter_append]

theorem stack_foldl {w1 dw : K} (hd : 0 < dw) {n : Nat} (ds : List (CalDelta K))
    (hg : ∀ d ∈ ds, OnGrid w1 dw d) (acc : List K × List K) (h1 : acc.1.length = n) (h2 : acc.2.length = n) :
    (ds.foldl (stackOne w1 dw n) acc).1.length = n ∧ (ds.foldl (stackOne w1 dw n) acc).2.length = n ∧
    ∀ j < n, (ds.foldl (stackOne w1 dw n) acc).1.getD j 0 = acc.1.getD j 0 +
      ((pixelsAt w1 dw j ds).map (fun p => (1 + p.2.1) * p.2.2)).sum ∧
    (ds.foldl (stackOne w1 dw n) acc).2.getD j 0 = acc.2.getD j 0 +
      ((pixelsAt w1 dw j ds).map (fun p => p.2.2)).sum := by
  induction ds generalizing acc with
  | nil => exact ⟨h1, h2, fun j _ => by simp [pixelsAt]⟩
  | cons d ds ih =>
    obtain ⟨l1, l2⟩ := stackOne_length w1 dw n acc d
    obtain ⟨a1, a2, a3⟩ := ih (fun x hx => hg x (.tail _ hx)) (stackOne w1 dw n acc d) (l1.trans h1) (l2.trans h2)
    refine ⟨a1, a2, fun j hj => ?_⟩
    obtain ⟨b1, b2⟩ := a3 j hj
    obtain ⟨c1, c2⟩ := stackOne_getD hd (hg d (.head _)) hj acc h1 h2
    rw [List.foldl_cons, b1, b2, c1, c2, show d :: ds = [d] ++ ds from rfl, pixelsAt_append, List.map_append,
      List.map_append, List.sum_append, List.sum_append, add_assoc, add_assoc]
    exact ⟨rfl, rfl⟩

theorem pixelsAt_flatMap (w1 dw : K) (j : Nat) (l : List Nat) (f : Nat → List (CalDelta K)) :
    pixelsAt w1 dw j (l.flatMap f) = l.flatMap (fun r => pixelsAt w1 dw j (f r)) := by
  induction l with
  | nil => rfl
  | cons r l ih => rw [List.flatMap_cons, List.flatMap_cons, pixelsAt_append, ih]

theorem sum_flatMap_map {α : Type} (l : List Nat) (f : Nat → List α) (g : α → K) :
    ((l.flatMap f).map g).sum = (l.map (fun r => ((f r).map g).sum)).sum := by
  induction l with
  | nil => rfl
  | cons r l ih => rw [List.flatMap_cons, List.map_append, List.sum_append, ih, List.map_cons, List.sum_cons]

/-- The stack of all ranks. -/
theorem sync_stackFluxes {V W : Type} (c : Codec (List K) V) {w1 w2 dw : K} (hd : 0 < dw) (n : Nat)
    (deltas : Nat → List (CalDelta K)) (hne : ∀ r ≤ n, deltas r ≠ []) (hdw : ∀ r ≤ n, ∀ d ∈ deltas r, d.dwave = dw)
    (hg : ∀ r ≤ n, ∀ d ∈ deltas r, OnGrid w1 dw d) :
    ∃ flux : List K, Sync n (fun r => (stackFluxes c w1 w2 (deltas r) : Prog V W _))
      (fun _ => .ok (linspace w1 w2 (numWave w1 w2 dw), flux)) (fun _ => []) ∧
      flux.length = numWave w1 w2 dw ∧
      ∀ j < numWave w1 w2 dw, flux.getD j 0 =
        weightedFlux (pixelsAt w1 dw j ((List.range (n + 1)).flatMap deltas)) := by
  generalize hN : numWave w1 w2 dw = N
  let acc : Nat → List K × List K := fun r =>
    (deltas r).foldl (stackOne w1 dw N) (List.replicate N 0, List.replicate N 0)
  have hacc : ∀ r ≤ n, _ := fun r hr => stack_foldl hd (n := N) (deltas r) (hg r hr)
    (List.replicate N 0, List.replicate N 0) (List.length_replicate ..) (List.length_replicate ..)
  have hlen : ∀ g : List K × List K → List K, (∀ r ≤ n, (g (acc r)).length = N) →
      ∀ a ∈ (List.range (n + 1)).map (fun r => g (acc r)), a.length = N := by
    intro g hgl a ha
    obtain ⟨r, hr, rfl⟩ := List.mem_map.mp ha
    exact hgl r (by have := List.mem_range.mp hr; omega)
  have l1 := hlen Prod.fst (fun r hr => (hacc r hr).1)
  have l2 := hlen Prod.snd (fun r hr => (hacc r hr).2.1)
  refine ⟨stackRatio (vecSum N ((List.range (n + 1)).map (fun r => (acc r).1)))
    (vecSum N ((List.range (n + 1)).map (fun r => (acc r).2))), ?_, ?_, ?_⟩
  · have h1 : Sync n (fun r => (.allreduce (fun l => c.enc (vecSum N (l.map c.dec))) (c.enc (acc r).1) fun f =>
        .allreduce (fun l => c.enc (vecSum N (l.map c.dec))) (c.enc (acc r).2) fun w =>
        .ret (linspace w1 w2 N, stackRatio (c.dec f) (c.dec w)) : Prog V W _))
        (fun _ => .ok (linspace w1 w2 N, stackRatio (vecSum N ((List.range (n + 1)).map (fun r => (acc r).1)))
          (vecSum N ((List.range (n + 1)).map (fun r => (acc r).2))))) (fun _ => []) := by
      refine sync_allreduce (fun _ => _) _ (sync_allreduce (fun _ => _) _ ?_)
      have e : ∀ g : Nat → List K, ((List.range (n + 1)).map (fun r => c.enc (g r))).map c.dec =
          (List.range (n + 1)).map g := by
        intro g
        rw [List.map_map]
        refine List.map_congr_left fun r _ => ?_
        exact c.dec_enc _
      simp only [c.dec_enc, e]
      exact sync_ret n _
    refine h1.congr (fun r hr => ?_) (fun _ _ => rfl) (fun _ _ => rfl)
    have hdr := hdw r hr
    have hner := hne r hr
    change _ = (.allreduce (fun l => c.enc (vecSum N (l.map c.dec)))
      (c.enc ((deltas r).foldl (stackOne w1 dw N) (List.replicate N 0, List.replicate N 0)).1) fun f =>
        .allreduce (fun l => c.enc (vecSum N (l.map c.dec)))
          (c.enc ((deltas r).foldl (stackOne w1 dw N) (List.replicate N 0, List.replicate N 0)).2) fun w =>
        .ret (linspace w1 w2 N, stackRatio (c.dec f) (c.dec w)) : Prog V W _)
    cases hdl : deltas r with
    | nil => exact absurd hdl hner
    | cons d ds =>
      rw [hdl] at hdr
      unfold stackFluxes
      dsimp only
      rw [hdr d (.head _), hN]
  · unfold stackRatio
    rw [List.length_zipWith, length_vecSum N _ l1, length_vecSum N _ l2, min_self]
  · intro j hj
    have e : ∀ a b : List K, a.length = N → b.length = N →
        (stackRatio a b).getD j 0 = if 0 < b.getD j 0 then a.getD j 0 / b.getD j 0 else 0 := by
      intro a b ha hb
      unfold stackRatio
      simp [List.getD_eq_getElem?_getD, ha, hb, hj]
    rw [e _ _ (length_vecSum N _ l1) (length_vecSum N _ l2), getD_vecSum N _ l1 j hj, getD_vecSum N _ l2 j hj,
      List.map_map, List.map_map]
    have s1 : ((List.range (n + 1)).map ((fun a : List K => a.getD j 0) ∘ fun r => (acc r).1)).sum =
        ((pixelsAt w1 dw j ((List.range (n + 1)).flatMap deltas)).map (fun p => (1 + p.2.1) * p.2.2)).sum := by
      rw [pixelsAt_flatMap, sum_flatMap_map]
      congr 1
      refine List.map_congr_left fun r hr => ?_
      have := ((hacc r (by have := List.mem_range.mp hr; omega)).2.2 j hj).1
      change (acc r).1.getD j 0 = _
      rw [this]
      simp [List.getD_eq_getElem?_getD, hj]
    have s2 : ((List.range (n + 1)).map ((fun a : List K => a.getD j 0) ∘ fun r => (acc r).2)).sum =
        ((pixelsAt w1 dw j ((List.range (n + 1)).flatMap deltas)).map (fun p => p.2.2)).sum := by
      rw [pixelsAt_flatMap, sum_flatMap_map]
      congr 1
      refine List.map_congr_left fun r hr => ?_
      have := ((hacc r (by have := List.mem_range.mp hr; omega)).2.2 j hj).2
      change (acc r).2.getD j 0 = _
      rw [this]
      simp [List.getD_eq_getElem?_getD, hj]
    rw [s1, s2]
    rfl

end Verif.Proofs
