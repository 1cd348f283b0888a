import Verif.Spec.Attributes
import Verif.Proofs.Calib
import Verif.Proofs.CoaddDeltas
import Verif.Proofs.RankFree
import Verif.Props.Calibration
import Verif.Props.Fitter
import Verif.Proofs.Shared

/-!
# Lemmas: tables of a run as input of the calibrators
-/

namespace Verif.Proofs
open Verif Verif.Np Verif.Model Verif.Model.Prog Verif.Spec Verif.Props

section read
variable {K : Type} [Field K] [LinearOrder K] [IsStrictOrderedRing K] {rtol atol : K}

omit [LinearOrder K] [IsStrictOrderedRing K] in
theorem evenGrid_get {x0 dx : K} {n k : Nat} (hk : k < n) : (evenGrid x0 dx n)[k]? = some (x0 + (k : K) * dx) := by
  unfold evenGrid
  rw [List.getElem?_map, List.getElem?_range hk]
  rfl

/-- An evenly spaced table is accepted. -/
theorem read_evenGrid (hr : 0 ≤ rtol) (ha : 0 ≤ atol) {x0 dx : K} {n : Nat} (hn : 2 ≤ n) :
    (∀ stacked, fluxRead rtol atol (evenGrid x0 dx n) stacked =
      .ok ⟨x0, dx, stacked.map (fun x => if x = 0 then 1 else x)⟩) ∧
    ∀ junk varlss eta, noiseRead junk rtol atol (evenGrid x0 dx n) varlss eta =
      .ok (CubicInterp.notaknot junk x0 dx (eta.map (fun x => if x = 0 then 1 else x)),
        CubicInterp.notaknot junk x0 dx varlss) := by
  have h0 : (evenGrid x0 dx n)[0]? = some x0 := by
    rw [evenGrid_get (by omega)]; simp
  have h1 : (evenGrid x0 dx n)[1]? = some (x0 + dx) := by
    rw [evenGrid_get (by omega)]; simp
  have e : x0 + dx - x0 = dx := by ring
  rcases C39_table_even rtol atol _ h0 h1 with ⟨-, h2, h3⟩ | ⟨⟨i, a, b, hi, hi', hlt⟩, -⟩
  · rw [e] at h2 h3
    exact ⟨h2, h3⟩
  · exfalso
    have hin : i + 1 < n := by
      have := (List.getElem?_eq_some_iff.mp hi').1
      simpa [evenGrid] using this
    rw [evenGrid_get (by omega)] at hi hi'
    cases hi
    cases hi'
    rw [e, show x0 + ((i + 1 : Nat) : K) * dx - (x0 + (i : K) * dx) - dx = 0 by push_cast; ring, abs_zero] at hlt
    have := mul_nonneg hr (abs_nonneg dx)
    linarith

end read

section names
variable {G Sp R Q D : Type} {F : FitterFns G Sp R Q D}

theorem mem_bases {hf : Bool} {b : String} (h : b ∈ bases hf) : b ∈ bases true := by
  cases hf with
  | true => exact h
  | false =>
    unfold bases at h ⊢
    simp only [Bool.false_eq_true, if_false, List.append_nil, if_true] at h ⊢
    exact List.mem_append_left _ h

theorem namePairs_base {hf : Bool} {k : Nat} {p : String × String} (hp : p ∈ namePairs hf k) :
    p.1 ∈ bases true ∨ p.1 = "VAR_STATS" := by
  unfold namePairs at hp
  rcases List.mem_append.mp hp with hp | hp
  · left
    rcases List.mem_append.mp hp with hp | hp
    · rcases List.mem_append.mp hp with hp | hp
      · obtain ⟨i, -, h1⟩ := List.mem_flatMap.mp hp
        obtain ⟨b, hb', rfl⟩ := List.mem_map.mp h1
        exact mem_bases hb'
      · obtain ⟨b, hb', rfl⟩ := List.mem_map.mp hp
        exact mem_bases hb'
    · cases hf with
      | true => exact absurd hp (by simp)
      | false =>
        obtain ⟨b, hb', rfl⟩ := List.mem_map.mp hp
        exact hb'
  · rw [List.mem_singleton] at hp
    subst hp
    exact .inr rfl

theorem not_stats (hf : Bool) (g : Nat → G) (k : Nat) (gf : G) : "STATS" ∉ (allExts F hf g k gf).map Prod.fst := by
  rw [names_allExts]
  intro h
  obtain ⟨p, hp, e⟩ := List.mem_map.mp h
  have h1 : (p.1.toList ++ p.2.toList).take 4 = "STAT".toList := by
    rw [← String.toList_append, e]
    decide
  have h2 : ∀ b ∈ "VAR_STATS" :: bases true, 4 ≤ b.toList.length ∧ b.toList.take 4 ≠ "STAT".toList := by decide
  have h3 : p.1 ∈ "VAR_STATS" :: bases true := by
    rcases namePairs_base hp with h | h
    · exact .tail _ h
    · rw [h]; exact .head _
  obtain ⟨h4, h5⟩ := h2 _ h3
  rw [List.take_append_of_le_length h4] at h1
  exact h5 h1

theorem not_varFunc (g : Nat → G) (k : Nat) (gf : G) : "VAR_FUNC" ∉ (allExts F false g k gf).map Prod.fst := by
  rw [names_allExts]
  intro h
  obtain ⟨p, hp, e⟩ := List.mem_map.mp h
  obtain ⟨h1, h2⟩ := namePairs_good hp
  obtain ⟨h3, h4⟩ := name_inj h1 (by decide : '-' ∉ "VAR_FUNC".toList) h2 (.inl rfl : "".toList = [] ∨ _)
    (e.trans (String.append_empty).symm)
  obtain ⟨b, s⟩ := p
  dsimp only at h3 h4
  subst h3 h4
  unfold namePairs at hp
  rcases List.mem_append.mp hp with hp | hp
  · rcases List.mem_append.mp hp with hp | hp
    · rcases List.mem_append.mp hp with hp | hp
      · obtain ⟨i, -, h1⟩ := List.mem_flatMap.mp hp
        obtain ⟨b, hb', e⟩ := List.mem_map.mp h1
        rw [(Prod.mk.inj e).1] at hb'
        exact absurd hb' (by decide)
      · obtain ⟨b, hb', e⟩ := List.mem_map.mp hp
        rw [(Prod.mk.inj e).1] at hb'
        exact absurd hb' (by decide)
    · obtain ⟨b, hb', e⟩ := List.mem_map.mp hp
      exact absurd (Prod.mk.inj e).2 (by decide)
  · exact absurd hp (by decide)

theorem writtenExts_session (fname : String) (l : List D) :
    writtenExts ([.create fname] ++ l.map (.write fname) ++ [.close fname]) = l := by
  unfold writtenExts
  rw [List.filterMap_append, List.filterMap_append, List.filterMap_map]
  simp [Function.comp_def]

/-- A run of any rank that ends has written all extensions, and its iterations are as specified. -/
theorem iterate_ended {V : Type} (c : FitterCodecs R Q V) {n : Nat} {hf : Bool} {fname : String} (hname : fname ≠ "")
    {niter : Nat} (hpos : 0 < niter) {g0 : G} {specs : Nat → List Sp} {x : G × List Sp × Nat × Bool}
    (hx : x ∈ resultsOf (runJob n (fun r => F.iterate c fname niter hf r g0 (specs r))).1)
    {log : List (SaverEv (String × D))}
    (hlog : (runJob n (fun r => F.iterate c fname niter hf r g0 (specs r))).2[0]? = some log) :
    ∃ g sp conv k, Iterations F n hf g sp conv ∧ g 0 = g0 ∧ 0 < k ∧
      x.1 = finalG F n hf (g k) (fun r => F.tweak (g k) (sp k r)) ∧ writtenExts log = allExts F hf g k x.1 := by
  obtain ⟨g, sp, conv, h, rfl, rfl⟩ := exists_iterations F n hf g0 specs
  by_cases hv : ∀ i < niter, (∀ j, 0 < j → j ≤ i → conv j = false) → SomeValid F n (sp (i + 1))
  · obtain ⟨k, hk, h1, h2, h3, h4⟩ := sync_iterate (c := c) h fname niter hv
    rw [h4.job] at hx hlog
    obtain ⟨e, he, hea⟩ := List.mem_filterMap.mp hx
    obtain ⟨r, -, rfl⟩ := List.mem_map.mp he
    simp only [Except.toOption, Option.some.injEq] at hea
    subst hea
    refine ⟨g, sp, conv, k, h, rfl, h1 hpos, rfl, ?_⟩
    rw [List.getElem?_map, List.getElem?_range (by omega)] at hlog
    simp only [Option.map_some, Option.some.injEq] at hlog
    rw [session_root fname hname] at hlog
    rw [← hlog, writtenExts_session]
  · exfalso
    push Not at hv
    obtain ⟨i, hi, hc, hbad⟩ := hv
    have hex : ∃ j, ¬ SomeValid F n (sp (j + 1)) := ⟨i, hbad⟩
    classical
    have hle : Nat.find hex ≤ i := Nat.find_min' hex hbad
    obtain ⟨logs, hl, -⟩ := C54_failure F c n hf g sp conv h fname niter (Nat.find hex) (by omega)
      (fun j hj => not_not.mp (Nat.find_min hex hj)) (fun j hj => hc (j + 1) (by omega) (by omega)) (Nat.find_spec hex)
    rw [hl] at hx
    obtain ⟨e, he, hea⟩ := List.mem_filterMap.mp hx
    obtain ⟨r, -, rfl⟩ := List.mem_map.mp he
    cases hea

end names

section objects
variable {K Q : Type} [Field K] [LinearOrder K] [FloorRing K] {C : FullCfg K} {P : VarPart K Q}

/-- The three objects of a run without fiducial variance. -/
structure AttrInv (C : FullCfg K) (P : VarPart K Q) (w : FitObjs K Q) : Prop where
  refs : w.fitter = ⟨0, 1, 2⟩
  heap : w.heap.length = 3
  var : ∃ v ve, w.obj 1 = .newCubic C.junk false P.x0 P.dx v ve ∧ v.length = P.n
  eta : ∃ e ee, w.obj 2 = .newCubic C.junk false P.x0 P.dx e ee ∧ e.length = P.n

omit [LinearOrder K] [FloorRing K] in
theorem AttrInv.new (q : Q) : AttrInv C P (FitObjs.new C P none q) := by
  refine ⟨rfl, rfl, ⟨_, _, rfl, List.length_replicate⟩, ⟨_, _, rfl, ?_⟩⟩
  simp [FitObjs.constructInterp, InterpObj.newCubic, InterpObj.fp]

omit [FloorRing K] in
theorem AttrInv.meanUpd {w : FitObjs K Q} (h : AttrInv C P w) (t : StackSums K) :
    AttrInv C P (FitObjs.meanUpd C w t).1 := by
  have hm : w.fitter.mean = 0 := by rw [h.refs]
  refine ⟨h.refs, ?_, ?_, ?_⟩
  · rw [← h.heap]
    unfold FitObjs.meanUpd FitObjs.resetAt
    simp
  · rw [meanUpd_ne t (by rw [hm]; decide)]; exact h.var
  · rw [meanUpd_ne t (by rw [hm]; decide)]; exact h.eta

omit [LinearOrder K] [FloorRing K] in
theorem AttrInv.resetVar {w : FitObjs K Q} (h : AttrInv C P w) {v ve : List K} (hv : v.length = P.n) :
    AttrInv C P (w.resetAt C 1 v ve) := by
  refine ⟨h.refs, ?_, ?_, ?_⟩
  · rw [← h.heap]
    unfold FitObjs.resetAt
    simp
  · obtain ⟨v0, ve0, e, -⟩ := h.var
    rw [obj_resetAt_self (by rw [h.heap]; decide), e]
    exact ⟨v, ve, rfl, hv⟩
  · rw [obj_resetAt_ne (by decide)]; exact h.eta

omit [LinearOrder K] [FloorRing K] in
theorem AttrInv.resetEta {w : FitObjs K Q} (h : AttrInv C P w) {v ve : List K} (hv : v.length = P.n) :
    AttrInv C P (w.resetAt C 2 v ve) := by
  refine ⟨h.refs, ?_, ?_, ?_⟩
  · rw [← h.heap]
    unfold FitObjs.resetAt
    simp
  · rw [obj_resetAt_ne (by decide)]; exact h.var
  · obtain ⟨v0, ve0, e, -⟩ := h.eta
    rw [obj_resetAt_self (by rw [h.heap]; decide), e]
    exact ⟨v, ve, rfl, hv⟩

omit [LinearOrder K] [FloorRing K] in
theorem AttrInv.varUpd {w : FitObjs K Q} (h : AttrInv C P w)
    (hP : ∀ a b q, (P.solve a b q).1.1.length = P.n ∧ (P.solve a b q).2.1.length = P.n) (q : Q) :
    AttrInv C P (FitObjs.varUpd C P w q) := by
  have h1 : w.fitter.var = 1 := by rw [h.refs]
  have h2 : w.fitter.eta = 2 := by rw [h.refs]
  have key : ∀ w2 : FitObjs K Q, AttrInv C P w2 → AttrInv C P { w2 with stats := q } :=
    fun w2 h => ⟨h.refs, h.heap, h.var, h.eta⟩
  unfold FitObjs.varUpd
  dsimp only
  rw [h1, h2]
  refine key _ ?_
  have hv := h.resetVar (C := C) (ve := (P.solve (w.obj 1).fp (w.obj 2).fp q).1.2) (hP (w.obj 1).fp (w.obj 2).fp q).1
  split
  · exact hv.resetEta (hP _ _ _).2
  · exact hv

end objects

end Verif.Proofs
