import Verif.Proofs.SelectCoadd
import Mathlib.Data.Rat.Floor

/-!
# C87: which spectra are fitted, and with which pixels

`qsonic_fit.py` reads the local catalogs, sets the forest region, applies calibrations and masks and makes its cuts.
-/

namespace Verif.Props
open Verif.Np Verif.Model Verif.Spec Verif.Proofs List Spectrum

variable {K : Type} [Field K] [LinearOrder K] [IsStrictOrderedRing K] [FloorRing K]

/-- **C87.** The selected spectra are those read ones that pass the cuts, in the same order, each with its catalog row
and redshift. The good pixels of the forest of a selected spectrum are the good pixels that were read, in the forest
region and not in a mask, with flux and ivar calibrated and corrected for DLAs. With `--coadd-arms before`, they are the
pixels of the coadded arms instead of those that were read. -/
theorem C87_selection {Cat : Type} (C : SelectCfg K)
    (h0 : ∀ v, v ≤ 0 → C.sqrt v = 0)
    (heta : ∀ eta, C.eta = some eta → ∀ w, 0 < eta w) (hst : ∀ st, C.stack = some st → ∀ w, st w ≠ 0)
    {reader : Cat → Except Err (List (ReadSpec K))} {queue : List Cat} {f : Cat → List (ReadSpec K)}
    (hr : ∀ c ∈ queue, reader c = .ok (f c)) {ids : List Int}
    (hx : ∀ c ∈ queue, ∀ x ∈ f c, x.row.targetid ∈ ids ∧ DataOk x.spec ∧ Fresh x.spec ∧ 0 < 1 + x.spec.z)
    (hc : C.coaddBefore = true → ∀ c ∈ queue, ∀ x ∈ f c, CoaddReady C x.spec) :
    ∃ out, C.select reader ids queue = .ok out ∧
      List.Forall₂ (fun x t => t.row = x.row ∧ t.rsnr = x.rsnr ∧ t.spec.z = x.spec.z ∧ t.spec.dwave = x.spec.dwave ∧
        forestGood t.spec = ((inputGood C x.spec).filter (fun p => decide (¬ IsMasked C x p.1))).map (treated C x))
        ((queue.flatMap f).filter (fun x => decide (PassesCuts C x))) out := by
  have hall : ∀ x ∈ queue.flatMap f, x.row.targetid ∈ ids ∧ ReadOk x ∧
      (C.coaddBefore = true → CoaddReady C x.spec) := by
    intro x hm
    obtain ⟨c, hc', hxc⟩ := List.mem_flatMap.mp hm
    obtain ⟨a1, a2, a3, a4⟩ := hx c hc' x hxc
    exact ⟨a1, ⟨a2, a3, a4⟩, fun hb => hc hb c hc' x hxc⟩
  rw [select_eq, readLocal_ok C h0 hr (fun x hm => (hall x hm).2)]
  refine ⟨_, rfl, ?_⟩
  generalize queue.flatMap f = l at hall ⊢
  rw [List.map_map, List.filter_map, List.filter_filter]
  have e : l.filter (fun a => ((keepTreated C) ∘ (treatOne C ids ∘ prepRead C)) a && C.keepRead (C.setForest a)) =
      l.filter (fun x => decide (PassesCuts C x)) := by
    refine List.filter_congr fun x hm => ?_
    rw [← keep_iff C (hall x hm).2.1 (hall x hm).2.2 (hall x hm).1 h0 heta hst, Bool.and_comm]
    rfl
  rw [e, List.forall₂_map_right_iff, List.forall₂_same]
  intro x hm
  obtain ⟨hm', hp⟩ := List.mem_filter.mp hm
  obtain ⟨b1, b2, -, -, b5⟩ := treat_same C (hall x hm').2.1 (hall x hm').2.2 (hall x hm').1 h0 heta hst
    (of_decide_eq_true hp).1
  exact ⟨(prepRead_row C x).1, (prepRead_row C x).2, b1, b2, b5⟩

/-- A spectrum is selected only if a good pixel is left, when `--skip` is positive. -/
theorem C87_not_empty {C : SelectCfg K} (hs : 0 < C.skip) (hw : C.forestW1 ≤ C.forestW2) {x : ReadSpec K}
    (hz : 0 < 1 + x.spec.z) (hd : 0 < x.spec.dwave) (h : PassesCuts C x) :
    ((inputGood C x.spec).filter (fun p => decide (¬ IsMasked C x p.1))) ≠ [] := by
  have h1 := h.2.2.1 hs.ne'
  intro hn
  rw [hn] at h1
  have : 0 ≤ C.skip * ((1 + x.spec.z) * (C.forestW2 - C.forestW1) / x.spec.dwave) := by
    have := sub_nonneg.mpr hw
    positivity
  simp only [List.length_nil, Nat.cast_zero] at h1
  exact absurd h1 (not_lt.mpr this)

omit [IsStrictOrderedRing K] in
/-- What is selected from two queues, one after the other, is what is selected from both, for any options: whether a
spectrum is selected depends on no other spectrum. -/
theorem C87_local {Cat : Type} (C : SelectCfg K) (reader : Cat → Except Err (List (ReadSpec K))) (ids : List Int)
    (q q' : List Cat) (out : List (ReadSpec K)) :
    C.select reader ids (q ++ q') = .ok out ↔
      ∃ a b, C.select reader ids q = .ok a ∧ C.select reader ids q' = .ok b ∧ out = a ++ b := by
  rw [select_eq, select_eq, select_eq]
  constructor
  · intro h
    cases hl : C.readLocal reader (q ++ q') with
    | error e => rw [hl] at h; simp [Except.bind] at h
    | ok l =>
      rw [hl] at h
      obtain ⟨a, b, ha, hb, rfl⟩ := (readLocal_append C reader q q' l).mp hl
      rw [ha, hb]
      refine ⟨_, _, rfl, rfl, ?_⟩
      simp only [Except.bind, Except.ok.injEq] at h
      rw [← h, List.map_append, List.filter_append]
  · rintro ⟨a, b, ha, hb, rfl⟩
    cases hq : C.readLocal reader q with
    | error e => rw [hq] at ha; simp [Except.bind] at ha
    | ok u =>
      cases hq' : C.readLocal reader q' with
      | error e => rw [hq'] at hb; simp [Except.bind] at hb
      | ok v =>
        rw [hq] at ha
        rw [hq'] at hb
        rw [(readLocal_append C reader q q' _).mpr ⟨u, v, hq, hq', rfl⟩]
        simp only [Except.bind, Except.ok.injEq] at ha hb ⊢
        rw [← ha, ← hb, List.map_append, List.filter_append]

/-- The DLA mask of a rank holds the DLAs of its own targets only. This does not matter: any list of targets that
contains those of the spectra gives the same result. -/
theorem C87_ids {Cat : Type} (C : SelectCfg K)
    (h0 : ∀ v, v ≤ 0 → C.sqrt v = 0)
    (heta : ∀ eta, C.eta = some eta → ∀ w, 0 < eta w) (hst : ∀ st, C.stack = some st → ∀ w, st w ≠ 0)
    {reader : Cat → Except Err (List (ReadSpec K))} {queue : List Cat} {f : Cat → List (ReadSpec K)}
    (hr : ∀ c ∈ queue, reader c = .ok (f c)) {ids ids' : List Int}
    (hx : ∀ c ∈ queue, ∀ x ∈ f c, x.row.targetid ∈ ids ∧ x.row.targetid ∈ ids' ∧ DataOk x.spec ∧ Fresh x.spec ∧
      0 < 1 + x.spec.z) (hc : C.coaddBefore = true → ∀ c ∈ queue, ∀ x ∈ f c, CoaddReady C x.spec) :
    C.select reader ids queue = C.select reader ids' queue := by
  have hall : ∀ x ∈ queue.flatMap f, ReadOk x ∧ (C.coaddBefore = true → CoaddReady C x.spec) := by
    intro x hm
    obtain ⟨c, hc', hxc⟩ := List.mem_flatMap.mp hm
    obtain ⟨-, -, a3, a4, a5⟩ := hx c hc' x hxc
    exact ⟨⟨a3, a4, a5⟩, fun hb => hc hb c hc' x hxc⟩
  rw [select_eq, select_eq, readLocal_ok C h0 hr hall]
  change Except.ok _ = Except.ok _
  congr 2
  refine List.map_congr_left fun y hy => ?_
  obtain ⟨x, hm, rfl⟩ := List.mem_map.mp hy
  obtain ⟨hm, hk⟩ := List.mem_filter.mp hm
  obtain ⟨c, hc', hxc⟩ := List.mem_flatMap.mp hm
  obtain ⟨a1, a2, a3, a4, a5⟩ := hx c hc' x hxc
  have hg := ((keepRead_iff C ⟨a3, a4, a5⟩ h0).mp hk).1
  obtain ⟨-, b1, b2, -⟩ := prep_same C (hall x hm).1 (hall x hm).2 h0 hg
  obtain ⟨c1, c2, -⟩ := etaOne_same C heta b1
  obtain ⟨d1, d2, -⟩ := fluxOne_same C hst c1
  unfold treatOne
  have hz : 0 < 1 + (fluxOne C (etaOne C (prepRead C x).spec)).z := by rw [d2, c2, b2]; exact a5
  have hrow := (prepRead_row C x).1
  rw [maskFactors_ids C ids ids' (row := (prepRead C x).row) (by rw [hrow]; exact a1) (by rw [hrow]; exact a2) d1 hz]

/-! ### Concrete cases -/

/-- A spectrum of one arm with five pixels, one of them bad. -/
def c87Spec (id : Int) (flux : ℚ) : ReadSpec ℚ :=
  ⟨⟨id, [], [], [], []⟩, 5, Spectrum.blank 2 1 [("b", [3300, 3301, 3302, 3303, 3304])]
    [("b", [flux, flux, flux, flux, flux])] [("b", [4, 4, 0, 4, 4])] []⟩

/-- All calibrations and a sky and a DLA mask. -/
def c87Cfg : SelectCfg ℚ where
  sqrt v := if v ≤ 0 then 0 else v / 2
  smooth v _ := v
  junk _ := 0
  nan := 0
  eps := 1 / 10 ^ 6
  eps8 := 1 / 10 ^ 8
  dlaFlux w _ _ := if w = 3303 then 9 / 10 else 1
  wave1 := 3000
  wave2 := 6000
  forestW1 := 1100
  forestW2 := 1110
  minRsnr := 1
  minSnr := 1
  skip := 1 / 20
  coaddBefore := false
  eta := some (fun _ => 2)
  stack := some (fun _ => 3)
  sky := some [⟨6601 / 2, 6603 / 2, "OBS"⟩]
  bal := true
  dla := some [⟨1, 21 / 10, 21⟩]

theorem c87Spec_ok (id : Int) (flux : ℚ) :
    DataOk (c87Spec id flux).spec ∧ Fresh (c87Spec id flux).spec ∧ 0 < 1 + (c87Spec id flux).spec.z := by
  refine ⟨⟨by simp [c87Spec, blank, Dict.keys], ?_, ?_, ?_, ?_⟩, ⟨rfl, rfl, rfl, rfl⟩, by
    change (0 : ℚ) < 1 + 2; norm_num⟩
  all_goals
    intro arm w h
    simp only [c87Spec, blank, List.lookup_cons, List.lookup_nil] at h
    split at h
    next hb =>
      cases h
      simp only [beq_iff_eq] at hb
      subst hb
      norm_num [c87Spec, blank, Dict.arr]
    next => cases h

/-- Two spectra are read; the one with the small flux fails the cut. The pixels of the other one are calibrated, the
one in the sky mask and the bad one are not among the good ones. -/
example : ((c87Cfg.select (fun _ => .ok [c87Spec 1 3, c87Spec 2 (1 / 100)]) [1, 2] [()]).toOption.map
      (List.map (fun t => (t.row.targetid, forestGood t.spec)))) =
    some [(1, [(3300, 1, 18), (3303, 10 / 9, 18 * (9 / 10) ^ 2), (3304, 1, 18)])] := by decide +kernel

example : PassesCuts c87Cfg (c87Spec 1 3) ∧ ¬ PassesCuts c87Cfg (c87Spec 2 (1 / 100)) := by decide +kernel

example : ∃ out, c87Cfg.select (fun _ => .ok [c87Spec 1 3, c87Spec 2 (1 / 100)]) [1, 2] [()] = .ok out ∧
    List.Forall₂ (fun x t => t.row = x.row ∧ t.rsnr = x.rsnr ∧ t.spec.z = x.spec.z ∧ t.spec.dwave = x.spec.dwave ∧
      forestGood t.spec = ((inputGood c87Cfg x.spec).filter (fun p => decide (¬ IsMasked c87Cfg x p.1))).map
        (treated c87Cfg x))
      (([()].flatMap (fun _ => [c87Spec 1 3, c87Spec 2 (1 / 100)])).filter
        (fun x => decide (PassesCuts c87Cfg x))) out :=
  C87_selection c87Cfg (fun v hv => if_pos hv) (by rintro eta h; cases h; intro w; norm_num)
    (by rintro st h; cases h; intro w; norm_num) (fun _ _ => rfl) (by
      intro c _ x hx
      simp only [List.mem_cons, List.not_mem_nil, or_false] at hx
      rcases hx with rfl | rfl
      · exact ⟨by simp [c87Spec], c87Spec_ok 1 3⟩
      · exact ⟨by simp [c87Spec], c87Spec_ok 2 (1 / 100)⟩) (fun h => absurd h (by decide))

example : ((inputGood c87Cfg (c87Spec 1 3).spec).filter (fun p => decide (¬ IsMasked c87Cfg (c87Spec 1 3) p.1))) ≠ [] :=
  C87_not_empty (by decide +kernel) (by decide +kernel) (by decide +kernel) (by decide +kernel) (by decide +kernel)

/-- Two arms which overlap in one pixel, with a resolution of one row. -/
def c87Arms (id : Int) (flux : ℚ) : ReadSpec ℚ :=
  ⟨⟨id, [], [], [], []⟩, 5, Spectrum.blank 2 1 [("b", [3300, 3301, 3302, 3303]), ("r", [3303, 3304, 3305])]
    [("b", [flux, flux, flux, flux]), ("r", [2 * flux, flux, flux])] [("b", [4, 4, 0, 4]), ("r", [12, 0, 4])]
    [("b", [[1, 1, 1, 1]]), ("r", [[1, 1, 1]])]⟩

/-- With `--coadd-arms before`. -/
def c87CfgCoadd : SelectCfg ℚ := { c87Cfg with coaddBefore := true }

theorem c87Arms_ok (id : Int) (flux : ℚ) :
    DataOk (c87Arms id flux).spec ∧ Fresh (c87Arms id flux).spec ∧ 0 < 1 + (c87Arms id flux).spec.z := by
  refine ⟨⟨by simp [c87Arms, blank, Dict.keys], ?_, ?_, ?_, ?_⟩, ⟨rfl, rfl, rfl, rfl⟩, by
    change (0 : ℚ) < 1 + 2; norm_num⟩
  all_goals
    intro arm w h
    simp only [c87Arms, blank, List.lookup_cons, List.lookup_nil] at h
    split at h
    next hb =>
      cases h
      simp only [beq_iff_eq] at hb
      subst hb
      norm_num [c87Arms, blank, Dict.arr]
    next hb =>
      split at h
      next hb =>
        cases h
        simp only [beq_iff_eq] at hb
        subst hb
        norm_num [c87Arms, blank, Dict.arr, List.lookup, show ("r" == "b") = false from rfl]
      next => cases h

/-- The hypotheses of the coadd: pixels at least one step apart are never in one cell. -/
theorem c87Arms_ready (C : SelectCfg ℚ) (id : Int) (flux : ℚ) : CoaddReady C (c87Arms id flux).spec where
  dwave := by change (0 : ℚ) < 1; norm_num
  ivar := by
    intro a ha v hv
    simp only [c87Arms, blank, List.mem_cons, List.not_mem_nil, or_false] at ha
    rcases ha with rfl | rfl
    · replace hv : v ∈ ([4, 4, 0, 4] : List ℚ) := hv
      revert v; decide +kernel
    · replace hv : v ∈ ([12, 0, 4] : List ℚ) := hv
      revert v; decide +kernel
  cells := by
    intro a ha
    have hsep : a.2.Pairwise (fun v w => v + 1 ≤ w) := by
      simp only [c87Arms, blank, List.mem_cons, List.not_mem_nil, or_false] at ha
      rcases ha with rfl | rfl <;> decide +kernel
    refine (hsep.sublist List.filter_sublist).imp fun {v w} hvw k h1 h2 => ?_
    have e1 := h1.1
    have e2 := h2.2
    change _ + ((k : ℚ) - 1 / 10) * 1 ≤ v at e1
    change w < _ + ((k : ℚ) + 9 / 10) * 1 at e2
    linarith
  parity := by
    intro a ha b hb
    simp only [c87Arms, blank, List.mem_cons, List.not_mem_nil, or_false] at ha hb
    rcases ha with rfl | rfl <;> rcases hb with rfl | rfl <;> rfl
  smoothing := le_refl _
  cont := rfl

/-- The pixel at 3303 is coadded from both arms, before it is calibrated and corrected for the DLA. -/
example : ((c87CfgCoadd.select (fun _ => .ok [c87Arms 1 3, c87Arms 2 (1 / 100)]) [1, 2] [()]).toOption.map
      (List.map (fun t => (t.row.targetid, forestGood t.spec)))) =
    some [(1, [(3300, 1, 18), (3303, 7 / 4 * (10 / 9), 72 * (9 / 10) ^ 2), (3305, 1, 18)])] := by decide +kernel

example : ∃ out, c87CfgCoadd.select (fun _ => .ok [c87Arms 1 3, c87Arms 2 (1 / 100)]) [1, 2] [()] = .ok out ∧
    List.Forall₂ (fun x t => t.row = x.row ∧ t.rsnr = x.rsnr ∧ t.spec.z = x.spec.z ∧ t.spec.dwave = x.spec.dwave ∧
      forestGood t.spec = ((inputGood c87CfgCoadd x.spec).filter (fun p => decide (¬ IsMasked c87CfgCoadd x p.1))).map
        (treated c87CfgCoadd x))
      (([()].flatMap (fun _ => [c87Arms 1 3, c87Arms 2 (1 / 100)])).filter
        (fun x => decide (PassesCuts c87CfgCoadd x))) out :=
  C87_selection c87CfgCoadd (fun v hv => if_pos hv) (by rintro eta h; cases h; intro w; norm_num)
    (by rintro st h; cases h; intro w; norm_num) (fun _ _ => rfl) (by
      intro c _ x hx
      simp only [List.mem_cons, List.not_mem_nil, or_false] at hx
      rcases hx with rfl | rfl
      · exact ⟨by simp [c87Arms], c87Arms_ok 1 3⟩
      · exact ⟨by simp [c87Arms], c87Arms_ok 2 (1 / 100)⟩) (by
      intro _ c _ x hx
      simp only [List.mem_cons, List.not_mem_nil, or_false] at hx
      rcases hx with rfl | rfl
      · exact c87Arms_ready _ 1 3
      · exact c87Arms_ready _ 2 (1 / 100))

/-- The effective signal-to-noise is that of the forest before the masks, and with `--skip 0` there is no cut on the
number of pixels. So a spectrum of which every pixel is masked passes all cuts: it goes to the fit without an arm. -/
theorem C87_masked_out_refuted : ∃ (C : SelectCfg ℚ) (x : ReadSpec ℚ), C.coaddBefore = false ∧ C.skip = 0 ∧
    0 < C.minSnr ∧ DataOk x.spec ∧ Fresh x.spec ∧ 0 < 1 + x.spec.z ∧
    ((C.select (fun _ : Unit => .ok [x]) [x.row.targetid] [()]).toOption.map (List.map (fun t => t.spec.fwave))) =
      some [[]] :=
  ⟨{ c87Cfg with skip := 0, sky := some [⟨3000, 4000, "OBS"⟩] }, c87Spec 1 3, rfl, rfl, by decide +kernel,
    (c87Spec_ok 1 3).1, (c87Spec_ok 1 3).2.1, (c87Spec_ok 1 3).2.2, by decide +kernel⟩

end Verif.Props
