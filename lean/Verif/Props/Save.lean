import Verif.Proofs.Save
import Verif.Props.Readers

/-!
# C16 - C19: resolution-only reading, saving deltas, choice of the reader
-/

namespace Verif.Props
open Verif.Np Verif.Model Verif.Proofs Verif.Spec List

variable {κ S : Type} [LinearOrder κ]

/-! ### C16 -/

section
variable {Val Wv Im Re : Type} [LinearOrder Val]

/-- **C16, partial.** If the spectra are those of the catalog rows (same targets in the same order),
the rows are of one pixel and ordered by survey and target, and every target is in the file of its
survey, then every spectrum gets, for every arm of its forest, the columns of its forest of the
matrix of the file row of its own target in the file of its own survey and pixel.

Missing: nothing can be said without the hypothesis that all targets are in the file, see
`C16_missing_target_misaligns`. -/
theorem C16_reso_pairing_partial {cut : Nat → Nat → Re → Re}
    {files : Val → Val → Option (SpecFile Val Wv Im Re)} {cat : List (Row Val)}
    {ss : List (ResoSpec Val Re)} {arms : List String} (hne : cat ≠ [])
    (hs : SurveyThenTarget cat) (hids : ss.map (·.targetid) = cat.map (fun r => r "TARGETID"))
    (harms : ∀ s ∈ ss, s.waveArms = arms)
    (hfiles : ∀ r ∈ cat, ∃ f, files (r "SURVEY") (r "HPXPIXEL") = some f ∧
      r "TARGETID" ∈ f.fibermap.map (fun r => r "TARGETID") ∧
      ∀ arm ∈ arms, ∃ h m, f.arms arm = some h ∧ h.reso = some m ∧
        m.length = f.fibermap.length)
    (hpix : Same "HPXPIXEL" cat) :
    ∃ out, readResolutionMatrices cut files cat ss = .ok out ∧ out.length = ss.length ∧
      ∀ (k : Nat) (r : Row Val) s, cat[k]? = some r → ss[k]? = some s →
        ∃ s' f i, out[k]? = some s' ∧ s'.targetid = s.targetid ∧ s'.forest = s.forest ∧
          files (r "SURVEY") (r "HPXPIXEL") = some f ∧ fileTarget f i = some s.targetid ∧
          ∀ arm ∈ arms, ∀ f1 f2, s.forest.lookup arm = some (f1, f2) →
            ∃ h l m, f.arms arm = some h ∧ h.reso = some l ∧ l[i]? = some m ∧
              s'.forestreso.lookup arm = some (cut f1 f2 m) := by
  have hG := C12_survey_groups hne hs
  have hlen : ss.length = cat.length := by
    have := congrArg List.length hids
    simpa using this
  obtain ⟨c0, cat', rfl⟩ := List.exists_cons_of_ne_nil hne
  obtain ⟨s0, ss', hss⟩ : ∃ s0 ss', ss = s0 :: ss' := by
    cases ss with
    | nil => simp at hlen
    | cons a b => exact ⟨a, b, rfl⟩
  have harm0 : s0.waveArms = arms := harms s0 (by simp [hss])
  have hle : ((c0 :: cat').map (fun r => r "SURVEY")).Pairwise (· ≤ ·) := by
    rw [List.pairwise_map]; exact survey_pairwise_le hs
  obtain ⟨tl, htl⟩ := uniqueIdx_head (c0 "SURVEY") (l := cat'.map (fun r => r "SURVEY"))
    (by simpa using hle)
  have htl' : uniqueIdx ((c0 :: cat').map (fun r => r "SURVEY")) = 0 :: tl := by simpa using htl
  have hsp : splitByKey (fun r : Row Val => r "SURVEY") (c0 :: cat') =
      splitFrom (c0 :: cat') 0 tl := by
    unfold splitByKey split
    rw [htl']; rfl
  obtain ⟨out, h1, h2, -, h3⟩ := resoGroups_ok (cut := cut) (files := files) (arms := arms)
    (cat := c0 :: cat') (is := tl) (st := 0) (ss := ss)
    (Q := fun r s s' => ∃ f i, files (r "SURVEY") (r "HPXPIXEL") = some f ∧
      fileTarget f i = some s.targetid ∧ ResoSet cut f i arms s s') (by
      intro g hg sl hsl
      rw [← hsp] at hg
      obtain ⟨r, hr, hr1, -⟩ := firstRow_ok (hG.nonempty g hg)
      have hsub := mem_of_group hG hg
      obtain ⟨f, hf, -, hres⟩ := hfiles r (hsub r hr)
      have hkey : ∀ x ∈ g, x "SURVEY" = r "SURVEY" ∧ x "HPXPIXEL" = r "HPXPIXEL" := fun x hx =>
        ⟨hG.homogeneous g hg x hx r hr, hpix x (hsub x hx) r (hsub r hr)⟩
      obtain ⟨new, h4, h5⟩ := readOnlyReso_ok (cut := cut) (file := f) (arms := arms)
        (ids := g.map (fun r => r "TARGETID")) (group_strict hG hs hg) (by
          intro x hx
          obtain ⟨y, hy, rfl⟩ := List.mem_map.mp hx
          obtain ⟨f', hf', hm, -⟩ := hfiles y (hsub y hy)
          rw [(hkey y hy).1, (hkey y hy).2, hf] at hf'
          cases hf'
          exact hm) (by
          intro arm ha
          obtain ⟨h, m, e1, e2, e3⟩ := hres arm ha
          exact ⟨m, by simp [resoHdu, e1, e2], e3⟩) hsl
      refine ⟨new, ?_, ?_, ?_⟩
      · rw [hr1]
        simp only [except_bind_ok]
        rw [hf, h4]
      · clear h4 hsl
        induction h5 with
        | nil => rfl
        | cons h _ ih =>
          obtain ⟨i, -, h⟩ := h
          simp [h.targetid, ih]
      · intro k r' s hk hks
        have hkl : k < new.length := by
          rw [← h5.length_eq]; exact (List.getElem?_eq_some_iff.mp hks).1
        refine ⟨new[k], List.getElem?_eq_getElem hkl, ?_⟩
        have hks' := List.getElem?_eq_some_iff.mp hks
        obtain ⟨i, e1, e2⟩ := (List.forall₂_iff_get.mp h5).2 k hks'.1 hkl
        simp only [List.get_eq_getElem, hks'.2] at e1 e2
        have hrm := List.mem_of_getElem? hk
        exact ⟨f, i, by rw [(hkey r' hrm).1, (hkey r' hrm).2, hf], e1, e2⟩)
    (by
      have := (uniqueIdx_pairwise hle).imp (fun h => le_of_lt h)
      rw [htl'] at this; exact this)
    (by
      intro i hi
      rw [← htl'] at hi
      have := uniqueIdx_lt i hi
      rw [List.length_map] at this
      omega) hids
  refine ⟨out, ?_, h2, ?_⟩
  · unfold readResolutionMatrices
    rw [htl', hsp]
    have : getIdx ss 0 = .ok s0 := by rw [hss]; rfl
    rw [this]
    simp only [except_bind_ok]
    rw [harm0]
    exact h1
  · intro k r s hr hsk
    obtain ⟨s', e1, f, i, e2, e3, e4⟩ := h3 k r s (Nat.zero_le _) hr hsk
    refine ⟨s', f, i, e1, e4.targetid, e4.forest, e2, e3, ?_⟩
    intro arm ha f1 f2 hl
    obtain ⟨hdu, m, d1, d2, d3⟩ := e4.done arm ha f1 f2 hl
    unfold resoHdu at d1
    cases hfa : f.arms arm with
    | none => rw [hfa] at d1; simp at d1
    | some h =>
      rw [hfa] at d1
      cases hre : h.reso with
      | none => simp [hre] at d1
      | some l =>
        simp [hre] at d1
        subst d1
        exact ⟨h, l, m, rfl, hre, d2, d3⟩
end

/-- A spectrum with one forest arm. -/
def resoSpec (t : Nat) : ResoSpec Nat String :=
  { targetid := t, waveArms := ["B"], forest := [("B", 0, 1)], forestreso := [] }

/-- **C16 is false without the hypothesis**: if one target is missing in the file, the spectra after
it get the matrix of another target, without an error. -/
theorem C16_missing_target_misaligns :
    ∃ (files : Nat → Nat → Option (SpecFile Nat String String String)) (cat : List (Row Nat))
      (ss out : List (ResoSpec Nat String)),
      SurveyThenTarget cat ∧ ss.map (·.targetid) = cat.map (fun r => r "TARGETID") ∧
      readResolutionMatrices (fun _ _ m => m) files cat ss = .ok out ∧
      ∃ s ∈ out, s.targetid = 3 ∧ s.forestreso.lookup "B" = some "reso 5" :=
  ⟨fun _ _ => some (fileOf [5]), [surveyRow 3 1, surveyRow 5 1], [resoSpec 3, resoSpec 5],
    [{ resoSpec 3 with forestreso := [("B", "reso 5")] }, resoSpec 5],
    by unfold SurveyThenTarget; decide, by decide, rfl,
    { resoSpec 3 with forestreso := [("B", "reso 5")] }, by simp, rfl, rfl⟩

/-- The hypotheses of the partial theorem are met: two surveys, files in another order. -/
example : let cat := [surveyRow 3 1, surveyRow 5 1, surveyRow 2 2]
    let ss := [resoSpec 3, resoSpec 5, resoSpec 2]
    SurveyThenTarget cat ∧ Same "HPXPIXEL" cat ∧
      ss.map (·.targetid) = cat.map (fun r => r "TARGETID") ∧
      (∀ s ∈ ss, s.waveArms = ["B"]) ∧
      ∀ r ∈ cat, ∃ f, exFiles (r "SURVEY") (r "HPXPIXEL") = some f ∧
      r "TARGETID" ∈ f.fibermap.map (fun r => r "TARGETID") ∧
      ∀ arm ∈ ["B"], ∃ h m, f.arms arm = some h ∧ h.reso = some m ∧
        m.length = f.fibermap.length := by
  refine ⟨by unfold SurveyThenTarget; decide, by unfold Same; decide, by decide, by decide, ?_⟩
  intro r hr
  simp only [List.mem_cons, List.not_mem_nil, or_false] at hr
  rcases hr with rfl | rfl | rfl <;>
  · refine ⟨_, rfl, by decide, ?_⟩
    intro arm ha
    simp only [List.mem_singleton] at ha
    subst ha
    exact ⟨_, _, rfl, rfl, by decide⟩

example : (readResolutionMatrices (fun _ _ m => m) exFiles
      [surveyRow 3 1, surveyRow 5 1, surveyRow 2 2]
      [resoSpec 3, resoSpec 5, resoSpec 2]).map (fun l => l.map (fun s => (s.targetid, s.forestreso)))
    = .ok [(3, [("B", "reso 3")]), (5, [("B", "reso 5")]), (2, [("B", "reso 2")])] := by decide

/-! ### C17 -/

/-- **C17, by pixel.** The files written have different names; there is one for every pixel that
occurs; the file of a pixel has exactly the spectra of this pixel with a valid continuum; and
altogether every valid spectrum is written once and no other. -/
theorem C17_by_pixel {argsort : List κ → List Nat} (hA : ∀ k, IsArgsort k (argsort k))
    (spectra : List (SavedSpec κ S)) (rank : Option Nat) :
    ∃ files, saveDeltas argsort true spectra true true rank = .ok files ∧
      (files.map Prod.fst).Nodup ∧
      (∀ s ∈ spectra, ∃ f ∈ files, f.1 = .pix s.hpix) ∧
      (∀ f ∈ files, ∃ p, f.1 = .pix p ∧ (∃ s ∈ spectra, s.hpix = p) ∧
        f.2 ~ spectra.filter (fun s => s.valid ∧ s.hpix = p)) ∧
      (files.map Prod.snd).flatten ~ spectra.filter (fun s => s.valid) := by
  obtain ⟨out, ho, hp, hs⟩ := fancy_argsort (key := fun s : SavedSpec κ S => s.hpix) (l := spectra)
    (hA _)
  obtain ⟨pairs, hz, hfl, hk, hcov, hpairs⟩ := zip_groups hs
  refine ⟨pairs.map (fun x => (.pix x.1, validSpectra x.2)), ?_, ?_, ?_, ?_, ?_⟩
  · unfold saveDeltas
    simp only [Bool.true_eq_false, if_false, if_true]
    rw [ho]
    simp only [except_bind_ok]
    rw [hz]
  · rw [List.map_map]
    have : (pairs.map Prod.fst).Nodup := hk.imp (fun h => ne_of_lt h)
    have h2 := this.map (f := fun p : κ => DeltaName.pix p) (fun a b h => by simpa using h)
    rw [List.map_map] at h2
    exact h2
  · intro s hs'
    obtain ⟨p, hpm, he⟩ := hcov s (hp.mem_iff.mpr hs')
    exact ⟨_, List.mem_map_of_mem hpm, by rw [he]⟩
  · intro f hf
    obtain ⟨p, hpm, rfl⟩ := List.mem_map.mp hf
    obtain ⟨hne, hflt⟩ := hpairs p hpm
    refine ⟨p.1, rfl, ?_, ?_⟩
    · obtain ⟨x, hx⟩ := List.exists_mem_of_ne_nil _ hne
      rw [hflt] at hx
      have := List.mem_filter.mp hx
      exact ⟨x, hp.mem_iff.mp this.1, by simpa using this.2⟩
    · unfold validSpectra
      rw [hflt, List.filter_filter]
      refine (hp.filter _).trans (List.Perm.of_eq ?_)
      refine List.filter_congr fun x _ => ?_
      simp
  · rw [List.map_map]
    have : (pairs.map (Prod.snd ∘ fun x => ((DeltaName.pix x.1 : DeltaName κ), validSpectra x.2))).flatten =
        validSpectra (pairs.map Prod.snd).flatten := by
      unfold validSpectra
      rw [List.filter_flatten, List.map_map]
      rfl
    rw [this, hfl]
    exact hp.filter _

/-- **C17, by rank.** One file is written, named after the rank, with the valid spectra in order. -/
theorem C17_by_rank (argsort : List κ → List Nat) (spectra : List (SavedSpec κ S)) (rank : Nat) :
    saveDeltas argsort true spectra true false (some rank) =
      .ok [(.rank rank, spectra.filter (fun s => s.valid))] := rfl

/-- **C17.** Without output directory nothing is written and nothing fails. -/
theorem C17_no_outdir (argsort : List κ → List Nat) (blind : Bool) (spectra : List (SavedSpec κ S))
    (byHpx : Bool) (rank : Option Nat) :
    saveDeltas argsort blind spectra false byHpx rank = .ok [] := rfl

/-- **C17.** With output directory, nothing is written before blinding is set. -/
theorem C17_blinding_required {argsort : List κ → List Nat} (hA : ∀ k, IsArgsort k (argsort k))
    (spectra : List (SavedSpec κ S)) (byHpx : Bool) (rank : Option Nat) :
    saveDeltas argsort false spectra true byHpx rank = .error .qsonic := by
  unfold saveDeltas
  cases byHpx with
  | true =>
    obtain ⟨out, ho, -⟩ := fancy_argsort (key := fun s : SavedSpec κ S => s.hpix) (l := spectra)
      (hA _)
    simp only [Bool.true_eq_false, if_false, if_true]
    rw [ho]
    rfl
  | false => cases rank <;> rfl

/-! ### C18 -/

variable {Val : Type} [LinearOrder Val]

/-- **C18, by pixel.** In a run not in tile format (the command line refuses tiles together with
saving by pixel): if every rank saves spectra of rows of its own queue, in any order, any subset and
any number of times, then no two ranks write a file of the same name. -/
theorem C18_pixel_files_disjoint {V W : Type} (cs : Codec Bool V)
    (cq : Codec (List (List (Row Val))) V) (ang2pix : Nat → Val → Val → Val)
    (file : Except Err (Catalog Val)) (isMock : Bool) (ks : Option (List Val)) (zmin zmax : Val)
    (n : Nat) {c : Catalog Val} {argsort : List Val → List Nat}
    (hA : ∀ k, IsArgsort k (argsort k))
    (h : readQuasarCatalog ang2pix file isMock false ks zmin zmax = .ok c)
    (spectra : Nat → List (SavedSpec Val S)) {q : List (List (List (Row Val)))}
    (hq : (runJob n (fun r => mpiGetLocalQueue (W := W) cs cq
      (readQuasarCatalog ang2pix file isMock false ks zmin zmax) false (n + 1) r)).1 =
        .done (q.map .ok))
    (hspec : ∀ i queue, q[i]? = some queue → ∀ s ∈ spectra i, ∃ r ∈ queue.flatten,
      s.hpix = r "HPXPIXEL")
    {i j : Nat} (hij : i ≠ j) (hi : i < n + 1) (hj : j < n + 1)
    {fi fj : List (DeltaName Val × List (SavedSpec Val S))} {ri rj : Option Nat}
    (hfi : saveDeltas argsort true (spectra i) true true ri = .ok fi)
    (hfj : saveDeltas argsort true (spectra j) true true rj = .ok fj) :
    ∀ x ∈ fi, ∀ y ∈ fj, x.1 ≠ y.1 := by
  obtain ⟨q', hq', hlen, -, -, hdis⟩ := C06_local_queues (W := W) cs cq ang2pix file isMock false
    ks zmin zmax n c h
  have hqq : q' = q := by
    rw [hq] at hq'
    simp only [Outcome.done.injEq] at hq'
    have hinj : Function.Injective (Except.ok : List (List (Row Val)) → Except Err _) :=
      fun a b h => by cases h; rfl
    exact (List.map_injective_iff.mpr hinj hq').symm
  subst hqq
  simp only [Bool.false_eq_true, if_false] at hdis
  wlog hlt : i < j generalizing i j fi fj ri rj with H
  · intro x hx y hy e
    exact H (Ne.symm hij) hj hi hfj hfi (by omega) y hy x hx e.symm
  intro x hx y hy e
  obtain ⟨gi, h1, -, -, h2, -⟩ := C17_by_pixel hA (spectra i) ri
  obtain ⟨gj, h3, -, -, h4, -⟩ := C17_by_pixel hA (spectra j) rj
  rw [hfi] at h1; rw [hfj] at h3
  cases h1; cases h3
  obtain ⟨p, hp, ⟨s, hs, hsp⟩, -⟩ := h2 x hx
  obtain ⟨p', hp', ⟨s', hs', hsp'⟩, -⟩ := h4 y hy
  have hpp : p = p' := by rw [hp, hp'] at e; cases e; rfl
  have hi' : i < q'.length := by omega
  have hj' : j < q'.length := by omega
  obtain ⟨r, hr, hrp⟩ := hspec i q'[i] (List.getElem?_eq_getElem hi') s hs
  obtain ⟨r', hr', hrp'⟩ := hspec j q'[j] (List.getElem?_eq_getElem hj') s' hs'
  obtain ⟨ci, hci, hrci⟩ := List.mem_flatten.mp hr
  obtain ⟨cj, hcj, hrcj⟩ := List.mem_flatten.mp hr'
  rw [List.pairwise_flatten] at hdis
  have := List.pairwise_iff_getElem.mp hdis.2 i j hi' hj' hlt ci hci cj hcj r hrci r' hrcj
  exact this (by rw [← hrp, ← hrp', hsp, hsp', hpp])

/-- **C18, by rank.** Two ranks write files of different names. -/
theorem C18_rank_files_disjoint {argsort : List κ → List Nat} {si sj : List (SavedSpec κ S)}
    {i j : Nat} (hij : i ≠ j) {fi fj : List (DeltaName κ × List (SavedSpec κ S))}
    (hfi : saveDeltas argsort true si true false (some i) = .ok fi)
    (hfj : saveDeltas argsort true sj true false (some j) = .ok fj) :
    ∀ x ∈ fi, ∀ y ∈ fj, x.1 ≠ y.1 := by
  rw [C17_by_rank] at hfi hfj
  cases hfi; cases hfj
  simp [hij]

/-! ### C19 -/

/-- **C19.** The choice of the reader, for all combinations of the flags: mock first, then tile, then
exposures, else coadds; directory, arms and the resolution option are always passed on. -/
theorem C19_reader_choice (dir program : String) (arms : List String)
    (mock skip cont tile expo : Bool) :
    let b := getSpectraReaderFunction dir arms mock skip cont tile expo program
    b.inputDir = dir ∧ b.arms = arms ∧ b.skipResomat = skip ∧
    (b.reader = .mock ↔ mock = true) ∧
    (b.reader = .tile ↔ mock = false ∧ tile = true) ∧
    (b.reader = .uncoadd ↔ mock = false ∧ tile = false ∧ expo = true) ∧
    (b.reader = .coadd ↔ mock = false ∧ tile = false ∧ expo = false) ∧
    (b.trueContinuum = if mock then some cont else none) ∧
    (b.program = if mock ∨ tile then none else some program) := by
  cases mock <;> cases tile <;> cases expo <;> simp [getSpectraReaderFunction]

/-! ### Concrete cases -/

/-- Spectra of two pixels in no order, one of them not valid. -/
def exSaved : List (SavedSpec Nat String) :=
  [⟨9, true, "a"⟩, ⟨4, true, "b"⟩, ⟨9, false, "c"⟩, ⟨9, true, "d"⟩]

example : (saveDeltas argsortStable true exSaved true true (some 3)).map
    (fun f => f.map (fun x => (x.1, x.2.map (·.data)))) =
    .ok [(.pix 4, ["b"]), (.pix 9, ["a", "d"])] := by decide

example : (saveDeltas argsortStable true exSaved true false (some 3)).map
    (fun f => f.map (fun x => (x.1, x.2.map (·.data)))) =
    .ok [(.rank 3, ["a", "b", "d"])] := by decide

/-- The hypothesis of `C18_pixel_files_disjoint` on the spectra is met by the rows of the queues
themselves. -/
example (q : List (List (List (Row Nat)))) (i : Nat) (queue : List (List (Row Nat)))
    (h : q[i]? = some queue) :
    ∀ s ∈ ((q[i]?.getD []).flatten.map (fun r => (⟨r "HPXPIXEL", true, ()⟩ : SavedSpec Nat Unit))),
      ∃ r ∈ queue.flatten, s.hpix = r "HPXPIXEL" := by
  intro s hs
  rw [h] at hs
  obtain ⟨r, hr, rfl⟩ := List.mem_map.mp hs
  exact ⟨r, hr, rfl⟩

/-- **C18, limit.** In tile format saving by pixel would lose data: two tiles of one pixel go to two
ranks, and both write the file of the pixel. (The command line refuses this combination.) -/
theorem C18_tiles_would_collide :
    ∃ (c : Catalog Nat) (q : List (List (List (Row Nat)))), makeQueues c true 2 = .ok q ∧
      ∃ a ∈ q[0]?.getD [], ∃ b ∈ q[1]?.getD [], ∃ r ∈ a, ∃ s ∈ b,
        r "TILEID" ≠ s "TILEID" ∧ r "HPXPIXEL" = s "HPXPIXEL" := by
  let r1 : Row Nat := fun c => if c = "TILEID" then 1 else 0
  let r2 : Row Nat := fun c => if c = "TILEID" then 2 else 0
  exact ⟨⟨["TILEID"], [r1, r2]⟩, [[[r1]], [[r2]]], rfl, [r1], by simp, [r2], by simp, r1, by simp,
    r2, by simp, by decide, by decide⟩

example : (getSpectraReaderFunction "dir" ["B"] true true false true true "dark").reader = .mock :=
  rfl

end Verif.Props
