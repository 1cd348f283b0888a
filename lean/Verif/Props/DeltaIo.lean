import Verif.Spec.DeltaIo
import Verif.Props.DeltaFiles
import Verif.Props.Save

/-!
# C89: delta files
-/

namespace Verif.Props
open Verif Verif.Np Verif.Model Verif.Spec Verif.Proofs

section
variable {K : Type} [Field K] [LinearOrder K]

/-! ### Reading -/

theorem pickKey_ok {pick : List String → Option String} (hp : IsPick pick) {req names : List String} :
    (∃ k, pickKey pick req names = .ok k) ↔ HasAny req names := by
  unfold pickKey HasAny
  constructor
  · rintro ⟨k, hk⟩
    split at hk
    · rename_i x hx
      have := List.mem_filter.mp (hp.mem hx)
      exact ⟨x, this.1, by simpa using this.2⟩
    · cases hk
  · rintro ⟨k, h1, h2⟩
    obtain ⟨x, hx⟩ := hp.some (l := req.filter (fun k => decide (k ∈ names)))
      (List.ne_nil_of_mem (List.mem_filter.mpr ⟨h1, by simpa using h2⟩))
    exact ⟨x, by rw [hx]⟩

theorem pickKey_mem {pick : List String → Option String} (hp : IsPick pick) {req names : List String} {k : String}
    (h : pickKey pick req names = .ok k) : k ∈ req ∧ k ∈ names := by
  unfold pickKey at h
  split at h
  · rename_i x hx
    cases h
    have := List.mem_filter.mp (hp.mem hx)
    exact ⟨this.1, by simpa using this.2⟩
  · cases h

theorem pickKey_error {pick : List String → Option String} (hp : IsPick pick) {req names : List String}
    (h : ¬ HasAny req names) : pickKey pick req names = .error .runtimeError := by
  cases hk : pickKey pick req names with
  | ok k => exact absurd ((pickKey_ok hp).mp ⟨k, hk⟩) h
  | error e =>
    unfold pickKey at hk
    split at hk
    · cases hk
    · exact hk.symm ▸ rfl

theorem pickKey_unique {pick pick' : List String → Option String} (hp : IsPick pick) (hp' : IsPick pick')
    {req names : List String} (h : HasNoTwo req names) : pickKey pick req names = pickKey pick' req names := by
  by_cases h1 : HasAny req names
  · obtain ⟨k, hk⟩ := (pickKey_ok hp).mpr h1
    obtain ⟨l, hl⟩ := (pickKey_ok hp').mpr h1
    have := h k (pickKey_mem hp hk).1 l (pickKey_mem hp' hl).1 (pickKey_mem hp hk).2 (pickKey_mem hp' hl).2
    rw [hk, hl, this]
  · rw [pickKey_error hp h1, pickKey_error hp' h1]

theorem lookup_of_keys {α : Type} {d : Dict α} {k : String} (h : k ∈ d.keys) : ∃ v, d.lookup k = some v := by
  cases hl : List.lookup k d with
  | some v => exact ⟨v, rfl⟩
  | none =>
    obtain ⟨x, hx, rfl⟩ := List.mem_map.mp h
    have := List.lookup_eq_none_iff.mp hl x hx
    simp at this

theorem vecCol_ok {h : Hdu K} (hc : ProperCols h) {k : String} (hr : k ≠ "RESOMAT") :
    (∃ v, vecCol h k = .ok v) ↔ k ∈ h.cols.keys := by
  unfold vecCol
  constructor
  · rintro ⟨v, hv⟩
    split at hv
    · rename_i w hw
      exact mem_keys_of_lookup hw
    · cases hv
  · intro hk
    obtain ⟨c, hl⟩ := lookup_of_keys hk
    rw [hl]
    cases c with
    | vec v => exact ⟨v, rfl⟩
    | mat m => exact absurd ((hc k _ hl).mp ⟨m, rfl⟩) hr

theorem matCol_ok {h : Hdu K} (hc : ProperCols h) : ∃ r, matCol h = .ok r := by
  unfold matCol
  cases hl : h.cols.lookup "RESOMAT" with
  | none => exact ⟨none, rfl⟩
  | some c =>
    obtain ⟨m, rfl⟩ := (hc _ _ hl).mpr rfl
    exact ⟨some m, rfl⟩

/-- **C89** (`read_deltas`). A file that can be opened is read if every table in it has a target, a signal to noise
ratio, a wavelength and a delta column under one of the accepted names, and IVAR, WEIGHT and CONT; else reading the
file fails. The deltas are those of the tables, in order. -/
theorem C89_accepted {pick : List String → Option String} (hp : IsPick pick) (pow10 : K → K) {file : List (Hdu K)}
    (hc : ∀ h ∈ file, ProperCols h) :
    ((∃ ds, readDeltas pick pow10 (some file) = .ok ds) ↔ ∀ h ∈ file, IsDelta h) ∧
    ∀ ds, readDeltas pick pow10 (some file) = .ok ds →
      List.Forall₂ (fun h d => Delta.read pick pow10 h = .ok d) file ds := by
  have one : ∀ h ∈ file, (∃ d, Delta.read pick pow10 h = .ok d) ↔ IsDelta h := by
    intro h hh
    have hc := hc h hh
    have nr : ∀ {l : List String} {k : String}, k ∈ l → "RESOMAT" ∉ l → k ≠ "RESOMAT" := by
      rintro l k hk hn rfl
      exact hn hk
    constructor
    · rintro ⟨d, e⟩
      unfold Delta.read at e
      obtain ⟨k, hk, e⟩ := except_bind_eq_ok.mp e
      obtain ⟨tid, ht, e⟩ := except_bind_eq_ok.mp e
      obtain ⟨snr, hs, e⟩ := except_bind_eq_ok.mp e
      obtain ⟨wk, hwk, e⟩ := except_bind_eq_ok.mp e
      obtain ⟨w, hw, e⟩ := except_bind_eq_ok.mp e
      obtain ⟨dk, hdk, e⟩ := except_bind_eq_ok.mp e
      obtain ⟨de, hde, e⟩ := except_bind_eq_ok.mp e
      obtain ⟨iv, hiv, e⟩ := except_bind_eq_ok.mp e
      obtain ⟨we, hwe, e⟩ := except_bind_eq_ok.mp e
      obtain ⟨co, hco, e⟩ := except_bind_eq_ok.mp e
      exact ⟨(pickKey_ok hp).mp ⟨k, hk⟩, mem_keys_of_lookup (dictGet_ok.mp hs), (pickKey_ok hp).mp ⟨wk, hwk⟩,
        (pickKey_ok hp).mp ⟨dk, hdk⟩, (vecCol_ok hc (by decide)).mp ⟨iv, hiv⟩, (vecCol_ok hc (by decide)).mp ⟨we, hwe⟩,
        (vecCol_ok hc (by decide)).mp ⟨co, hco⟩⟩
    · intro hd
      obtain ⟨k, hk⟩ := (pickKey_ok hp).mpr hd.id
      obtain ⟨tid, ht⟩ := lookup_of_keys (pickKey_mem hp hk).2
      obtain ⟨snr, hs⟩ := lookup_of_keys hd.snr
      obtain ⟨wk, hwk⟩ := (pickKey_ok hp).mpr hd.wave
      obtain ⟨w, hw⟩ := (vecCol_ok hc (nr (pickKey_mem hp hwk).1 (by decide))).mpr (pickKey_mem hp hwk).2
      obtain ⟨dk, hdk⟩ := (pickKey_ok hp).mpr hd.delta
      obtain ⟨de, hde⟩ := (vecCol_ok hc (nr (pickKey_mem hp hdk).1 (by decide))).mpr (pickKey_mem hp hdk).2
      obtain ⟨iv, hiv⟩ := (vecCol_ok hc (by decide)).mpr hd.ivar
      obtain ⟨we, hwe⟩ := (vecCol_ok hc (by decide)).mpr hd.weight
      obtain ⟨co, hco⟩ := (vecCol_ok hc (by decide)).mpr hd.cont
      obtain ⟨r, hr⟩ := matCol_ok hc
      unfold Delta.read
      unfold idKeys at hk
      unfold waveCols at hwk
      unfold deltaCols at hdk
      rw [hk, except_bind_ok, dictGet_ok.mpr ht, except_bind_ok, dictGet_ok.mpr hs, except_bind_ok, hwk,
        except_bind_ok, hw, except_bind_ok]
      dsimp only
      rw [hdk, except_bind_ok, hde, except_bind_ok, hiv, except_bind_ok, hwe, except_bind_ok, hco, except_bind_ok,
        hr, except_bind_ok]
      exact ⟨_, rfl⟩
  refine ⟨⟨?_, ?_⟩, fun ds h => mapM_ok_inv h⟩
  · rintro ⟨ds, h⟩ x hx
    obtain ⟨d, hd⟩ : ∃ d, Delta.read pick pow10 x = .ok d := by
      have := mapM_ok_inv h
      clear h one hc
      induction this with
      | nil => cases hx
      | @cons a b l m hab _ ih =>
        rcases List.mem_cons.mp hx with rfl | hx
        · exact ⟨b, hab⟩
        · exact ih hx
    exact (one x hx).mp ⟨d, hd⟩
  · intro h
    obtain ⟨ds, h1, -⟩ := mapM_ok_of_forall (f := Delta.read pick pow10) (R := fun _ _ => True) (l := file)
      (fun x hx => by
        obtain ⟨d, hd⟩ := (one x hx).mpr (h x hx)
        exact ⟨d, hd, trivial⟩)
    exact ⟨ds, h1⟩

/-- **C89.** A table without any of the names for the target, for the wavelength or for delta raises `RuntimeError`, as
documented. -/
theorem C89_missing_names {pick : List String → Option String} (hp : IsPick pick) (pow10 : K → K) {h : Hdu K}
    (hc : ProperCols h) (hs : "MEANSNR" ∈ h.header.keys)
    (hm : ¬ HasAny idKeys h.header.keys ∨ ¬ HasAny waveCols h.cols.keys ∨ ¬ HasAny deltaCols h.cols.keys) :
    Delta.read pick pow10 h = .error .runtimeError := by
  unfold Delta.read
  by_cases h1 : HasAny idKeys h.header.keys
  · obtain ⟨k, hk⟩ := (pickKey_ok hp).mpr h1
    obtain ⟨tid, ht⟩ := lookup_of_keys (pickKey_mem hp hk).2
    obtain ⟨snr, hs⟩ := lookup_of_keys hs
    unfold idKeys at hk
    rw [hk, except_bind_ok, dictGet_ok.mpr ht, except_bind_ok, dictGet_ok.mpr hs, except_bind_ok]
    by_cases h2 : HasAny waveCols h.cols.keys
    · obtain ⟨wk, hwk⟩ := (pickKey_ok hp).mpr h2
      obtain ⟨w, hw⟩ := (vecCol_ok hc (fun e => by
        have := (pickKey_mem hp hwk).1
        rw [e] at this
        exact absurd this (by decide))).mpr (pickKey_mem hp hwk).2
      unfold waveCols at hwk
      rw [hwk, except_bind_ok, hw, except_bind_ok]
      dsimp only
      have h3 := pickKey_error hp (hm.resolve_left (not_not.mpr h1) |>.resolve_left (not_not.mpr h2))
      unfold deltaCols at h3
      rw [h3, except_bind_error]
    · have h3 := pickKey_error hp h2
      unfold waveCols at h3
      rw [h3, except_bind_error]
  · have h3 := pickKey_error hp h1
    unfold idKeys at h3
    rw [h3, except_bind_error]

/-- **C89.** What is read does not depend on the order of Python sets if no quantity is there under two names. -/
theorem C89_deterministic_partial {pick pick' : List String → Option String} (hp : IsPick pick) (hp' : IsPick pick')
    (pow10 : K → K) {file : Option (List (Hdu K))} (hu : ∀ t, file = some t → ∀ h ∈ t, Unambiguous h) :
    readDeltas pick pow10 file = readDeltas pick' pow10 file := by
  cases file with
  | none => rfl
  | some t =>
    have : ∀ h ∈ t, Delta.read pick pow10 h = Delta.read pick' pow10 h := by
      intro h hh
      obtain ⟨h1, h2, h3⟩ := hu t rfl h hh
      unfold Delta.read
      have e1 := pickKey_unique hp hp' h1
      have e2 := pickKey_unique hp hp' h2
      have e3 := pickKey_unique hp hp' h3
      unfold idKeys at e1
      unfold waveCols at e2
      unfold deltaCols at e3
      rw [e1, e2, e3]
    change t.mapM _ = t.mapM _
    clear hu
    induction t with
    | nil => rfl
    | cons a t ih =>
      rw [List.mapM_cons, List.mapM_cons, this a (by simp), ih (fun h hh => this h (by simp [hh]))]

end

/-! ### Writing and reading -/

section
variable {κ K : Type} [LinearOrder κ] [Field K] [LinearOrder K]

/-- The arms of a spectrum that give a delta. -/
def armDeltas (s : SavedSpec κ (FitSpec K)) : List (SavedSpec κ (FitSpec K) × String × List K) :=
  (armsWithSignal s.data.spec).map (fun x => (s, x))

/-- A spectrum is ready to be written, see C30. -/
def ReadyToWrite (a : BlindArgs K) (s : SavedSpec κ (FitSpec K)) : Prop :=
  Writable s.data.spec ∧ (a.skipResomat = true ↔ s.data.spec.freso = []) ∧
  ∀ k ∈ s.data.id.extra.keys, k ∈ ["TILEID", "FIBER", "PETAL_LOC", "EXPID", "NIGHT"]

theorem writeFile_read (lya : K) (night : Nat) (a : BlindArgs K) {pick : List String → Option String} (hp : IsPick pick)
    (pow10 : K → K) {l : List (SavedSpec κ (FitSpec K))} (hw : ∀ s ∈ l, ReadyToWrite a s) :
    ∃ t, writeFile (setBlinding lya ClassState.init night a) l = .ok t ∧
      ∃ ds, readDeltas pick pow10 (some t) = .ok ds ∧
      List.Forall₂ (fun x d => ReadBack x.1.data.id x.1.data.spec (decide (MustBlind lya night a)) x.2 d)
        (l.flatMap armDeltas) ds := by
  induction l with
  | nil => exact ⟨[], rfl, [], rfl, .nil⟩
  | cons s l ih =>
    obtain ⟨t, ht, ds, hds, hF⟩ := ih (fun s hs => hw s (by simp [hs]))
    obtain ⟨w1, w2, w3⟩ := hw s (by simp)
    obtain ⟨hdus, h1, h2⟩ := C30_spectrum_roundtrip lya night a hp pow10 s.data.id s.data.meanReso s.data.rsnr w1 w2 w3
    unfold writeFile at ht ⊢
    obtain ⟨T, hT, ht⟩ := except_bind_eq_ok.mp ht
    rw [except_pure] at ht
    cases ht
    refine ⟨hdus ++ T.flatten, ?_, ?_⟩
    · rw [List.mapM_cons, h1, except_bind_ok, hT]
      rfl
    · obtain ⟨es, he, hE⟩ : ∃ es, hdus.mapM (Delta.read pick pow10) = .ok es ∧
          List.Forall₂ (fun x d => ReadBack s.data.id s.data.spec (decide (MustBlind lya night a)) x d)
            (armsWithSignal s.data.spec) es := by
        clear h1
        generalize armsWithSignal s.data.spec = arms at h2 ⊢
        induction h2 with
        | nil => exact ⟨[], rfl, .nil⟩
        | cons h _ ih =>
          obtain ⟨-, d, hd, hrb⟩ := h
          obtain ⟨es, he, hE⟩ := ih
          exact ⟨d :: es, by rw [List.mapM_cons, hd, except_bind_ok, he]; rfl, .cons hrb hE⟩
      refine ⟨es ++ ds, ?_, ?_⟩
      · change (hdus ++ T.flatten).mapM _ = _
        rw [List.mapM_append, he, except_bind_ok]
        change T.flatten.mapM _ = _ at hds
        rw [hds]
        rfl
      · rw [List.flatMap_cons]
        refine List.rel_append ?_ hF
        unfold armDeltas
        rw [List.forall₂_map_left_iff]
        exact hE

/-- **C89** (`save_deltas`, then `read_deltas`). After `set_blinding`, the spectra of a rank are saved by pixel: there is
one file for each pixel, and every file can be read. What is read from the file of a pixel are, in some order, the arms
with signal of all valid spectra of this pixel, each once, with the values as in C30. -/
theorem C89_roundtrip (lya : K) (night : Nat) (a : BlindArgs K) {pick : List String → Option String} (hp : IsPick pick)
    (pow10 : K → K) {argsort : List κ → List Nat} (hA : ∀ k, IsArgsort k (argsort k))
    (spectra : List (SavedSpec κ (FitSpec K))) (hw : ∀ s ∈ spectra, s.valid = true → ReadyToWrite a s)
    (rank : Option Nat) :
    ∃ files, saveDeltaFiles argsort (setBlinding lya ClassState.init night a) spectra true true rank = .ok files ∧
      (files.map Prod.fst).Nodup ∧
      (∀ s ∈ spectra, ∃ f ∈ files, f.1 = .pix s.hpix) ∧
      ∀ f ∈ files, ∃ p, f.1 = .pix p ∧ ∃ ds arms, readDeltas pick pow10 (some f.2) = .ok ds ∧
        arms.Perm ((spectra.filter (fun s => s.valid ∧ s.hpix = p)).flatMap armDeltas) ∧
        List.Forall₂ (fun x d => ReadBack x.1.data.id x.1.data.spec (decide (MustBlind lya night a)) x.2 d) arms ds := by
  obtain ⟨files, hf, hnd, hcov, hmem, -⟩ := C17_by_pixel hA spectra rank
  have hb : (setBlinding lya ClassState.init night a).blinding.isSome = true := rfl
  have one : ∀ f ∈ files, ∃ g : DeltaName κ × List (Hdu K), (do
      let t ← writeFile (setBlinding lya ClassState.init night a) f.2
      pure (f.1, t) : Except Err _) = .ok g ∧ (g.1 = f.1 ∧ ∃ p, g.1 = .pix p ∧ ∃ ds arms,
        readDeltas pick pow10 (some g.2) = .ok ds ∧
        arms.Perm ((spectra.filter (fun s => s.valid ∧ s.hpix = p)).flatMap armDeltas) ∧
        List.Forall₂ (fun x d => ReadBack x.1.data.id x.1.data.spec (decide (MustBlind lya night a)) x.2 d) arms ds) := by
    intro f hff
    obtain ⟨p, hp1, -, hp2⟩ := hmem f hff
    obtain ⟨t, ht, ds, hds, hF⟩ := writeFile_read lya night a hp pow10 (l := f.2) (fun s hs => by
      have := List.mem_filter.mp (hp2.mem_iff.mp hs)
      simp only [decide_eq_true_eq] at this
      exact hw s this.1 this.2.1)
    refine ⟨(f.1, t), ?_, rfl, p, hp1, ds, f.2.flatMap armDeltas, hds, hp2.flatMap_right _, hF⟩
    rw [ht]
    rfl
  obtain ⟨out, ho, hR⟩ := mapM_ok_of_forall one
  refine ⟨out, ?_, ?_, ?_, ?_⟩
  · unfold saveDeltaFiles
    rw [hb, hf, except_bind_ok]
    exact ho
  · have : out.map Prod.fst = files.map Prod.fst := by
      clear ho hnd hcov hmem hf one
      induction hR with
      | nil => rfl
      | cons h _ ih => rw [List.map_cons, List.map_cons, ih, h.1]
    rw [this]
    exact hnd
  · intro s hs
    obtain ⟨f, hff, e⟩ := hcov s hs
    obtain ⟨i, hi, rfl⟩ := List.mem_iff_getElem.mp hff
    have hi' : i < out.length := by rw [← hR.length_eq]; exact hi
    have hfg := List.Forall₂.get hR hi hi'
    refine ⟨out[i], List.getElem_mem hi', ?_⟩
    simp only [List.get_eq_getElem] at hfg
    rw [hfg.1, e]
  · intro g hg
    obtain ⟨i, hi, rfl⟩ := List.mem_iff_getElem.mp hg
    have hi' : i < files.length := by rw [hR.length_eq]; exact hi
    have hfg := List.Forall₂.get hR hi' hi
    simp only [List.get_eq_getElem] at hfg
    exact hfg.2

end

/-! ### Concrete cases -/

/-- Which element of a set is taken may be the last one of a list of its elements. -/
theorem getLast_isPick : IsPick List.getLast? :=
  ⟨fun h => List.mem_of_getLast? h, fun {l} h => ⟨l.getLast h, List.getLast?_eq_some_getLast h⟩⟩

/-- A table with wavelengths and their logarithms. -/
def c89Both : Hdu ℚ :=
  { extname := "7", header := [("TARGETID", .int 7), ("THING_ID", .int 8), ("MEANSNR", .num 2)]
    cols := [("LAMBDA", .vec [100, 101]), ("LOGLAM", .vec [2, 3]), ("DELTA", .vec [1, 0]), ("DELTA_BLIND", .vec [4, 5]),
      ("IVAR", .vec [1, 0]), ("WEIGHT", .vec [1, 0]), ("CONT", .vec [1, 1])] }

/-- **C89** is false for tables with two names for the same quantity: target, wavelengths, deltas and the blinding flag
depend on the order of a set of strings, which Python changes with every start of the interpreter. -/
theorem C89_deterministic_refuted : ∃ (pick pick' : List String → Option String) (h : Hdu ℚ) (d e : Delta ℚ),
    IsPick pick ∧ IsPick pick' ∧ IsDelta h ∧ ProperCols h ∧
    readDeltas pick (fun x => 10 * x) (some [h]) = .ok [d] ∧ readDeltas pick' (fun x => 10 * x) (some [h]) = .ok [e] ∧
    d.targetid ≠ e.targetid ∧ d.wave ≠ e.wave ∧ d.delta ≠ e.delta ∧ d.blinded ≠ e.blinded := by
  refine ⟨List.head?, List.getLast?, c89Both,
    ⟨c89Both.header, .int 7, .num 2, [100, 101], false, [1, 0], [1, 0], [1, 0], [1, 1], none⟩,
    ⟨c89Both.header, .int 8, .num 2, [20, 30], true, [4, 0], [1, 0], [1, 0], [1, 1], none⟩,
    head_isPick, getLast_isPick, ⟨⟨"TARGETID", by decide, by decide⟩, by decide, ⟨"LAMBDA", by decide, by decide⟩,
      ⟨"DELTA", by decide, by decide⟩, by decide, by decide, by decide⟩, ?_, by decide +kernel, by decide +kernel,
    by decide +kernel, by decide +kernel, by decide +kernel, by decide +kernel⟩
  intro k c h
  have := mem_of_lookup h
  simp [c89Both] at this
  rcases this with ⟨rfl, rfl⟩ | ⟨rfl, rfl⟩ | ⟨rfl, rfl⟩ | ⟨rfl, rfl⟩ | ⟨rfl, rfl⟩ | ⟨rfl, rfl⟩ | ⟨rfl, rfl⟩ <;> simp

example : Unambiguous (c29Hdu true) ∧ IsDelta (c29Hdu true) ∧ ProperCols (c29Hdu true) := by
  refine ⟨⟨?_, ?_, ?_⟩, ⟨⟨"TARGETID", by decide, by decide⟩, by decide, ⟨"LAMBDA", by decide, by decide⟩,
    ⟨"DELTA_BLIND", by decide, by decide⟩, by decide, by decide, by decide⟩, ?_⟩
  · unfold HasNoTwo; decide
  · unfold HasNoTwo; decide
  · unfold HasNoTwo; decide
  · intro k c h
    have := mem_of_lookup h
    simp [c29Hdu] at this
    rcases this with ⟨rfl, rfl⟩ | ⟨rfl, rfl⟩ | ⟨rfl, rfl⟩ | ⟨rfl, rfl⟩ | ⟨rfl, rfl⟩ <;> simp

/-- A table without wavelengths. -/
example : ¬ HasAny waveCols ({ c29Hdu false with cols := (c29Hdu false).cols.drop 1 } : Hdu ℚ).cols.keys ∧
    (Delta.read List.head? id ({ c29Hdu false with cols := (c29Hdu false).cols.drop 1 } : Hdu ℚ)).toOption = none := by
  refine ⟨?_, by decide +kernel⟩
  unfold HasAny
  decide +kernel

/-- Two valid spectra of pixel 5, one of pixel 4, and one that is not valid. -/
def c89Spectra : List (SavedSpec Nat (FitSpec ℚ)) :=
  [⟨5, true, ⟨c30Id, 0, fun _ => 0, c30Spec⟩⟩, ⟨4, true, ⟨{ c30Id with targetid := 40 }, 0, fun _ => 0, c30Spec⟩⟩,
    ⟨5, false, ⟨{ c30Id with targetid := 41 }, 0, fun _ => 0, c30Spec⟩⟩,
    ⟨5, true, ⟨{ c30Id with targetid := 42 }, 0, fun _ => 0, c30Spec⟩⟩]

example : ∀ s ∈ c89Spectra, s.valid = true → ReadyToWrite (⟨false, 1040, true⟩ : BlindArgs ℚ) s := by
  intro s hs _
  have : s.data.spec = c30Spec ∧ s.data.id.extra = c30Id.extra := by
    simp only [c89Spectra, List.mem_cons, List.not_mem_nil, or_false] at hs
    rcases hs with rfl | rfl | rfl | rfl <;> exact ⟨rfl, rfl⟩
  unfold ReadyToWrite
  rw [this.1, this.2]
  exact ⟨⟨by decide +kernel, by decide +kernel, fun h => absurd rfl h⟩, by decide +kernel, by decide +kernel⟩

set_option synthInstance.maxSize 4000 in
/-- Written and read back. -/
example : ((saveDeltaFiles argsortStable (setBlinding (1215 : ℚ) ClassState.init 20220901 ⟨false, 1040, true⟩) c89Spectra
    true true none).bind (fun fs => fs.mapM (fun f => (readDeltas List.head? id (some f.2)).map (fun ds =>
      (f.1, ds.map (fun d => (d.targetid, d.blinded, d.delta))))))).toOption =
    some [(.pix 4, [(.int 40, true, [1 / 2, 0])]), (.pix 5, [(.int 39, true, [1 / 2, 0]), (.int 42, true, [1 / 2, 0])])] := by
  decide +kernel

end Verif.Props
