import Verif.Proofs.CoaddDeltas
import Std.Data.String.ToNat
import Mathlib.Data.List.Dedup
import Mathlib.Data.List.Perm.Basic
import Mathlib.Data.Rat.Floor

/-!
# Coadding directories of deltas (C64)
-/

namespace Verif.Props
open Verif.Model Verif.Np Verif.Spec Verif.Proofs

variable {K : Type} [Field K] [LinearOrder K] [FloorRing K]

theorem coadd_header (sqrt : K → K) (nan eps dwave : K) {d e t : Delta K}
    (h : d.coadd sqrt nan eps dwave e = .ok t) {k : String} (hk : k ≠ "MEANSNR") :
    t.header.lookup k = d.header.lookup k := by
  unfold Delta.coadd at h
  simp only [Bind.bind, Except.bind, pure, Except.pure] at h
  repeat' split at h
  all_goals first | (cases h; done) | skip
  cases h
  dsimp only
  rw [lookup_set, if_neg hk]

theorem foldlM_header (sqrt : K → K) (nan eps dwave : K) (l : List (Delta K)) {d t : Delta K}
    (h : l.foldlM (fun a b => a.coadd sqrt nan eps dwave b) d = .ok t) {k : String} (hk : k ≠ "MEANSNR") :
    t.header.lookup k = d.header.lookup k := by
  induction l generalizing d with
  | nil => cases h; rfl
  | cons x l ih =>
    rw [List.foldlM_cons] at h
    cases hc : d.coadd sqrt nan eps dwave x with
    | error e => rw [hc] at h; cases h
    | ok y =>
      rw [hc, except_bind_ok] at h
      rw [ih h, coadd_header sqrt nan eps dwave hc hk]

theorem coaddAll_header (sqrt : K → K) (nan eps dwave : K) (l : List (Delta K)) {t : Delta K}
    (h : coaddAll (fun a b => a.coadd sqrt nan eps dwave b) l = .ok t) {k : String} (hk : k ≠ "MEANSNR") {v : HVal K}
    (hv : ∀ d ∈ l, d.header.lookup k = some v) : t.header.lookup k = some v := by
  cases l with
  | nil => cases h
  | cons x l => rw [foldlM_header sqrt nan eps dwave l h hk, hv x (.head _)]

omit [LinearOrder K] [FloorRing K] [Field K] in
theorem write_ok (name : HVal K → String) (d : Delta K) : ∃ h, d.write name = .ok h := by
  unfold Delta.write
  dsimp only
  cases d.reso with
  | none => exact ⟨_, rfl⟩
  | some r => exact ⟨_, rfl⟩

theorem fileName_injective (out : String) :
    Function.Injective (fun p : Nat => out ++ "/delta-" ++ Nat.repr p ++ ".fits") := by
  intro a b h
  have h1 := congrArg String.toList h
  simp only [String.toList_append, List.append_assoc, List.append_cancel_left_eq] at h1
  have h2 := List.append_cancel_right h1
  exact Nat.repr_injective (String.toList_injective h2)

/-- **C64** (scripts/qsonic_coadd_deltas.py). All directories, files and deltas for which coadding succeeds: no two output
files have the same name, and the HDUs in them, each with the name of its file, are exactly one for each target in the
input, in the file of the pixel of the target, with all deltas of the target, of all files of all directories,
coadded in the order read. -/
theorem C64_written (sqrt : K → K) (nan eps dwave : K) (glob : String → List String)
    (read : String → Except Err (List (Delta K))) (data : String → List (Delta K)) (ang2pix : K → K → Nat)
    (name : HVal K → String) (dirs : List String) (out : String) (hne : dirs.flatMap glob ≠ [])
    (hread : ∀ f ∈ dirs.flatMap glob, read f = .ok (data f)) (inputs : List (Delta K))
    (hin : inputs = ((dirs.flatMap glob).map data).flatten) (Z : HVal K → Delta K)
    (hZ : ∀ t ∈ inputs.map Delta.targetid,
      coaddAll (fun a b => a.coadd sqrt nan eps dwave b) (ofTarget t inputs) = .ok (Z t))
    (ra dec : HVal K → K)
    (hra : ∀ d ∈ inputs, d.header.lookup "RA" = some (.num (ra d.targetid)))
    (hdec : ∀ d ∈ inputs, d.header.lookup "DEC" = some (.num (dec d.targetid))) :
    ∃ (files : List (String × List (Hdu K))) (hdu : HVal K → Hdu K),
      coaddDeltasMain glob read (fun a b => a.coadd sqrt nan eps dwave b) ang2pix name dirs out = .ok files ∧
      (files.map Prod.fst).Nodup ∧ (∀ t ∈ inputs.map Delta.targetid, (Z t).write name = .ok (hdu t)) ∧
      (contents files).Perm ((inputs.map Delta.targetid).dedup.map (fun t =>
        (out ++ "/delta-" ++ Nat.repr (ang2pix (ra t) (dec t)) ++ ".fits", hdu t))) := by
  obtain ⟨d, d1, d2, d3, d4⟩ := forests_ok (fun a b => a.coadd sqrt nan eps dwave b) inputs
    (fun t ht => ⟨Z t, hZ t ht⟩)
  choose W hW using write_ok (K := K) name
  have hd4 : ∀ x ∈ d, x.1 ∈ inputs.map Delta.targetid ∧ x.2 = Z x.1 := by
    intro x hx
    have hm := (d3 x.1).mp (List.mem_map.mpr ⟨x, hx, rfl⟩)
    have := d4 x.1 x.2 hx
    rw [hZ x.1 hm] at this
    exact ⟨hm, (Except.ok.inj this).symm⟩
  have hpix : ∀ x ∈ d, deltaPixel ang2pix x.2 = .ok (ang2pix (ra x.1) (dec x.1)) := by
    intro x hx
    obtain ⟨hm, he⟩ := hd4 x hx
    have hz := hZ x.1 hm
    have hsub : ∀ a ∈ ofTarget x.1 inputs, a ∈ inputs ∧ a.targetid = x.1 := by
      intro a ha
      have := List.mem_filter.mp ha
      exact ⟨this.1, by simpa using this.2⟩
    have h1 := coaddAll_header sqrt nan eps dwave _ hz (k := "RA") (by decide) (v := .num (ra x.1))
      (fun a ha => by rw [hra a (hsub a ha).1, (hsub a ha).2])
    have h2 := coaddAll_header sqrt nan eps dwave _ hz (k := "DEC") (by decide) (v := .num (dec x.1))
      (fun a ha => by rw [hdec a (hsub a ha).1, (hsub a ha).2])
    unfold deltaPixel headerNum
    rw [he, h1, h2]
    rfl
  have hforest : readDirsToDict glob read (fun a b => a.coadd sqrt nan eps dwave b) dirs = .ok d := by
    unfold readDirsToDict
    rw [if_neg (by simpa [List.isEmpty_iff] using hne), mapM_eq_ok hread, except_bind_ok, ← hin, d1]
  let pairs : List (Nat × Delta K) := d.map (fun x => (ang2pix (ra x.1) (dec x.1), x.2))
  have hgroup : ∀ (l : List (HVal K × Delta K)) (g : List (Nat × List (Delta K))),
      (∀ x ∈ l, deltaPixel ang2pix x.2 = .ok (ang2pix (ra x.1) (dec x.1))) →
      l.foldlM (fun g x => do
        let p ← deltaPixel ang2pix x.2
        .ok (appendTo g p x.2)) g = (.ok ((l.map (fun x => (ang2pix (ra x.1) (dec x.1), x.2))).foldl
          (fun g x => appendTo g x.1 x.2) g) : Except Err _) := by
    intro l
    induction l with
    | nil => exact fun _ _ => rfl
    | cons x l ih =>
      intro g hl
      rw [List.foldlM_cons, hl x (.head _), except_bind_ok, except_bind_ok, ih _ (fun y hy => hl y (.tail _ hy))]
      rfl
  have hg : groupByPixel (deltaPixel ang2pix) d = .ok (pairs.foldl (fun g x => appendTo g x.1 x.2) []) :=
    hgroup d [] hpix
  obtain ⟨g1, g2⟩ := foldl_appendTo pairs [] (by simp)
  generalize pairs.foldl (fun g x => appendTo g x.1 x.2) [] = groups at hg g1 g2
  have hwrite : groups.mapM (writeOneHpx name out) = .ok (groups.map (fun x =>
      (out ++ "/delta-" ++ Nat.repr x.1 ++ ".fits", x.2.map W))) := by
    refine mapM_eq_ok fun x _ => ?_
    unfold writeOneHpx
    rw [mapM_eq_ok (fun z _ => hW z), except_bind_ok]
  refine ⟨groups.map (fun x => (out ++ "/delta-" ++ Nat.repr x.1 ++ ".fits", x.2.map W)), fun t => W (Z t), ?_, ?_,
    fun t _ => hW _, ?_⟩
  · unfold coaddDeltasMain
    rw [hforest, except_bind_ok, hg, except_bind_ok, hwrite]
  · rw [List.map_map]
    have : groups.map (Prod.fst ∘ fun x => (out ++ "/delta-" ++ Nat.repr x.1 ++ ".fits", x.2.map W)) =
        (groups.map Prod.fst).map (fun p : Nat => out ++ "/delta-" ++ Nat.repr p ++ ".fits") := by
      rw [List.map_map]; rfl
    rw [this]
    exact List.Nodup.map (fileName_injective out) g1
  · have e1 : contents (groups.map (fun x => (out ++ "/delta-" ++ Nat.repr x.1 ++ ".fits", x.2.map W))) =
        (flat groups).map (fun x => (out ++ "/delta-" ++ Nat.repr x.1 ++ ".fits", W x.2)) := by
      unfold contents flat
      rw [List.flatMap_map, List.map_flatMap]
      refine List.flatMap_congr fun x _ => ?_
      rw [List.map_map, List.map_map]
      rfl
    have e2 : (d.map Prod.fst).Perm (inputs.map Delta.targetid).dedup := by
      rw [List.perm_ext_iff_of_nodup d2 (List.nodup_dedup _)]
      intro t
      rw [List.mem_dedup]
      exact d3 t
    have e3 : pairs = (d.map Prod.fst).map (fun t => (ang2pix (ra t) (dec t), Z t)) := by
      rw [List.map_map]
      refine List.map_congr_left fun x hx => ?_
      rw [(hd4 x hx).2]
      rfl
    rw [e1]
    have e4 := (g2.map (fun x : Nat × Delta K => (out ++ "/delta-" ++ Nat.repr x.1 ++ ".fits", W x.2)))
    refine e4.trans ?_
    change (pairs.map _).Perm _
    rw [e3, List.map_map]
    exact e2.map _

/-- A delta of a target at a position. -/
def cdDelta (t : Int) (ra : ℚ) (wave delta : List ℚ) : Delta ℚ :=
  { header := [("RA", .num ra), ("DEC", .num 0), ("MEANSNR", .num 1)]
    targetid := .int t
    meanSnr := .num 1
    wave := wave
    blinded := false
    delta := delta
    ivar := delta.map (fun _ => 1)
    weight := delta.map (fun _ => 1)
    cont := delta.map (fun _ => 1)
    reso := none }

/-- Two directories; target 1 is in a file of each, targets 1 and 3 are in pixel 0, target 2 in pixel 1. -/
def cdFiles (f : String) : List (Delta ℚ) :=
  if f = "a/delta-1.fits" then [cdDelta 1 0 [10, 54 / 5] [1, 2], cdDelta 2 1 [10] [5]]
  else if f = "b/delta-7.fits" then [cdDelta 1 0 [54 / 5, 58 / 5] [4, 6], cdDelta 3 0 [10] [7]]
  else []

/-- See `cdFiles`. -/
def cdGlob (d : String) : List String := if d = "a" then ["a/delta-1.fits"] else ["b/delta-7.fits"]

example :
    let inputs := ((["a", "b"].flatMap cdGlob).map cdFiles).flatten
    ["a", "b"].flatMap cdGlob ≠ [] ∧
    (∀ t ∈ inputs.map Delta.targetid, (coaddAll (fun a b => a.coadd id 0 1 (4 / 5) b) (ofTarget t inputs)).isOk) ∧
    (∀ d ∈ inputs, d.header.lookup "RA" = some (.num (if d.targetid = .int 2 then 1 else 0))) ∧
    (∀ d ∈ inputs, d.header.lookup "DEC" = some (.num 0)) ∧
    (coaddDeltasMain cdGlob (fun f => .ok (cdFiles f)) (fun a b => a.coadd id 0 1 (4 / 5) b)
      (fun ra _ => if ra = 0 then 0 else 1) (fun t => if t = .int 1 then "1" else "?") ["a", "b"] "o").toOption.map
        (fun fs => (contents fs).map (fun x => (x.1, x.2.extname, (vecCol x.2 "DELTA").toOption.getD []))) =
      some [("o/delta-0.fits", "1", [1, 3, 6]), ("o/delta-0.fits", "?", [7]), ("o/delta-1.fits", "?", [5])] := by
  intro inputs
  refine ⟨by decide, ?_, ?_, ?_, ?_⟩
  · change ∀ t ∈ (((["a", "b"].flatMap cdGlob).map cdFiles).flatten).map Delta.targetid, _
    decide +kernel
  · change ∀ d ∈ ((["a", "b"].flatMap cdGlob).map cdFiles).flatten, _
    decide +kernel
  · change ∀ d ∈ ((["a", "b"].flatMap cdGlob).map cdFiles).flatten, _
    decide +kernel
  · decide +kernel

theorem mapM_mem {α β : Type} {f : α → Except Err β} {l : List α} {bs : List β} (h : l.mapM f = .ok bs) :
    ∀ a ∈ l, ∃ b, f a = .ok b := by
  induction l generalizing bs with
  | nil => intro a ha; simp at ha
  | cons x l ih =>
    rw [List.mapM_cons] at h
    cases hx : f x with
    | error e => rw [hx] at h; cases h
    | ok y =>
      rw [hx, except_bind_ok] at h
      cases hl : l.mapM f with
      | error e => rw [hl] at h; cases h
      | ok ys =>
        intro a ha
        rcases List.mem_cons.mp ha with rfl | ha
        exacts [⟨y, hx⟩, ih hl a ha]

omit [LinearOrder K] [FloorRing K] [Field K] in
theorem headerNum_ok {d : Delta K} {key : String} {x : K} (h : headerNum d key = .ok x) :
    d.header.lookup key = some (.num x) := by
  unfold headerNum at h
  split at h
  · next y hy => rw [hy, Except.ok.inj h]
  · cases h
  · cases h

omit [LinearOrder K] [FloorRing K] [Field K] in
theorem groupByPixel_ok (ang2pix : K → K → Nat) (l : List (HVal K × Delta K)) {g r : List (Nat × List (Delta K))}
    (h : l.foldlM (fun g x => do
        let p ← deltaPixel ang2pix x.2
        .ok (appendTo g p x.2)) g = (.ok r : Except Err _)) :
    ∀ x ∈ l, ∃ ra dec, x.2.header.lookup "RA" = some (.num ra) ∧ x.2.header.lookup "DEC" = some (.num dec) := by
  induction l generalizing g with
  | nil => intro x hx; simp at hx
  | cons y l ih =>
    rw [List.foldlM_cons] at h
    cases hp : deltaPixel ang2pix y.2 with
    | error e => rw [hp] at h; cases h
    | ok p =>
      rw [hp, except_bind_ok, except_bind_ok] at h
      intro x hx
      rcases List.mem_cons.mp hx with rfl | hx
      · unfold deltaPixel at hp
        cases h1 : headerNum x.2 "RA" with
        | error e => rw [h1] at hp; cases hp
        | ok a =>
          cases h2 : headerNum x.2 "DEC" with
          | error e => rw [h1, h2] at hp; cases hp
          | ok b => exact ⟨a, b, headerNum_ok h1, headerNum_ok h2⟩
      · exact ih h x hx

/-- **C64**: the hypotheses of `C64_written` hold for every run that succeeds: there are files, all can be read, the
deltas of every target can be coadded, and the result has the coordinates. -/
theorem C64_success (coadd : Delta K → Delta K → Except Err (Delta K)) (glob : String → List String)
    (read : String → Except Err (List (Delta K))) (ang2pix : K → K → Nat) (name : HVal K → String)
    (dirs : List String) (out : String) (files : List (String × List (Hdu K)))
    (h : coaddDeltasMain glob read coadd ang2pix name dirs out = .ok files) :
    dirs.flatMap glob ≠ [] ∧ ∃ data : String → List (Delta K), (∀ f ∈ dirs.flatMap glob, read f = .ok (data f)) ∧
      ∃ Z : HVal K → Delta K, ∀ t ∈ (((dirs.flatMap glob).map data).flatten).map Delta.targetid,
        coaddAll coadd (ofTarget t ((dirs.flatMap glob).map data).flatten) = .ok (Z t) ∧
        ∃ ra dec, (Z t).header.lookup "RA" = some (.num ra) ∧ (Z t).header.lookup "DEC" = some (.num dec) := by
  unfold coaddDeltasMain readDirsToDict at h
  by_cases hne : (dirs.flatMap glob).isEmpty = true
  · rw [if_pos hne] at h
    cases h
  rw [if_neg hne] at h
  refine ⟨by simpa [List.isEmpty_iff] using hne, fun f => (read f).toOption.getD [], ?_⟩
  cases hr : (dirs.flatMap glob).mapM read with
  | error e => rw [hr] at h; cases h
  | ok ds =>
    rw [hr, except_bind_ok] at h
    have hread : ∀ f ∈ dirs.flatMap glob, read f = .ok ((read f).toOption.getD []) := by
      intro f hf
      obtain ⟨y, hy⟩ := mapM_mem hr f hf
      rw [hy]
      rfl
    have hds := mapM_eq_ok hread
    rw [hr] at hds
    obtain rfl := Except.ok.inj hds
    refine ⟨hread, ?_⟩
    cases hf : (((dirs.flatMap glob).map (fun f => (read f).toOption.getD [])).flatten).foldlM
        (addToForests coadd) [] with
    | error e => rw [hf] at h; cases h
    | ok d =>
      have hc := coaddAll_of_forests coadd _ d hf
      refine ⟨fun t => (coaddAll coadd (ofTarget t ((dirs.flatMap glob).map
        (fun f => (read f).toOption.getD [])).flatten)).toOption.getD
          (((dirs.flatMap glob).map (fun f => (read f).toOption.getD [])).flatten.headD
            { header := [], targetid := .int 0, meanSnr := .int 0, wave := [], blinded := false, delta := [],
              ivar := [], weight := [], cont := [], reso := none }), fun t ht => ?_⟩
      obtain ⟨z, hz⟩ := hc t ht
      obtain ⟨d', d1, -, d3, d4⟩ := forests_ok coadd _ hc
      obtain rfl : d = d' := Except.ok.inj (hf.symm.trans d1)
      rw [hf, except_bind_ok] at h
      dsimp only
      rw [hz]
      refine ⟨rfl, ?_⟩
      obtain ⟨⟨t', z'⟩, hx, rfl⟩ := List.mem_map.mp ((d3 t).mpr ht)
      have hz' := d4 _ _ hx
      dsimp only at hz
      rw [hz] at hz'
      obtain rfl := Except.ok.inj hz'
      cases hg : groupByPixel (deltaPixel ang2pix) d with
      | error e => rw [hg] at h; cases h
      | ok g => exact groupByPixel_ok ang2pix d hg _ hx

/-- The script coadds with the pixel size of the default, 0.8, whatever that of the deltas: here both have pixels of size
2 and one at wavelength 14, where the coadded delta has no weight. -/
theorem C64_pixel_size_refuted : ∃ d e t : Delta ℚ, d.wave = [10, 12, 14] ∧ e.wave = [12, 14] ∧
    d.weight = [1, 1, 1] ∧ e.weight = [1, 1] ∧ d.coadd id 0 1 (4 / 5) e = .ok t ∧
    t.wave.getLast? = some 14 ∧ t.weight.getLast? = some 0 := by
  have h : ∀ x : Except Err (Delta ℚ), x.toOption.map (fun t => (t.wave.getLast?, t.weight.getLast?)) =
      some (some 14, some 0) → ∃ t, x = .ok t ∧ t.wave.getLast? = some 14 ∧ t.weight.getLast? = some 0 := by
    intro x hx
    cases x with
    | error e => simp [Except.toOption] at hx
    | ok t =>
      have := Option.some.inj hx
      simp only [Prod.mk.injEq] at this
      exact ⟨t, rfl, this⟩
  obtain ⟨t, h1, h2⟩ := h ((cdDelta 1 0 [10, 12, 14] [1, 2, 3]).coadd id 0 1 (4 / 5) (cdDelta 1 0 [12, 14] [2, 3]))
    (by decide +kernel)
  exact ⟨_, _, t, rfl, rfl, rfl, rfl, h1, h2⟩

/-- Without any file it fails. -/
theorem C64_no_files (glob : String → List String) (read : String → Except Err (List (Delta K)))
    (coadd : Delta K → Delta K → Except Err (Delta K)) (ang2pix : K → K → Nat) (name : HVal K → String)
    (dirs : List String) (out : String) (h : dirs.flatMap glob = []) :
    coaddDeltasMain glob read coadd ang2pix name dirs out = .error .exception := by
  unfold coaddDeltasMain readDirsToDict
  rw [if_pos (by rw [h]; rfl)]
  rfl

end Verif.Props
