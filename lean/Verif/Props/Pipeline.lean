import Verif.Proofs.Pipeline

/-!
# C114: `qsonic-calib` on the deltas of `qsonic-fit`

Two jobs one after the other, with any numbers of processes. The model is in `Verif.Model.Pipeline`.
-/

namespace Verif.Props
open Verif Verif.Np Verif.Model Verif.Model.Prog Verif.Spec Verif.Proofs

section
variable {K : Type} [Field K] [LinearOrder K] [FloorRing K] [IsStrictOrderedRing K] {V W : Type}

/-- How a job of `qsonic-calib` on `N + 1` processes ends if `used` are the deltas it should use: there is one table of
their statistics. If the fit fails in too many wavelength bins all ranks raise the exception of the package and no file is
created; otherwise all ranks have this table, the fits of its rows and the stack of these deltas, and the root writes one file
with these, which it closes. -/
def CalibEnds (C : CalibCfg K) (c : CalibCodecs K C.nsub C.var V) (called : W) (ev : SaverEv (CalHdu K) → W)
    (fname : String) (inp : Nat → CalibIn K) (N : Nat) (used : List (CalDelta K)) (dw : K) (m : Nat) : Prop :=
  ∃ (t : VarTable K) (kept : Nat → List (CalDelta K)), StatsOf C.var used t ∧ t.cov.isSome = C.useCov ∧
    ((List.range (N + 1)).flatMap kept).Perm used ∧
    (FitFails C t → runJob N (fun r => C.run c called ev fname (inp r) (N + 1) r) =
      (.done (List.replicate (N + 1) (.error .qsonic)),
        (List.range (N + 1)).map (fun r => if r = 0 then List.replicate (calibCalls C) called else []))) ∧
    (¬ FitFails C t → runJob N (fun r => C.run c called ev fname (inp r) (N + 1) r) =
      (.done ((List.range (N + 1)).map (fun r => .ok
        { kept := kept r
          table := t
          fit := (C.smooth (fitValues C t).1 (fitValues C t).2, (fitValues C t).2)
          stack := (stackGrid C.var.w1 dw m, stackOf C.var.w1 dw m used) })),
        (List.range (N + 1)).map (fun r => if r = 0 then List.replicate (calibCalls C) called ++
          (calibFile C fname t (stackGrid C.var.w1 dw m) (stackOf C.var.w1 dw m used)).map ev else [])))

omit [FloorRing K] [IsStrictOrderedRing K] in
theorem stackOf_perm {w1 dw : K} {m : Nat} {l l' : List (CalDelta K)} (h : l.Perm l') :
    stackOf w1 dw m l = stackOf w1 dw m l' := by
  unfold stackOf
  refine List.map_congr_left fun j _ => ?_
  have hp : (pixelsAt w1 dw j l).Perm (pixelsAt w1 dw j l') := (h.flatMap_right _).filter _
  unfold weightedFlux
  rw [(hp.map (fun p => p.2.2)).sum_eq, (hp.map (fun p => (1 + p.2.1) * p.2.2)).sum_eq]

end

section
variable {Val K : Type} [LinearOrder Val] [Field K] [LinearOrder K] [IsStrictOrderedRing K] [FloorRing K]

/-- **C114**. A run of `qsonic-fit` on `n + 1` processes with an output directory either raises `QsonicException` on all
ranks, or finishes with deltas of the spectra of the catalog that pass the cuts and whose fit is valid. In the latter case let
`qsonic-calib` run on `N + 1` processes in this directory: with the names of the delta files in any order, the same number
of files, at least one, for every process, a delta to be used in every file, and spectra whose wavelengths are on a grid of the stack. Then
it uses exactly the deltas of the arms with signal of these spectra that are neither listed, nor BALs, nor of other surveys, nor
outside of the range of signal to noise: flux over continuum minus one with ivar and weight times the squared continuum,
each pixel once, whichever process of the one or the other job had it. -/
theorem C114_fit_calib {Q D V : Type} (C : WrittenCfg Val K) {c : Catalog Val} {f : Val → List (ReadSpec K)} {dw0 dr : K}
    (hC : PlainRun C.run dw0 dr) (hr : ReadsPixels C.run c f) (hA : ∀ k, IsArgsort k (C.run.argsort k))
    (hsm : ∀ v x, (C.run.sel.smooth v x).length = v.length)
    (hnew : ∀ p ∈ catPixels C.run.tile c, ∀ x ∈ f p, NewSpec C.skipResomat x.spec)
    (hextra : ∀ i, ∀ k ∈ (C.extra i).keys, k ∈ ["TILEID", "FIBER", "PETAL_LOC", "EXPID", "NIGHT"])
    (hnight : Monotone C.night) (htile : C.run.byHpx = true → C.run.tile = false) (hout : C.run.outdir = true)
    (P : FitterFns (FullState K) (Spectrum K) (StackSums K) Q D) (cs : Codec Bool V)
    (cq : Codec (List (List (Row Val))) V) (cn : Codec Val V) (fc : FitterCodecs (StackSums K) Q V)
    {ang2pix : Nat → Val → Val → Val} {file : Except Err (Catalog Val)} {isMock : Bool}
    {ks : Option (List Val)} {zmin zmax : Val}
    (h : readQuasarCatalog ang2pix file isMock C.run.tile ks zmin zmax = .ok c) (n : Nat)
    (hidle : IdleOk C.run ∨ n + 1 ≤ (catPixels C.run.tile c).length)
    (aname : String) (g0 : FullState K) {pick : List String → Option String} (hp : IsPick pick) (pow10 : K → K)
    {text : Val → String} (htext : Function.Injective text) :
    let job := (runJob n (fun r => C.runAll P cs cq cn fc (.ok c) aname g0 (n + 1) r)).1
    (∃ (outs : List (WrittenOut Val K)) (g : ReadSpec K → ReadSpec K) (fits : List (ReadSpec K)),
      job = .done (outs.map .ok) ∧
      fits = ((((catPixels C.run.tile c).flatMap f).filter (fun x => decide (PassesCuts C.run.sel x))).map g).filter
          (fun x => x.spec.valid) ∧
      (∀ x ∈ ((catPixels C.run.tile c).flatMap f).filter (fun x => decide (PassesCuts C.run.sel x)),
        FromRead C.run x (g x)) ∧
      ∀ {V' W' : Type} (C' : CalibCfg K) (cc : CalibCodecs K C'.nsub C'.var V') (_ : GoodBins C'.var) (called : W')
        (ev : SaverEv (CalHdu K) → W') {fname : String} (_ : fname ≠ "") {N k : Nat} (_ : 0 < k) {inp : Nat → CalibIn K}
        {ids : List Int} {rows : Option (List (CalRow K))} {part : Nat → List String},
        (∀ r ≤ N, (part r).length = k) → ((List.range (N + 1)).flatMap part).Perm (writtenFiles text outs).keys →
        (if C'.removeList then (inp 0).ids = .ok ids else ids = []) →
        (if C'.catalog then ∃ l, (inp 0).cat = .ok l ∧ rows = some l else rows = none) →
        (C'.catalog = true → C'.removeBal = true → "VMIN_CIV_450" ∈ C'.cols ∧ "VMAX_CIV_450" ∈ C'.cols ∧
          "VMIN_CIV_2000" ∈ C'.cols ∧ "VMAX_CIV_2000" ∈ C'.cols) →
        (inp 0).glob = .ok ((List.range (N + 1)).flatMap part) →
        (∀ r ≤ N, (inp r).read = readForCalib pick pow10 (writtenFiles text outs)) →
        ∀ {dw : K} (_ : 0 < dw) {m : Nat} (_ : C'.var.w2 - C'.var.w1 = ((m + 1 : Nat) : K) * dw),
        (∀ (r : Nat) (o : WrittenOut Val K), outs[r]? = some o → FilesUsed C C' ids rows r o) →
        (∀ p ∈ catPixels C.run.tile c, ∀ x ∈ f p, OnStackGrid C'.var.w1 dw x.spec) →
        CalibEnds C' cc called ev fname inp N (calUsed C' ids rows (fitDeltas fits)) dw m) ∨
    job = .done (List.replicate (n + 1) (.error .qsonic)) := by
  classical
  intro job
  rcases C113_written C hC hr hA hsm hnew hextra hnight htile P cs cq cn fc h n hidle aname g0 hp pow10 with
    ⟨outs, g, blind, h1, h2, -, h4, h5, -, h7⟩ | hq
  swap
  · exact .inr hq
  refine .inl ⟨outs, g, _, h1, rfl, h4, ?_⟩
  obtain ⟨h7, h8⟩ := h7 hout
  obtain ⟨data, d1, d2, d3, d4⟩ := job_files C htext (pick := pick) (pow10 := pow10) (blind := blind) h7 h8
  intro V' W' C' cc hc called ev fname hf N k hk inp ids rows part hl hperm hids hcat hbal hglob hread dw hdw m hm hused
    hgrid
  have hgrid := fitDeltas_grid (C := C.run) (l := ((((catPixels C.run.tile c).flatMap f).filter
      (fun x => decide (PassesCuts C.run.sel x))).map g).filter (fun x => x.spec.valid)) hdw (fun y hy => by
    obtain ⟨x, hx, rfl⟩ := List.mem_map.mp (List.mem_filter.mp hy).1
    obtain ⟨p, hpp, hxp⟩ := List.mem_flatMap.mp (List.mem_filter.mp hx).1
    exact ⟨x, h4 x hx, of_decide_eq_true (List.mem_filter.mp hx).2, hgrid p hpp x hxp⟩)
  have hpool : (((List.range (N + 1)).flatMap part).flatMap data).Perm (fitDeltas
      (((((catPixels C.run.tile c).flatMap f).filter (fun x => decide (PassesCuts C.run.sel x))).map g).filter
        (fun x => x.spec.valid))) :=
    (hperm.flatMap_right _).trans (d3.trans (fitDeltas_perm h5))
  have hpu : (calUsed C' ids rows (((List.range (N + 1)).flatMap part).flatMap data)).Perm (calUsed C' ids rows (fitDeltas
      (((((catPixels C.run.tile c).flatMap f).filter (fun x => decide (PassesCuts C.run.sel x))).map g).filter
        (fun x => x.spec.valid)))) := hpool.filter _
  have hpart : ∀ r ≤ N, ∀ a ∈ part r, a ∈ (writtenFiles text outs).keys := fun r hr a ha =>
    hperm.mem_iff.mp (List.mem_flatMap.mpr ⟨r, List.mem_range.mpr (by omega), ha⟩)
  have hne : ∀ r ≤ N, calUsed C' ids rows ((part r).flatMap data) ≠ [] := by
    intro r hr he
    obtain ⟨a, ha⟩ := List.exists_mem_of_length_pos (by rw [hl r hr]; exact hk : 0 < (part r).length)
    have hk := hpart r hr a ha
    unfold writtenFiles Dict.keys at hk
    rw [List.map_map] at hk
    obtain ⟨fl, hfl, rfl⟩ := List.mem_map.mp hk
    obtain ⟨o, ho, hfo⟩ := List.mem_flatMap.mp hfl
    obtain ⟨i, hi⟩ := List.mem_iff_getElem?.mp ho
    obtain ⟨d, hd, hu⟩ := hused i o hi fl hfo
    have : d ∈ calUsed C' ids rows ((part r).flatMap data) :=
      List.mem_filter.mpr ⟨List.mem_flatMap.mpr ⟨_, ha, (d4 i o hi fl hfo).mem_iff.mpr hd⟩, decide_eq_true hu⟩
    rw [he] at this
    cases this
  obtain ⟨used, rfl, t, s1, s2, s3, s4⟩ := C105_partial C' cc hc called ev hf hk (rest := []) (part := part) (data := data)
    hl (by simp) (inp := inp) (ids := ids) (rows := rows) ⟨hids, hcat, hbal, by rw [List.append_nil]; exact hglob,
      fun r hr a ha => by
        rw [List.append_nil] at ha
        rw [hread r hr]
        exact d2 a (hperm.mem_iff.mp ha)⟩ hdw hm hne (fun r hr d hd => by
      refine hgrid d ?_
      obtain ⟨a, ha, hda⟩ := List.mem_flatMap.mp (List.mem_filter.mp hd).1
      exact hpool.mem_iff.mp (List.mem_flatMap.mpr ⟨a, List.mem_flatMap.mpr ⟨r, List.mem_range.mpr (by omega), ha⟩, hda⟩))
  refine ⟨t, fun r => calUsed C' ids rows ((part r).flatMap data), StatsOf.perm hpu s1, s2, ?_, fun hF => ?_, fun hF => ?_⟩
  · refine List.Perm.trans (List.Perm.of_eq ?_) hpu
    unfold calUsed
    rw [List.flatMap_assoc, List.filter_flatMap]
  · rw [s3 hF, List.map_const', List.length_range]
  · rw [s4 hF, stackOf_perm hpu]

end

/-! ### Concrete cases -/

deriving instance DecidableEq for CalDelta

/-- The ends of the ranks of a job without exceptions. -/
def c114Ends {A : Type} : Outcome A → List A
  | .done l => l.filterMap Except.toOption
  | _ => []

/-- What `qsonic-fit` returns for mocks on two processes. -/
def c114Outs : List (WrittenOut Nat ℚ) := c114Ends (runJob 1 (c113Run true 2)).1

/-- No catalog and no list of targets; five variance bins of which two are empty, one wavelength bin. -/
def c114Cfg : CalibCfg ℚ := { c105Cfg with
  var := { w1 := 3300 - 3 / 4, w2 := 3305 - 3 / 4, nw := 1, nv := 5, edges := [10, 15, 20, 30, 40, 50] }
  minPix := 0
  minQso := 0
  removeList := false
  catalog := false }

/-- What is exchanged. -/
abbrev C114Msg : Type := Option (List Int) × Option (List (CalRow ℚ)) × Option (List String) ×
  VarSums ℚ c114Cfg.nsub c114Cfg.var × List ℚ

/-- Messages of the example. -/
def c114Codec : CalibCodecs ℚ c114Cfg.nsub c114Cfg.var C114Msg :=
  let z : VarSums ℚ c114Cfg.nsub c114Cfg.var := ⟨fun _ _ _ => 0, fun _ _ => 0, fun _ => 0, fun _ => 0⟩
  ⟨⟨fun x => (x, none, none, z, []), fun x => x.1, fun _ => rfl⟩, ⟨fun x => (none, x, none, z, []), fun x => x.2.1, fun _ => rfl⟩,
    ⟨fun x => (none, none, x, z, []), fun x => x.2.2.1, fun _ => rfl⟩,
    ⟨fun x => (none, none, none, x, []), fun x => x.2.2.2.1, fun _ => rfl⟩,
    ⟨fun x => (none, none, none, z, x), fun x => x.2.2.2.2, fun _ => rfl⟩⟩

/-- What the ranks of `qsonic-calib` read. -/
def c114In (files : List String) : CalibIn ℚ :=
  ⟨.error .osError, .error .osError, .ok files, readForCalib List.head? id (writtenFiles Nat.repr c114Outs)⟩

/-- The program of a rank. -/
def c114Run (files : List String) (size rank : Nat) : Prog C114Msg (Option (SaverEv (CalHdu ℚ))) (CalibOut ℚ) :=
  c114Cfg.run c114Codec none some "stats.fits" (c114In files) size rank

/-- The delta of a target. -/
def c114Delta (t : Int) : CalDelta ℚ :=
  ⟨t, 6, 1, [3300, 3301, 3302, 3303, 3304], [-1 / 3, 0, 0, -1 / 9, 0], [81 / 2, 0, 0, 729 / 32, 18],
    [236196008748000081 / 110808000216000002, 0, 0, 2125764078732000729 / 1772928003456000032,
      52488001944000018 / 55404000108000001]⟩

set_option synthInstance.maxSize 4000 in
/-- What the first job fits. -/
theorem c114_fit : fitDeltas (c114Outs.flatMap (·.deltas)) = [c114Delta 20, c114Delta 30] := by decide +kernel

/-- The spectra of `c88Cfg`. -/
theorem c114_grid (t : Int) (v : ℚ) : OnStackGrid c114Cfg.var.w1 1 (c87Spec t v).spec := by
  refine ⟨rfl, 3 / 4, ?_, ?_⟩
  swap
  · intro a ha
    rw [List.mem_singleton.mp (show a ∈ [("b", ([3300, 3301, 3302, 3303, 3304] : List ℚ))] from ha)]
    exact ⟨0, 5, by decide +kernel⟩
  intro k h
  have h2 : (3 : ℚ) = 4 * k + 2 := by linarith
  have h3 : (3 : Int) = 4 * k + 2 := by exact_mod_cast h2
  omega

set_option synthInstance.maxSize 4000 in
/-- The hypotheses on the second job, for two processes with one file each; those on the first job are those of
`C113_written`. -/
example : Function.Injective Nat.repr ∧ (c113Cfg true).run.outdir = true ∧ GoodBins c114Cfg.var ∧
    (writtenFiles Nat.repr c114Outs).keys = ["delta-5.fits", "delta-4.fits"] ∧
    c114Cfg.var.w2 - c114Cfg.var.w1 = ((4 + 1 : Nat) : ℚ) * 1 ∧
    (∀ (r : Nat) (o : WrittenOut Nat ℚ), c114Outs[r]? = some o → FilesUsed (c113Cfg true) c114Cfg [] none r o) ∧
    ∀ c, c88Cat = .ok c → ∃ f : Nat → List (ReadSpec ℚ), ReadsPixels (c113Cfg true).run c f ∧
      ∀ p, ∀ x ∈ f p, OnStackGrid c114Cfg.var.w1 1 x.spec := by
  refine ⟨fun a b h => ?_, rfl, ⟨by decide +kernel, by decide, rfl, by decide +kernel, by decide +kernel⟩,
    by decide +kernel, by decide +kernel, fun r o ho f hf => ?_, fun c hc => ⟨_, c88_reads true hc, fun p x hx => ?_⟩⟩
  · exact Nat.repr_injective h
  · have : ∀ p ∈ c114Outs.zipIdx, ∀ f ∈ p.1.files, ∃ d ∈ fitDeltas (p.1.deltas.filter
        (fun x => decide (deltaFile (c113Cfg true).run p.2 x = f.1))), c114Cfg.minSnr < d.meanSnr ∧
        d.meanSnr < c114Cfg.maxSnr := by decide +kernel
    obtain ⟨d, hd, h1⟩ := this (o, r) (List.mem_zipIdx_iff_getElem?.mpr ho) f hf
    exact ⟨d, hd, List.not_mem_nil, (fun l hl => nomatch hl), h1⟩
  · obtain ⟨r, -, rfl⟩ := List.mem_map.mp hx
    exact c114_grid _ _

set_option synthInstance.maxSize 4000 in
/-- The second job on two processes and on one. -/
example :
    c105See (runJob 1 (c114Run ["delta-4.fits", "delta-5.fits"] 2)).1 = some [
      ([30], [0, 2, 2, 0, 2], [[0, 0, 0, 0, 0], [181 / 1458, 0], [0, 2 / 3, 0, 0, 8 / 9, 1]]), ([20], [0, 2, 2, 0, 2], [[0, 0, 0, 0, 0], [181 / 1458, 0], [0, 2 / 3, 0, 0, 8 / 9, 1]])] ∧
    c105See (runJob 0 (c114Run ["delta-4.fits", "delta-5.fits"] 1)).1 = some [
      ([30, 20], [0, 2, 2, 0, 2], [[0, 0, 0, 0, 0], [181 / 1458, 0], [0, 2 / 3, 0, 0, 8 / 9, 1]])] ∧
    (runJob 1 (c114Run ["delta-4.fits", "delta-5.fits"] 2)).2.map c105File =
      [["create", "stats", "func", "stack", "close"], []] := by
  decide +kernel

end Verif.Props
