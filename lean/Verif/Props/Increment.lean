import Verif.Proofs.Increment

/-!
# C121: coadding directories in steps
-/

namespace Verif.Props
open Verif.Model Verif.Np Verif.Spec Verif.Proofs

variable {K : Type} [Field K] [LinearOrder K] [IsStrictOrderedRing K] [FloorRing K]

/-- **C121** (scripts/qsonic_coadd_deltas.py, py/qsonic/spectrum.py:911-1040, py/qsonic/io.py:202-223).
`qsonic-coadd-deltas` runs on the directories `A` and writes to the new directory `mid`; then it runs on `mid` and the
directories `B`. Compare with one run on `A` and `B`. All files can be read, there is a delta in `A`, the deltas of a
target have the same coordinates, those in `A` are on one grid, and no weight of `A` is negative when another delta of
`A` is coadded to it (see `C121_weights`). Then one succeeds if and only if the other does, and they write the same HDUs
into the same files. The pixels of the first run do not matter. -/
theorem C121_steps {pick : List String → Option String} (hp : IsPick pick) (pow10 sqrt : K → K) (nan eps : K) {dwave : K}
    (h0 : 0 < dwave) (name : HVal K → String) {D E : Disk K} {A B : List String} {mid : String}
    {a b : List (Delta K)} (ha : DirDeltas pick pow10 D A a) (hb : DirDeltas pick pow10 D B b) (hne : a ≠ [])
    (ra dec w0 : HVal K → K)
    (hra : ∀ d ∈ a ++ b, d.header.lookup "RA" = some (.num (ra d.targetid)))
    (hdec : ∀ d ∈ a ++ b, d.header.lookup "DEC" = some (.num (dec d.targetid)))
    (hgrid : ∀ d ∈ a, ∃ j, DeltaOk (w0 d.targetid) dwave j d)
    (hweight : ∀ t l d r, ofTarget t a = l ++ d :: r →
      ∀ z, coaddAll (fun a b => a.coadd sqrt nan eps dwave b) l = .ok z → ∀ p ∈ z.pix, 0 ≤ p.weight)
    (ang2pix1 ang2pix2 : K → K → Nat) (out : String) {files : List (String × List (Hdu K))} :
    let run := fun (F : Disk K) (ang2pix : K → K → Nat) (dirs : List String) (out : String) =>
      coaddDeltasMain F.glob (fun f => readDeltas pick pow10 (F.tables f)) (fun a b => a.coadd sqrt nan eps dwave b) ang2pix
        name dirs out
    run D ang2pix1 A mid = .ok files → NewDir D E mid files B →
    ((∃ f, run E ang2pix2 (mid :: B) out = .ok f) ↔ ∃ f, run D ang2pix2 (A ++ B) out = .ok f) ∧
      ∀ f g, run E ang2pix2 (mid :: B) out = .ok f → run D ang2pix2 (A ++ B) out = .ok g →
        (contents f).Perm (contents g) := by
  intro run h1 hE
  obtain ⟨da, hda, rfl⟩ := ha
  obtain ⟨db, hdb, rfl⟩ := hb
  generalize hA : (A.flatMap D.glob).flatMap da = a at *
  generalize hB : (B.flatMap D.glob).flatMap db = b at *
  have hin : ∀ d ∈ a, d ∈ a ++ b := fun d hd => List.mem_append_left _ hd
  -- the first run
  obtain ⟨Z, hdu, z1, z2⟩ := (main_iff sqrt nan eps dwave D.glob (fun f => readDeltas pick pow10 (D.tables f)) da ang2pix1 name
    A mid hda a hA.symm ra dec (fun d hd => hra d (hin d hd)) (fun d hd => hdec d (hin d hd))).2 files h1
  have hZt : ∀ t ∈ a.map Delta.targetid, (Z t).targetid = t := fun t ht =>
    coaddAll_targetid sqrt nan eps dwave (z1 t ht).1 (fun d hd => (mem_ofTarget.mp hd).2)
  have hload : ∀ t ∈ a.map Delta.targetid, Loaded pick pow10 sqrt nan eps (Z t) := by
    intro t ht
    refine loaded_coaddAll h0 (w0 := w0 t) (fun d hd => ?_) (hweight t) (z1 t ht).1
    obtain ⟨m1, m2⟩ := mem_ofTarget.mp hd
    have g1 := hgrid d m1
    rw [m2] at g1
    refine ⟨?_, g1⟩
    rw [← hA] at m1
    obtain ⟨f, hf, hdf⟩ := List.mem_flatMap.mp m1
    exact read_of_readDeltas (hda f hf) d hdf
  obtain ⟨dm, hm, hperm⟩ := reread hp name (T := (a.map Delta.targetid).dedup) (Z := Z) (hdu := hdu)
    (fun t ht => hload t (List.mem_dedup.mp ht)) (fun t ht => (z1 t (List.mem_dedup.mp ht)).2) z2 hE
  generalize hM : (E.glob mid).flatMap dm = m at hperm
  have hmt : ∀ t, ofTarget t m = if t ∈ a.map Delta.targetid then [Z t] else [] := by
    intro t
    have e1 : (ofTarget t m).Perm (ofTarget t ((a.map Delta.targetid).dedup.map Z)) := hperm.filter _
    rw [ofTarget_map (List.nodup_dedup _) (fun t ht => hZt t (List.mem_dedup.mp ht)) t] at e1
    by_cases ht : t ∈ a.map Delta.targetid
    · rw [if_pos (List.mem_dedup.mpr ht)] at e1
      rw [if_pos ht]
      exact List.perm_singleton.mp e1
    · rw [if_neg (fun h => ht (List.mem_dedup.mp h))] at e1
      rw [if_neg ht]
      exact List.perm_nil.mp e1
  have hmm : ∀ d ∈ m, ∃ t ∈ a.map Delta.targetid, d = Z t := by
    intro d hd
    obtain ⟨t, ht, rfl⟩ := List.mem_map.mp (hperm.mem_iff.mp hd)
    exact ⟨t, List.mem_dedup.mp ht, rfl⟩
  have htm : ∀ t, t ∈ m.map Delta.targetid ↔ t ∈ a.map Delta.targetid := by
    intro t
    have := hmt t
    constructor
    · intro h
      by_contra hc
      rw [if_neg hc] at this
      exact ofTarget_eq_nil.mp this h
    · intro h
      by_contra hc
      rw [if_pos h, ofTarget_eq_nil.mpr hc] at this
      cases this
  have htt : ∀ t, t ∈ (m ++ b).map Delta.targetid ↔ t ∈ (a ++ b).map Delta.targetid := by
    intro t
    rw [List.map_append, List.map_append, List.mem_append, List.mem_append, htm]
  -- the same deltas for each target
  have hco : ∀ t ∈ (a ++ b).map Delta.targetid,
      coaddAll (fun a b => a.coadd sqrt nan eps dwave b) (ofTarget t (m ++ b)) =
      coaddAll (fun a b => a.coadd sqrt nan eps dwave b) (ofTarget t (a ++ b)) := by
    intro t _
    have e1 : ∀ x y : List (Delta K), ofTarget t (x ++ y) = ofTarget t x ++ ofTarget t y := fun x y => List.filter_append ..
    rw [e1, e1, hmt]
    by_cases ht : t ∈ a.map Delta.targetid
    · rw [if_pos ht]
      exact coaddAll_append (z1 t ht).1 _
    · rw [if_neg ht, ofTarget_eq_nil.mpr ht]
  -- the two runs
  classical
  have hglob : B.flatMap E.glob = B.flatMap D.glob := List.flatMap_congr fun d hd => (hE.same d hd).1
  have hcoord : ∀ (key : String) (hk : key ≠ "MEANSNR") (v : HVal K → K),
      (∀ d ∈ a ++ b, d.header.lookup key = some (.num (v d.targetid))) →
      ∀ d ∈ m ++ b, d.header.lookup key = some (.num (v d.targetid)) := by
    intro key hk v hv d hd
    rcases List.mem_append.mp hd with hd | hd
    · obtain ⟨t, ht, rfl⟩ := hmm d hd
      rw [hZt t ht]
      refine coaddAll_header sqrt nan eps dwave _ (z1 t ht).1 hk (fun d hd => ?_)
      obtain ⟨m1, m2⟩ := mem_ofTarget.mp hd
      rw [hv d (hin d m1), m2]
    · exact hv d (List.mem_append_right _ hd)
  have r2 := main_iff sqrt nan eps dwave E.glob (fun f => readDeltas pick pow10 (E.tables f))
    (fun f => (readDeltas pick pow10 (E.tables f)).toOption.getD []) ang2pix2 name (mid :: B) out
    (by
      intro f hf
      rw [List.flatMap_cons, hglob] at hf
      rcases List.mem_append.mp hf with hf | hf
      · rw [hm f hf]
        rfl
      · obtain ⟨d, hd, hfd⟩ := List.mem_flatMap.mp hf
        rw [(hE.same d hd).2 f hfd, hdb f hf]
        rfl) (m ++ b)
    (by
      rw [List.flatMap_cons, hglob, List.flatMap_append, ← hM, ← hB]
      congr 1
      · refine List.flatMap_congr fun f hf => ?_
        rw [hm f hf]
        rfl
      · refine List.flatMap_congr fun f hf => ?_
        obtain ⟨d, hd, hfd⟩ := List.mem_flatMap.mp hf
        rw [(hE.same d hd).2 f hfd, hdb f hf]
        rfl) ra dec (hcoord "RA" (by decide) ra hra) (hcoord "DEC" (by decide) dec hdec)
  have r3 := main_iff sqrt nan eps dwave D.glob (fun f => readDeltas pick pow10 (D.tables f))
    (fun f => (readDeltas pick pow10 (D.tables f)).toOption.getD []) ang2pix2 name (A ++ B) out
    (by
      intro f hf
      rw [List.flatMap_append] at hf
      rcases List.mem_append.mp hf with hf | hf
      · rw [hda f hf]
        rfl
      · rw [hdb f hf]
        rfl) (a ++ b)
    (by
      rw [List.flatMap_append, List.flatMap_append, ← hA, ← hB]
      congr 1
      · refine List.flatMap_congr fun f hf => ?_
        rw [hda f hf]
        rfl
      · refine List.flatMap_congr fun f hf => ?_
        rw [hdb f hf]
        rfl) ra dec hra hdec
  have n2 : (mid :: B).flatMap E.glob ≠ [] := by
    intro e
    rw [List.flatMap_cons] at e
    have e' := (List.append_eq_nil_iff.mp e).1
    rw [e'] at hM
    obtain ⟨d, hd⟩ := List.exists_mem_of_ne_nil _ hne
    have := (htm d.targetid).mpr (List.mem_map.mpr ⟨d, hd, rfl⟩)
    rw [← hM] at this
    simp at this
  have n3 : (A ++ B).flatMap D.glob ≠ [] := by
    intro e
    rw [List.flatMap_append] at e
    rw [(List.append_eq_nil_iff.mp e).1] at hA
    exact hne hA.symm
  refine ⟨?_, ?_⟩
  · refine (r2.1.trans ?_).trans r3.1.symm
    refine ⟨fun h => ⟨n3, fun t ht => ?_⟩, fun h => ⟨n2, fun t ht => ?_⟩⟩
    · rw [← hco t ht]
      exact h.2 t ((htt t).mpr ht)
    · rw [hco t ((htt t).mp ht)]
      exact h.2 t ((htt t).mp ht)
  · intro f g hf hg
    obtain ⟨Z2, u2, p2, q2⟩ := r2.2 f hf
    obtain ⟨Z3, u3, p3, q3⟩ := r3.2 g hg
    refine q2.trans (List.Perm.trans ?_ q3.symm)
    have eT : ((m ++ b).map Delta.targetid).dedup.Perm ((a ++ b).map Delta.targetid).dedup := by
      rw [List.perm_ext_iff_of_nodup (List.nodup_dedup _) (List.nodup_dedup _)]
      intro t
      rw [List.mem_dedup, List.mem_dedup, htt]
    refine (eT.map _).trans (List.Perm.of_eq (List.map_congr_left fun t ht => ?_))
    have ht := List.mem_dedup.mp ht
    obtain ⟨c2, w2⟩ := p2 t ((htt t).mpr ht)
    obtain ⟨c3, w3⟩ := p3 t ht
    rw [hco t ht, c3] at c2
    rw [← Except.ok.inj c2, w3] at w2
    rw [Except.ok.inj w2]

/-- **C121.** Under the same conditions, running `qsonic-coadd-deltas` again on its own output directory, with the same
pixels and this directory for the output, succeeds and writes the same HDUs into the same files. -/
theorem C121_again {pick : List String → Option String} (hp : IsPick pick) (pow10 sqrt : K → K) (nan eps : K) {dwave : K}
    (h0 : 0 < dwave) (name : HVal K → String) {D E : Disk K} {A : List String} {mid : String}
    {a : List (Delta K)} (ha : DirDeltas pick pow10 D A a) (hne : a ≠ []) (ra dec w0 : HVal K → K)
    (hra : ∀ d ∈ a, d.header.lookup "RA" = some (.num (ra d.targetid)))
    (hdec : ∀ d ∈ a, d.header.lookup "DEC" = some (.num (dec d.targetid)))
    (hgrid : ∀ d ∈ a, ∃ j, DeltaOk (w0 d.targetid) dwave j d)
    (hweight : ∀ t l d r, ofTarget t a = l ++ d :: r →
      ∀ z, coaddAll (fun a b => a.coadd sqrt nan eps dwave b) l = .ok z → ∀ p ∈ z.pix, 0 ≤ p.weight)
    (ang2pix : K → K → Nat) {files : List (String × List (Hdu K))} :
    let run := fun (F : Disk K) (dirs : List String) =>
      coaddDeltasMain F.glob (fun f => readDeltas pick pow10 (F.tables f)) (fun a b => a.coadd sqrt nan eps dwave b) ang2pix
        name dirs mid
    run D A = .ok files → NewDir D E mid files [] →
    ∃ f, run E [mid] = .ok f ∧ (contents f).Perm (contents files) := by
  intro run h1 hE
  have hb : DirDeltas pick pow10 D [] ([] : List (Delta K)) := ⟨fun _ => [], fun f hf => (by cases hf), rfl⟩
  obtain ⟨s1, s2⟩ := C121_steps hp pow10 sqrt nan eps h0 name (B := []) ha hb hne ra dec w0
    (fun d hd => hra d (by simpa using hd)) (fun d hd => hdec d (by simpa using hd)) hgrid hweight ang2pix ang2pix mid h1 hE
  rw [List.append_nil] at s1 s2
  obtain ⟨f, hf⟩ := s1.mpr ⟨files, h1⟩
  exact ⟨f, hf, s2 f files hf h1⟩

/-- **C121**: no weight is negative, when another delta is coadded to it, if all weights in the files are at most the
ivar, or no target has more than two deltas. -/
theorem C121_weights (sqrt : K → K) (nan eps : K) {dwave : K} (h0 : 0 < dwave) {a : List (Delta K)} {w0 : HVal K → K}
    (hgrid : ∀ d ∈ a, ∃ j, DeltaOk (w0 d.targetid) dwave j d)
    (h : (∀ d ∈ a, ∀ p ∈ d.pix, p.weight ≤ p.ivar) ∨ ∀ t, (ofTarget t a).length ≤ 2) :
    ∀ t l d r, ofTarget t a = l ++ d :: r →
      ∀ z, coaddAll (fun a b => a.coadd sqrt nan eps dwave b) l = .ok z → ∀ p ∈ z.pix, 0 ≤ p.weight := by
  intro t l d r e z hz
  have hmem : ∀ x ∈ l, x ∈ a ∧ x.targetid = t := fun x hx => mem_ofTarget.mp (by rw [e]; simp [hx])
  rcases h with h | h
  · cases l with
    | nil => cases hz
    | cons x l =>
      have hx : (∃ j, DeltaOk (w0 t) dwave j x) ∧ ∀ p ∈ x.pix, p.weight ≤ p.ivar := by
        obtain ⟨m1, m2⟩ := hmem x (.head _)
        exact ⟨m2 ▸ hgrid x m1, h x m1⟩
      replace hmem := fun y hy => hmem y (List.mem_cons_of_mem _ hy)
      change l.foldlM (fun a b => a.coadd sqrt nan eps dwave b) x = .ok z at hz
      clear e
      induction l generalizing x with
      | nil =>
        cases hz
        obtain ⟨⟨j, o⟩, -⟩ := hx
        exact fun p hp => (o.nonneg p hp).1
      | cons y l ih =>
        rw [List.foldlM_cons] at hz
        cases hc : x.coadd sqrt nan eps dwave y with
        | error er => rw [hc] at hz; cases hz
        | ok w =>
          rw [hc, except_bind_ok] at hz
          obtain ⟨⟨j, o⟩, le⟩ := hx
          obtain ⟨m1, m2⟩ := hmem y (.head _)
          obtain ⟨j', o'⟩ := hgrid y m1
          rw [m2] at o'
          obtain ⟨k1, k2⟩ := C67_weights_partial sqrt nan eps h0 o o' le (h y m1) hc
          exact ih w ⟨⟨_, k1⟩, fun p hp => (k2 p hp).2⟩ (fun y hy => hmem y (.tail _ hy)) hz
  · have h2 := h t
    rw [e, List.length_append, List.length_cons] at h2
    match l, hz, hmem with
    | [], hz, _ => cases hz
    | [x], hz, hmem =>
      obtain ⟨m1, -⟩ := hmem x (.head _)
      obtain ⟨j, o⟩ := hgrid x m1
      cases hz
      exact fun p hp => (o.nonneg p hp).1
    | _ :: _ :: _, _, _ => simp only [List.length_cons] at h2; omega

/-! ### A case -/

/-- The table of a delta. -/
def incHdu (t : Int) (wave delta ivar : List ℚ) : Hdu ℚ :=
  ⟨"", [("TARGETID", .int t), ("RA", .num t), ("DEC", .num 0), ("MEANSNR", .num 1)],
    [("LAMBDA", .vec wave), ("DELTA", .vec delta), ("IVAR", .vec ivar), ("WEIGHT", .vec ivar),
      ("CONT", .vec (wave.map (fun _ => 1)))]⟩

/-- Two directories: target 1 is in two files of the first and in the second, targets 2 and 3 in one. -/
def incDisk : Disk ℚ :=
  { glob := fun d => if d = "a" then ["a/delta-1.fits", "a/delta-2.fits"] else if d = "b" then ["b/delta-1.fits"] else []
    tables := fun f =>
      if f = "a/delta-1.fits" then some [incHdu 1 [10, 11] [1, 2] [1, 2], incHdu 2 [10] [5] [0]]
      else if f = "a/delta-2.fits" then some [incHdu 1 [11, 12] [5, 6] [1, 1]]
      else if f = "b/delta-1.fits" then some [incHdu 1 [10, 11] [3, 7] [3, 3], incHdu 3 [10] [7] [1]]
      else none }

/-- The run. -/
def incRun (F : Disk ℚ) (ang2pix : ℚ → ℚ → Nat) (dirs : List String) (out : String) :
    Except Err (List (String × List (Hdu ℚ))) :=
  coaddDeltasMain F.glob (fun f => readDeltas List.head? id (F.tables f)) (fun a b => a.coadd id 0 (1 / 100) 1 b) ang2pix
    (fun t => match t with | .int i => toString i | _ => "") dirs out

/-- What is in the directory after the first run, with all targets in one pixel. -/
def incFiles : List (String × List (Hdu ℚ)) := (incRun incDisk (fun _ _ => 0) ["a"] "m").toOption.getD []

/-- The disk after the first run. -/
def incDisk2 : Disk ℚ :=
  { glob := fun d => if d = "m" then incFiles.map Prod.fst else incDisk.glob d
    tables := fun f => match incFiles.lookup f with | some t => some t | none => incDisk.tables f }

/-- The deltas of some directories. -/
def incDeltas (dirs : List String) : List (Delta ℚ) :=
  (dirs.flatMap incDisk.glob).flatMap (fun f => (readDeltas List.head? id (incDisk.tables f)).toOption.getD [])

/-- The conditions of `C121_steps` and `C121_weights` hold, both ways give the files with the coadded deltas. -/
example : IsPick List.head? ∧ DirDeltas List.head? id incDisk ["a"] (incDeltas ["a"]) ∧
    DirDeltas List.head? id incDisk ["b"] (incDeltas ["b"]) ∧ incDeltas ["a"] ≠ [] ∧
    (∀ d ∈ incDeltas ["a"] ++ incDeltas ["b"], d.header.lookup "RA" =
      some (.num ((fun t : HVal ℚ => match t with | .int i => (i : ℚ) | _ => 0) d.targetid)) ∧
      d.header.lookup "DEC" = some (.num 0)) ∧
    (∀ d ∈ incDeltas ["a"], (∃ j, DeltaOk 10 1 j d) ∧ ∀ p ∈ d.pix, p.weight ≤ p.ivar) ∧
    incRun incDisk (fun _ _ => 0) ["a"] "m" = .ok incFiles ∧ NewDir incDisk incDisk2 "m" incFiles ["b"] ∧
    (incRun incDisk2 (fun r _ => r.num.toNat) ["m", "b"] "o").toOption.map (fun fs => (contents fs).map
      (fun x => (x.1, x.2.extname, (vecCol x.2 "DELTA").toOption.getD [], (vecCol x.2 "IVAR").toOption.getD []))) =
      some [("o/delta-1.fits", "1", [5 / 2, 5, 6], [4, 6, 1]), ("o/delta-2.fits", "2", [0], [0]),
        ("o/delta-3.fits", "3", [7], [1])] := by
  have hl : incDeltas ["a"] = [
      ⟨(incHdu 1 [] [] []).header, .int 1, .num 1, [10, 11], false, [1, 2], [1, 2], [1, 2], [1, 1], none⟩,
      ⟨(incHdu 2 [] [] []).header, .int 2, .num 1, [10], false, [0], [0], [0], [1], none⟩,
      ⟨(incHdu 1 [] [] []).header, .int 1, .num 1, [11, 12], false, [5, 6], [1, 1], [1, 1], [1, 1], none⟩] := by
    decide +kernel
  refine ⟨⟨fun h => List.mem_of_mem_head? (by rw [h]; rfl), fun {l} h => ?_⟩,
    ⟨fun f => (readDeltas List.head? id (incDisk.tables f)).toOption.getD [], by decide +kernel, rfl⟩,
    ⟨fun f => (readDeltas List.head? id (incDisk.tables f)).toOption.getD [], by decide +kernel, rfl⟩,
    by rw [hl]; simp, by decide +kernel, ?_, by decide +kernel, ⟨?_, ?_, ?_⟩, by decide +kernel⟩
  · cases l with
    | nil => exact absurd rfl h
    | cons a l => exact ⟨a, rfl⟩
  · have og : ∀ (n : Nat) (l : List ℚ), (∀ i : Nat, i < l.length → l[i]? = some (10 + ((n + i : Nat) : ℚ) * 1)) →
        OnGridFrom 10 1 n l := by
      intro n l h i w hw
      rw [h i (List.getElem?_eq_some_iff.mp hw).1] at hw
      rw [← Option.some.inj hw, sub_self, abs_zero]
      norm_num
    rw [hl]
    intro d hd
    simp only [List.mem_cons, List.not_mem_nil, or_false] at hd
    rcases hd with rfl | rfl | rfl
    · exact ⟨⟨0, by simp, by decide +kernel, og 0 _ (by decide +kernel), rfl, rfl, rfl, rfl, by decide +kernel⟩,
        by decide +kernel⟩
    · exact ⟨⟨0, by simp, by decide +kernel, og 0 _ (by decide +kernel), rfl, rfl, rfl, rfl, by decide +kernel⟩,
        by decide +kernel⟩
    · exact ⟨⟨1, by simp, by decide +kernel, og 1 _ (by decide +kernel), rfl, rfl, rfl, rfl, by decide +kernel⟩,
        by decide +kernel⟩
  · exact List.Perm.refl _
  · decide +kernel
  · decide +kernel

/-! ### A directory that is not new -/

/-- The files of a second run on the same input to the same directory, with pixels of another size. -/
def incFiles2 : List (String × List (Hdu ℚ)) := (incRun incDisk (fun r _ => r.num.toNat) ["a"] "m").toOption.getD []

/-- The disk after both runs: the script deletes nothing, only a file of the same name is replaced. -/
def incDisk3 : Disk ℚ :=
  { glob := fun d => if d = "m" then (incFiles ++ incFiles2).map Prod.fst else incDisk.glob d
    tables := fun f => match (incFiles ++ incFiles2).lookup f with | some t => some t | none => incDisk.tables f }

/-- **C121**: the output directory must be new. Two runs on the same input with pixels of different size write to the same
directory, which has the files of both afterwards, as none has the same name. Coadding that directory, which should change nothing, counts the deltas
twice: the inverse variance of target 1 is doubled. -/
theorem C121_stale_refuted : ∃ (D E : Disk ℚ) (p q : ℚ → ℚ → Nat) (f g h : List (String × List (Hdu ℚ))),
    incRun D p ["a"] "m" = .ok f ∧ incRun D q ["a"] "m" = .ok g ∧ ((f ++ g).map Prod.fst).Nodup ∧
    E.glob "m" = (f ++ g).map Prod.fst ∧ (∀ x ∈ f ++ g, E.tables x.1 = some x.2) ∧
    incRun E q ["m"] "m" = .ok h ∧ ¬ (contents h).Perm (contents g) ∧
    ∃ x ∈ contents g, ∃ y ∈ contents h, x.1 = y.1 ∧ x.2.extname = y.2.extname ∧
      vecCol x.2 "IVAR" = .ok [1, 3, 1] ∧ vecCol y.2 "IVAR" = .ok [2, 6, 2] := by
  refine ⟨incDisk, incDisk3, fun _ _ => 0, fun r _ => r.num.toNat, incFiles, incFiles2,
    (incRun incDisk3 (fun r _ => r.num.toNat) ["m"] "m").toOption.getD [], by decide +kernel, by decide +kernel,
    by decide +kernel, rfl, by decide +kernel, by decide +kernel, ?_, by decide +kernel⟩
  intro hc
  have : ∀ x ∈ contents ((incRun incDisk3 (fun r _ => r.num.toNat) ["m"] "m").toOption.getD []), x ∈ contents incFiles2 :=
    fun x hx => hc.mem_iff.mp hx
  revert this
  decide +kernel

end Verif.Props
