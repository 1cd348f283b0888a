import Verif.Proofs.CalibStack
import Verif.Proofs.ExceptList
import Mathlib.Data.Rat.Floor

/-!
# Calibration: files, selection and stack (C60, C61, C62)
-/

namespace Verif.Props
open Verif.Model Verif.Model.Prog Verif.Np Verif.Spec Verif.Proofs

/-! ### C60 -/

/-- What every rank reads, with any number of files and ranks: the parts of the ranks put together are the files
without the last `length % size` (or all of them if there are more ranks than files). -/
theorem C60_files_read {V W D : Type} (c : Codec (Option (List String)) V) (called : W) (n : Nat)
    (glob : Nat → Except Err (List String)) (files : List String) (hglob : glob 0 = .ok files)
    (read : String → Except Err (List D)) (data : String → List D) (hread : ∀ f ∈ files, read f = .ok (data f)) :
    ∃ part : Nat → List String,
      (List.range (n + 1)).flatMap part =
        (if files.length < n + 1 then files else files.take (files.length - files.length % (n + 1))) ∧
      (runJob n (fun r => readAllDeltas c called (glob r) read r (n + 1))).1 =
        .done ((List.range (n + 1)).map (fun r => .ok ((part r).map data))) := by
  refine ⟨fun r => filesThisRank files r (n + 1), ?_, ?_⟩
  · rw [flatMap_files]
    split
    · next h => rw [Nat.div_eq_of_lt h, Nat.max_eq_left (Nat.zero_le 1), Nat.one_mul, List.take_of_length_le h.le]
    · next h =>
      have h1 : 1 ≤ files.length / (n + 1) := (Nat.one_le_div_iff (Nat.succ_pos n)).mpr (by omega)
      rw [Nat.max_eq_right h1]
      congr 1
      have := Nat.div_add_mod' files.length (n + 1)
      omega
  · have h1 := sync_fncBcast (W := W) n c called glob hglob
    have h2 := h1.bind (f := fun r fs => (ofExcept ((filesThisRank fs r (n + 1)).mapM read) : Prog V W _))
      (sync_ofExcept n (fun r => (filesThisRank files r (n + 1)).mapM read))
    have h3 := h2.job
    unfold readAllDeltas
    rw [h3]
    dsimp only
    congr 1
    refine List.map_congr_left fun r _ => ?_
    refine mapM_eq_ok fun f hf => hread f ?_
    unfold filesThisRank at hf
    exact List.mem_of_mem_drop (List.mem_of_mem_take hf)

/-- **C60**, the part that holds (`mpi_read_all_deltas`, scripts/qsonic_calib.py:148-173). Full claim: every file is read
by exactly one rank. Proved if the number of ranks divides the number of files, or there are more ranks than files.
Missing: otherwise the last files are read by no rank (`C60_files_read`, `C60_refuted`). -/
theorem C60_partial {V W D : Type} (c : Codec (Option (List String)) V) (called : W) (n : Nat)
    (glob : Nat → Except Err (List String)) (files : List String) (hglob : glob 0 = .ok files)
    (hdiv : files.length < n + 1 ∨ (n + 1) ∣ files.length)
    (read : String → Except Err (List D)) (data : String → List D) (hread : ∀ f ∈ files, read f = .ok (data f)) :
    ∃ part : Nat → List String, (List.range (n + 1)).flatMap part = files ∧
      (runJob n (fun r => readAllDeltas c called (glob r) read r (n + 1))).1 =
        .done ((List.range (n + 1)).map (fun r => .ok ((part r).map data))) := by
  obtain ⟨part, h1, h2⟩ := C60_files_read c called n glob files hglob read data hread
  refine ⟨part, ?_, h2⟩
  rw [h1]
  split
  · rfl
  · next h =>
    have hd := hdiv.resolve_left h
    rw [Nat.mod_eq_zero_of_dvd hd, Nat.sub_zero, List.take_length]

/-- Six files on three ranks; three files on five ranks. -/
example : ["a", "b", "c", "d", "e", "f"].length < 2 + 1 ∨ (2 + 1) ∣ ["a", "b", "c", "d", "e", "f"].length := by decide
example : ["a", "b", "c"].length < 4 + 1 ∨ (4 + 1) ∣ ["a", "b", "c"].length := by decide

/-- **C60** is false: with five files on two ranks no rank reads the last file. -/
theorem C60_refuted : ∃ (n : Nat) (files : List String) (f : String), f ∈ files ∧
    ∀ (V W D : Type) (c : Codec (Option (List String)) V) (called : W) (data : String → List D)
      (res : List (Except Err (List (List D)))),
      (runJob n (fun r => readAllDeltas c called (.ok files) (fun g => .ok (data g)) r (n + 1))).1 = .done res →
      res = [.ok [data "a", data "b"], .ok [data "c", data "d"]] ∧ f ∉ ["a", "b", "c", "d"] := by
  refine ⟨1, ["a", "b", "c", "d", "e"], "e", by decide, ?_⟩
  intro V W D c called data res h
  refine ⟨?_, by decide⟩
  have h1 := sync_fncBcast (W := W) 1 c called (fun _ => .ok ["a", "b", "c", "d", "e"]) rfl
  have h2 := h1.bind (f := fun r fs => (ofExcept ((filesThisRank fs r 2).mapM
      (fun g => (.ok (data g) : Except Err (List D)))) : Prog V W _))
    (sync_ofExcept 1 (fun r => (filesThisRank ["a", "b", "c", "d", "e"] r 2).mapM
      (fun g => (.ok (data g) : Except Err (List D)))))
  have h3 := congrArg Prod.fst h2.job
  have h4 := h.symm.trans h3
  exact Outcome.done.inj h4

/-- If the files cannot be listed all ranks end with the exception of the package. -/
theorem C60_glob_error {V W D : Type} (c : Codec (Option (List String)) V) (called : W) (n : Nat)
    (glob : Nat → Except Err (List String)) {e : Err} (hglob : glob 0 = .error e) (he : e.isException = true)
    (read : String → Except Err (List D)) :
    (runJob n (fun r => readAllDeltas c called (glob r) read r (n + 1))).1 =
      .done ((List.range (n + 1)).map (fun _ => .error .qsonic)) := by
  have h1 := sync_fncBcast_error (W := W) n c called glob hglob he
  have h2 := h1.bind_error (f := fun r fs => (ofExcept ((filesThisRank fs r (n + 1)).mapM read) : Prog V W _))
  unfold readAllDeltas
  rw [h2.job]

example : Err.osError.isException = true := rfl

/-! ### C62 -/

/-- A row with BAL: in some of its troughs of CIV, of either definition, both velocities are positive. -/
def HasBal {K : Type} [Zero K] [LT K] (r : CalRow K) : Prop :=
  (∃ v ∈ r.vminCiv450.zip r.vmaxCiv450, 0 < v.1 ∧ 0 < v.2) ∨ (∃ v ∈ r.vminCiv2000.zip r.vmaxCiv2000, 0 < v.1 ∧ 0 < v.2)

theorem anyPositive_iff {K : Type} [Zero K] [LT K] [DecidableLT K] (a b : List K) :
    anyPositive a b = true ↔ ∃ v ∈ a.zip b, 0 < v.1 ∧ 0 < v.2 := by
  unfold anyPositive
  rw [← List.map_uncurry_zip_eq_zipWith]
  simp only [List.any_map, List.any_eq_true, Function.comp_apply, id, Function.uncurry, Bool.and_eq_true,
    decide_eq_true_eq]

theorem isBal_iff {K : Type} [Zero K] [LT K] [DecidableLT K] (r : CalRow K) : isBal r = true ↔ HasBal r := by
  unfold isBal HasBal
  rw [Bool.or_eq_true, anyPositive_iff, anyPositive_iff]

/-- **C62** (scripts/qsonic_calib.py:88-145, 218-227). With a catalog, exactly these deltas are used: not listed for removal, no BAL row of the target if BALs are to be
removed, no row of the target in another survey if surveys are given, and signal to noise in the range. They are
used once each and in order. -/
theorem C62_kept {K : Type} [Zero K] [LT K] [DecidableLT K] (listed : List Int) (rows : List (CalRow K))
    (removeBal : Bool) (keepSurveys : List String) (minSnr maxSnr : K) (lists : List (List (CalDelta K))) :
    (keptDeltas (idsToRemove listed (some rows) removeBal keepSurveys) minSnr maxSnr lists).Sublist lists.flatten ∧
    (∀ d, (keptDeltas (idsToRemove listed (some rows) removeBal keepSurveys) minSnr maxSnr lists).countP
        (fun x => decide (x.targetid = d)) =
      lists.flatten.countP (fun x => decide (x.targetid = d ∧ minSnr < x.meanSnr ∧ x.meanSnr < maxSnr)) ∨
      (keptDeltas (idsToRemove listed (some rows) removeBal keepSurveys) minSnr maxSnr lists).countP
        (fun x => decide (x.targetid = d)) = 0) ∧
    ∀ d, d ∈ keptDeltas (idsToRemove listed (some rows) removeBal keepSurveys) minSnr maxSnr lists ↔
      (∃ l ∈ lists, d ∈ l) ∧ d.targetid ∉ listed ∧
      (removeBal = true → ∀ r ∈ rows, r.targetid = d.targetid → ¬ HasBal r) ∧
      (keepSurveys ≠ [] → ∀ r ∈ rows, r.targetid = d.targetid → r.survey ∈ keepSurveys) ∧
      minSnr < d.meanSnr ∧ d.meanSnr < maxSnr := by
  have hmem : ∀ t, t ∉ idsToRemove listed (some rows) removeBal keepSurveys ↔ t ∉ listed ∧
      (removeBal = true → ∀ r ∈ rows, r.targetid = t → ¬ HasBal r) ∧
      (keepSurveys ≠ [] → ∀ r ∈ rows, r.targetid = t → r.survey ∈ keepSurveys) := by
    intro t
    unfold idsToRemove
    dsimp only
    rw [List.mem_append, List.mem_append, not_or, not_or, and_assoc]
    refine and_congr Iff.rfl (and_congr ?_ ?_)
    · cases removeBal
      · simp
      · simp only [if_true, List.mem_map, List.mem_filter, isBal_iff, not_exists, not_and, forall_const]
        exact ⟨fun h r hr ht hb => h r ⟨hr, hb⟩ ht, fun h r hr ht => h r hr.1 ht hr.2⟩
    · cases keepSurveys with
      | nil => simp
      | cons s ss =>
        simp only [List.isEmpty_cons, Bool.false_eq_true, if_false, List.mem_map, List.mem_filter, not_exists,
          not_and, ne_eq, reduceCtorEq, not_false_eq_true, forall_const, Bool.not_eq_true', decide_eq_false_iff_not]
        exact ⟨fun h r hr ht => by_contra fun hs => h r ⟨hr, hs⟩ ht, fun h r hr ht => hr.2 (h r hr.1 ht)⟩
  refine ⟨List.filter_sublist, fun t => ?_, fun d => ?_⟩
  · unfold keptDeltas
    rw [List.countP_filter]
    by_cases ht : t ∈ idsToRemove listed (some rows) removeBal keepSurveys
    · right
      rw [List.countP_eq_zero]
      intro x _ h
      simp only [isKept, Bool.and_eq_true, decide_eq_true_eq] at h
      exact h.2.1.1 (h.1 ▸ ht)
    · left
      refine List.countP_congr fun x _ => ?_
      simp only [isKept, Bool.and_eq_true, decide_eq_true_eq]
      constructor
      · rintro ⟨h1, ⟨-, h2⟩, h3⟩
        exact ⟨h1, h2, h3⟩
      · rintro ⟨h1, h2, h3⟩
        exact ⟨h1, ⟨h1 ▸ ht, h2⟩, h3⟩
  · unfold keptDeltas
    rw [List.mem_filter, List.mem_flatten]
    simp only [isKept, Bool.and_eq_true, decide_eq_true_eq, hmem]
    tauto

/-- Without a catalog only the listed targets are removed: BALs and surveys have no effect. -/
theorem C62_without_catalog {K : Type} [Zero K] [LT K] [DecidableLT K] (listed : List Int) (removeBal : Bool)
    (keepSurveys : List String) (minSnr maxSnr : K) (lists : List (List (CalDelta K))) (d : CalDelta K) :
    d ∈ keptDeltas (idsToRemove listed (none : Option (List (CalRow K))) removeBal keepSurveys) minSnr maxSnr lists ↔
      (∃ l ∈ lists, d ∈ l) ∧ d.targetid ∉ listed ∧ minSnr < d.meanSnr ∧ d.meanSnr < maxSnr := by
  unfold keptDeltas idsToRemove
  rw [List.mem_filter, List.mem_flatten]
  simp only [isKept, Bool.and_eq_true, decide_eq_true_eq]
  tauto

/-- Target 1 is listed, 2 has a BAL, 3 is of another survey, 4 is noisy, 5 stays. -/
example :
    let d (t : Int) (s : ℚ) : CalDelta ℚ := ⟨t, s, 1, [], [], [], []⟩
    let rows : List (CalRow ℚ) := [⟨2, "main", [0, 3], [0, 4], [], []⟩, ⟨3, "sv1", [], [], [], []⟩,
      ⟨5, "main", [0], [7], [-1], [2]⟩]
    (keptDeltas (idsToRemove [1] (some rows) true ["main"]) 1 100 [[d 1 5, d 2 5], [d 3 5, d 4 1, d 5 5]]).map
      CalDelta.targetid = [5] := by decide +kernel

/-! ### C61 -/

variable {K : Type} [Field K] [LinearOrder K] [FloorRing K] [IsStrictOrderedRing K]

/-- **C61**, the part that holds (`mpi_stack_fluxes`, scripts/qsonic_calib.py:176-203). Full claim: every pixel of the stack
is the weighted mean of `1 + delta` over all deltas. Proved if every rank has deltas, all on grids of spacing `dw` that
are nowhere halfway between the pixels of the stack, and the range of wavelengths is a whole number of pixels: every rank gets the wavelengths `w1 + j dw` and at each the weighted mean of `1 + delta` of the nearest pixels
of all deltas of all ranks. Missing: false without these hypotheses (`C61_refuted`, `C61_no_deltas`). -/
theorem C61_partial {V W : Type} (c : Codec (List K) V) (w1 w2 dw : K) (hd : 0 < dw) (m : Nat)
    (hm : w2 - w1 = ((m + 1 : Nat) : K) * dw) (n : Nat)
    (deltas : Nat → List (CalDelta K)) (hne : ∀ r ≤ n, deltas r ≠ []) (hdw : ∀ r ≤ n, ∀ d ∈ deltas r, d.dwave = dw)
    (hg : ∀ r ≤ n, ∀ d ∈ deltas r, OnGrid w1 dw d) :
    ∃ flux : List K,
      (runJob n (fun r => (stackFluxes c w1 w2 (deltas r) : Prog V W _))).1 =
        .done ((List.range (n + 1)).map (fun _ =>
          .ok ((List.range (m + 2)).map (fun j : Nat => w1 + (j : K) * dw), flux))) ∧
      flux = (List.range (m + 2)).map (fun j =>
        weightedFlux (pixelsAt w1 dw j ((List.range (n + 1)).flatMap deltas))) := by
  obtain ⟨flux, h1, h2, h3⟩ := sync_stackFluxes (W := W) c (w2 := w2) hd n deltas hne hdw hg
  have hN : numWave w1 w2 dw = m + 2 := by
    unfold numWave
    rw [hm, mul_div_assoc, div_self hd.ne', mul_one]
    have : truncInt (((m + 1 : Nat) : K)) = ((m + 1 : Nat) : Int) := by
      unfold truncInt
      simp
    rw [this]
    omega
  rw [hN] at h1 h2 h3
  refine ⟨flux, ?_, ?_⟩
  · rw [h1.job]
    dsimp only
    congr 1
    refine List.map_congr_left fun r _ => ?_
    congr 2
    unfold linspace
    refine List.map_congr_left fun j _ => ?_
    have hm0 : ((m + 1 : Nat) : K) ≠ 0 := by exact_mod_cast Nat.succ_ne_zero m
    rw [hm, show m + 2 - 1 = m + 1 from rfl, mul_div_cancel_left₀ _ hm0]
  · refine List.ext_getElem (by simp [h2]) fun j a b => ?_
    have := h3 j (by omega)
    simpa [List.getD_eq_getElem?_getD, a] using this

/-- Two ranks with one delta each; pixel 1 has a pixel of both. -/
example :
    let d0 : CalDelta ℚ := ⟨1, 1, 2, [9, 11], [1, 3], [1, 1], [1, 1]⟩
    let d1 : CalDelta ℚ := ⟨2, 1, 2, [11, 13], [5, 7], [1, 1], [3, 1]⟩
    let deltas : Nat → List (CalDelta ℚ) := fun r => if r = 0 then [d0] else [d1]
    (0 : ℚ) < 2 ∧ (49 / 4 - 33 / 4 : ℚ) = ((1 + 1 : Nat) : ℚ) * 2 ∧ (∀ r ≤ 1, deltas r ≠ []) ∧
    (∀ r ≤ 1, ∀ d ∈ deltas r, d.dwave = 2) ∧ (∀ r ≤ 1, ∀ d ∈ deltas r, OnGrid (33 / 4 : ℚ) 2 d) ∧
    weightedFlux (pixelsAt (33 / 4 : ℚ) 2 1 ((List.range 2).flatMap deltas)) = (1 + (3 * 1 + 5 * 3) / 4 : ℚ) := by
  have tie : ∀ (a b : ℤ) (k : ℤ), ((a : ℚ) + 3 / 8) ≠ k + 1 / 2 := by
    intro a _ k h
    have h2 : (8 * a + 3 : ℚ) = 8 * k + 4 := by linarith
    have h3 : 8 * a + 3 = 8 * k + 4 := by exact_mod_cast h2
    omega
  refine ⟨by decide +kernel, by decide +kernel, ?_, ?_, ?_, by decide +kernel⟩
  · intro r _; by_cases h : r = 0 <;> simp [h]
  · intro r _ d hd; by_cases h : r = 0 <;> simp [h] at hd <;> rw [hd]
  · intro r _ d hd
    by_cases h : r = 0 <;> simp [h] at hd <;> rw [hd]
    · exact ⟨3 / 8, 2, fun k => by simpa using tie 0 0 k, by decide +kernel⟩
    · exact ⟨11 / 8, 2, fun k => by have := tie 1 0 k; norm_num at this ⊢; exact this, by decide +kernel⟩

/-- **C61** in general is false, in two ways. Pixels halfway between two pixels of the stack are rounded to the
even one, and of two pixels of one delta with the same index only the last is added: the first pixel of this delta
contributes nowhere. If the range is not a whole number of pixels, the wavelengths given are not those of the
stack: here the pixel at 2 is given at 5/2. -/
theorem C61_refuted :
    (let d : CalDelta ℚ := ⟨1, 1, 1, [3 / 2, 5 / 2], [1, 3], [1, 1], [1, 1]⟩
     (runJob 0 (fun _ => (stackFluxes (Codec.refl _) 0 4 [d] : Prog (List ℚ) Unit _))).1 =
       .done [.ok ([0, 1, 2, 3, 4], [0, 0, 4, 0, 0])]) ∧
    (let d : CalDelta ℚ := ⟨1, 1, 1, [0, 1, 2], [1, 3, 5], [1, 1, 1], [1, 1, 1]⟩
     (runJob 0 (fun _ => (stackFluxes (Codec.refl _) 0 (5 / 2) [d] : Prog (List ℚ) Unit _))).1 =
       .done [.ok ([0, 5 / 4, 5 / 2], [2, 4, 6])]) := by
  have key : ∀ (w2 : ℚ) (d : CalDelta ℚ) (a : List ℚ × List ℚ),
      (linspace 0 w2 (numWave 0 w2 d.dwave), stackRatio
        (vecSum (numWave 0 w2 d.dwave) [(stackOne 0 d.dwave (numWave 0 w2 d.dwave)
          (List.replicate (numWave 0 w2 d.dwave) 0, List.replicate (numWave 0 w2 d.dwave) 0) d).1])
        (vecSum (numWave 0 w2 d.dwave) [(stackOne 0 d.dwave (numWave 0 w2 d.dwave)
          (List.replicate (numWave 0 w2 d.dwave) 0, List.replicate (numWave 0 w2 d.dwave) 0) d).2])) = a →
      (runJob 0 (fun _ => (stackFluxes (Codec.refl _) 0 w2 [d] : Prog (List ℚ) Unit _))).1 = .done [.ok a] := by
    rintro w2 d a rfl
    have h : Sync 0 (fun _ => (stackFluxes (Codec.refl _) 0 w2 [d] : Prog (List ℚ) Unit _)) (fun _ => .ok _)
        (fun _ => []) :=
      sync_allreduce (fun _ => _) (fun _ => _) (sync_allreduce (fun _ => _) (fun _ => _) (sync_ret 0 (fun _ => _)))
    rw [h.job]
    rfl
  exact ⟨key _ _ _ (by decide +kernel), key _ _ _ (by decide +kernel)⟩

/-- On a rank without deltas it fails. -/
theorem C61_no_deltas {V W : Type} (c : Codec (List K) V) (w1 w2 : K) :
    (stackFluxes c w1 w2 [] : Prog V W _) = .raise .indexError := rfl

end Verif.Props
