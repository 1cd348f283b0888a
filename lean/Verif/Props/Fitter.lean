import Verif.Proofs.Fitter

/-!
# The continuum fitter over all ranks: C54, C55, C57
-/

namespace Verif.Props
open Verif.Model Verif.Model.Prog Verif.Spec Verif.Proofs

variable {G Sp R Q D V W : Type}

/-- A small fitter for the examples: a spectrum is a number, valid if positive; the functions are a number that the
update lowers by the number of valid spectra over all ranks, converged when it is at most 3. -/
def demo : FitterFns Nat Nat Nat Nat Nat where
  fitOne := fun _ s => s
  valid := fun s => decide (0 < s)
  stack := fun _ l => l.length
  addR := List.sum
  meanUpd := fun g r => (g - r, decide (g - r ≤ 3))
  varAcc := fun _ _ l => l.sum
  addQ := List.sum
  varUpd := fun g _ => g
  newVar := id
  normalize := fun _ s => s + 1
  etaCalib := fun _ s => s
  dataCont := id
  dataFlux := id
  dataFluxRf := id
  dataVar := id
  dataStats := id

/-- Serialisation for the examples. -/
def demoCodecs : FitterCodecs Nat Nat Nat := ⟨.refl _, .refl _, .refl _⟩

/-- **C55** (`PiccaContinuumFitter.fit_continua`, 284-319). On any number of ranks (`n + 1`), with any spectra on each
and any functions: all ranks end together; if no fitted spectrum of any rank is valid every rank raises
`QsonicException`, otherwise none does and each gets its fitted spectra and the numbers of valid and of invalid fits
of all ranks. -/
theorem C55_fit_continua (F : FitterFns G Sp R Q D) (c : FitterCodecs R Q V) (n : Nat) (g : Nat → G)
    (specs fitted : Nat → List Sp) (hf : ∀ r, fitted r = (specs r).map (F.fitOne (g r))) :
    runJob n (fun r => (F.fitContinua c (g r) (specs r) : Prog V W (List Sp × Nat × Nat))) =
      (.done ((List.range (n + 1)).map (fun r =>
        if ∀ q ≤ n, ∀ s ∈ fitted q, F.valid s = false then .error .qsonic
        else .ok (fitted r, ((List.range (n + 1)).flatMap fitted).countP (fun s => F.valid s),
          ((List.range (n + 1)).flatMap fitted).countP (fun s => !F.valid s)))),
       (List.range (n + 1)).map (fun _ => [])) := by
  obtain rfl : fitted = fun r => (specs r).map (F.fitOne (g r)) := funext hf
  rw [(sync_fitContinua (F := F) (c := c) n g specs).job]
  congr 2
  refine List.map_congr_left fun r _ => ?_
  refine if_congr ?_ rfl rfl
  rw [someValid_iff]
  unfold SomeValid
  push Not
  simp only [Bool.not_eq_true, ne_eq]

-- two ranks, one valid of three: both succeed, and know of all
example : runJob 1 (fun r => (demo.fitContinua demoCodecs 9 (if r = 0 then [0] else [0, 4]) :
    Prog Nat Unit _)) = (.done [.ok ([0], 1, 2), .ok ([0, 4], 1, 2)], [[], []]) := by decide +kernel
-- none valid: both raise
example : runJob 1 (fun r => (demo.fitContinua demoCodecs 9 (if r = 0 then [0] else [0, 0]) :
    Prog Nat Unit _)) = (.done [.error .qsonic, .error .qsonic], [[], []]) := by decide +kernel

/-- **C54** (`PiccaContinuumFitter.iterate`, 522-582). Let `g`, `sp`, `conv` be the iterations over all ranks
(`Iterations`), each up to the first that converges with some valid spectrum on some rank. With at least one iteration allowed there is a number `k`
of iterations, at least one and at most the allowed number, none before the `k`-th converged and the `k`-th did unless
`k` is the allowed number, such that
* all ranks end together without an exception, after `k` iterations, with the same functions and the same verdict on
  the convergence, and with the spectra of iteration `k`, normalised;
* rank 0 creates the attributes file, writes the extensions `exts` and closes it; no other rank, and none without a
  file name, touches a file;
* the extensions have distinct names, and contain for each iteration the functions that it used, and the final ones. -/
theorem C54_iterate (F : FitterFns G Sp R Q D) (c : FitterCodecs R Q V) (n : Nat) (hasFitter : Bool) (g : Nat → G)
    (sp : Nat → Nat → List Sp) (conv : Nat → Bool) (h : Iterations F n hasFitter g sp conv) (fname : String)
    (niter : Nat) (hpos : 0 < niter)
    (hv : ∀ i < niter, (∀ j, 0 < j → j ≤ i → conv j = false) → SomeValid F n (sp (i + 1))) :
    ∃ (k : Nat) (gfin : G) (final : Nat → List Sp) (exts : List (String × D)),
      0 < k ∧ k ≤ niter ∧ (∀ j, 0 < j → j < k → conv j = false) ∧ (k = niter ∨ conv k = true) ∧
      (hasFitter = true → gfin = g k) ∧
      (∀ r, final r = (sp k r).map
        (fun s => F.etaCalib (g k) (if F.valid s = true then F.normalize (g k) s else s))) ∧
      runJob n (fun r => F.iterate c fname niter hasFitter r (g 0) (sp 0 r)) =
        (.done ((List.range (n + 1)).map (fun r => .ok (gfin, final r, k, conv k))),
         (List.range (n + 1)).map (fun r =>
          if r = 0 ∧ fname ≠ "" then [.create fname] ++ exts.map (.write fname) ++ [.close fname] else [])) ∧
      (exts.map Prod.fst).Nodup ∧
      (∀ i < k, ("CONT-" ++ Nat.repr (i + 1), F.dataCont (g i)) ∈ exts ∧
        ("STACKED_FLUX-" ++ Nat.repr (i + 1), F.dataFlux (g i)) ∈ exts ∧
        ("STACKED_FLUX_RF-" ++ Nat.repr (i + 1), F.dataFluxRf (g i)) ∈ exts ∧
        (hasFitter = true → ("VAR_FUNC-" ++ Nat.repr (i + 1), F.dataVar (g i)) ∈ exts)) ∧
      ("CONT", F.dataCont (g k)) ∈ exts ∧ ("STACKED_FLUX", F.dataFlux (g k)) ∈ exts ∧
      ("STACKED_FLUX_RF", F.dataFluxRf (g k)) ∈ exts ∧
      (hasFitter = true → ("VAR_FUNC", F.dataVar (g k)) ∈ exts) ∧
      (hasFitter = false → ("VAR_FUNC-fit", F.dataVar gfin) ∈ exts) ∧
      ("VAR_STATS", F.dataStats gfin) ∈ exts := by
  obtain ⟨k, hk, h1, h2, h3, h4⟩ := sync_iterate (c := c) h fname niter hv
  have hk0 : k ≠ 0 := by have := h1 hpos; omega
  refine ⟨k, finalG F n hasFitter (g k) (fun r => F.tweak (g k) (sp k r)), fun r => F.tweak (g k) (sp k r),
    allExts F hasFitter g k (finalG F n hasFitter (g k) (fun r => F.tweak (g k) (sp k r))), h1 hpos, hk, h2, h3,
    ?_, ?_, ?_, nodup_names _ _ _ _, ?_, ?_⟩
  · rintro rfl; rfl
  · intro r
    change (List.map _ (List.map _ (sp k r))) = _
    rw [List.map_map]
    rfl
  · rw [h4.job]
    congr 1
    · simp only [if_neg hk0]
    · refine List.map_congr_left fun r _ => ?_
      split
      · next hr => rw [hr.1]; exact session_root fname hr.2 _
      · next hr =>
        refine session_none fname r ?_ _
        by_cases h0 : r = 0
        · right
          by_contra h'
          exact hr ⟨h0, h'⟩
        · exact .inl h0
  · intro i hi
    have key := (mem_allExts (F := F) hasFitter g k
      (finalG F n hasFitter (g k) (fun r => F.tweak (g k) (sp k r)))).1 i hi
    have e : ∀ b d : String, d = b ++ "-" → d ++ Nat.repr (i + 1) = b ++ FitterFns.suffix i := by
      intro b d hd
      unfold FitterFns.suffix
      rw [hd, String.append_assoc]
    rw [e "CONT" "CONT-" (by decide), e "STACKED_FLUX" "STACKED_FLUX-" (by decide),
      e "STACKED_FLUX_RF" "STACKED_FLUX_RF-" (by decide), e "VAR_FUNC" "VAR_FUNC-" (by decide)]
    obtain ⟨m1, m2, m3, m4⟩ := mem_saveExts (F := F) hasFitter (FitterFns.suffix i) (g i)
    exact ⟨key _ m1, key _ m2, key _ m3, fun hf => key _ (m4 hf)⟩
  · obtain ⟨-, a1, a2, a3⟩ := mem_allExts (F := F) hasFitter g k
      (finalG F n hasFitter (g k) (fun r => F.tweak (g k) (sp k r)))
    obtain ⟨m1, m2, m3, m4⟩ := mem_saveExts (F := F) hasFitter "" (g k)
    obtain ⟨-, -, -, b4⟩ := mem_saveExts (F := F) true "-fit"
      (finalG F n hasFitter (g k) (fun r => F.tweak (g k) (sp k r)))
    rw [String.append_empty] at m1 m2 m3 m4
    rw [show "VAR_FUNC" ++ "-fit" = "VAR_FUNC-fit" by decide] at b4
    exact ⟨a1 _ m1, a1 _ m2, a1 _ m3, fun hf => a1 _ (m4 hf), fun hf => a2 hf _ (b4 rfl), a3⟩

/-- **C54**, failure: if in the iteration `j + 1` no spectrum of any rank is valid any more, every rank raises
`QsonicException` there; rank 0 leaves the file open with what was saved up to this iteration. -/
theorem C54_failure (F : FitterFns G Sp R Q D) (c : FitterCodecs R Q V) (n : Nat) (hasFitter : Bool) (g : Nat → G)
    (sp : Nat → Nat → List Sp) (conv : Nat → Bool) (h : Iterations F n hasFitter g sp conv) (fname : String)
    (niter j : Nat) (hj : j < niter) (hv : ∀ i < j, SomeValid F n (sp (i + 1)))
    (hc : ∀ i < j, conv (i + 1) = false) (hbad : ¬ SomeValid F n (sp (j + 1))) :
    ∃ logs : Nat → List (SaverEv (String × D)),
      runJob n (fun r => F.iterate c fname niter hasFitter r (g 0) (sp 0 r)) =
        (.done ((List.range (n + 1)).map (fun _ => .error .qsonic)), (List.range (n + 1)).map logs) ∧
      (∀ r, 0 < r → logs r = []) := by
  refine ⟨_, (sync_iterate_fail (c := c) h fname niter j hj hv hc hbad).job, fun r hr => ?_⟩
  have : Saver.init (D := String × D) fname r = ([], ⟨none⟩) := by
    unfold Saver.init
    rw [if_neg]
    exact fun h' => by omega
  rw [this]
  generalize savedFrom F hasFitter g 0 (j + 1) = l
  induction l with
  | nil => rfl
  | cons a l ih => exact ih

/-- The iterations of the example: two ranks with three valid spectra. -/
theorem demo_iterations : Iterations demo 1 true (fun i => 9 - 3 * i)
    (fun _ r => if r = 0 then [5, 0] else [2, 1]) (fun i => decide (9 - 3 * i ≤ 3)) where
  fit := fun i r => by simp [demo]
  converged := fun i => by
    change decide (9 - 3 * (i + 1) ≤ 3) = decide (9 - 3 * i - 3 ≤ 3)
    congr 2
  update := fun i => ⟨9 - 3 * (i + 1), by
    change 9 - 3 * (i + 1) = 9 - 3 * i - 3
    omega, rfl⟩

-- up to ten iterations allowed: the second one converges
example : ∃ k, k = 2 ∧ (runJob 1 (fun r => demo.iterate demoCodecs "attributes.fits" 10 true r 9
    (if r = 0 then [5, 0] else [2, 1]))).1 = .done [.ok (3, [6, 0], k, true), .ok (3, [3, 2], k, true)] :=
  ⟨2, rfl, by decide +kernel⟩
example : ∀ i < 10, SomeValid demo 1 (fun r => if r = 0 then [5, 0] else [2, 1]) :=
  fun _ _ => ⟨0, by decide, 5, by decide, by decide⟩
example : (runJob 1 (fun r => demo.iterate demoCodecs "f" 10 false r 9
    (if r = 0 then [5, 0] else [2, 1]))).2 = [[.create "f",
      .write "f" ("CONT-1", 9), .write "f" ("STACKED_FLUX-1", 9), .write "f" ("STACKED_FLUX_RF-1", 9),
      .write "f" ("CONT-2", 6), .write "f" ("STACKED_FLUX-2", 6), .write "f" ("STACKED_FLUX_RF-2", 6),
      .write "f" ("CONT", 3), .write "f" ("STACKED_FLUX", 3), .write "f" ("STACKED_FLUX_RF", 3),
      .write "f" ("CONT-fit", 0), .write "f" ("STACKED_FLUX-fit", 0), .write "f" ("STACKED_FLUX_RF-fit", 0),
      .write "f" ("VAR_FUNC-fit", 0), .write "f" ("VAR_STATS", 0), .close "f"], []] := by decide +kernel
-- no valid spectrum in the first iteration
example : ¬ SomeValid demo 1 (fun _ => [0]) := by
  rintro ⟨r, -, s, hs, hv⟩
  rw [List.mem_singleton] at hs
  subst hs
  exact absurd hv (by decide)
example : (runJob 1 (fun r => demo.iterate demoCodecs "f" 10 true r 9 [0])).1 =
    .done [.error .qsonic, .error .qsonic] := by decide +kernel

/-! ### The chi square catalog -/

/-- **C57** (`PiccaContinuumFitter.save_contchi2_catalog`, 632-681). On any number of ranks with any spectra, each
with at most three arms and with continuum parameters and covariance of the sizes of the polynomial order, and an
output directory: all ranks end, rank 0 writes one file, the others none, and it has exactly one row for each spectrum
of each rank, in the order of the ranks, with the values of this spectrum. -/
theorem C57_catalog {K : Type} [Zero K] (c : Codec (List (ChiRow K)) V) (outdir : String) (hout : outdir ≠ "")
    (corder n : Nat) (specs : Nat → List (ChiSpec K))
    (harm : ∀ r ≤ n, ∀ s ∈ specs r, s.meanSnr.length ≤ 3)
    (hx : ∀ r ≤ n, ∀ s ∈ specs r, s.x.length = corder ∧ s.xcov.length = corder ^ 2) :
    ∃ rows : List (ChiRow K),
      runJob n (fun r => saveContchi2 c outdir corder r (specs r)) =
        (.done ((List.range (n + 1)).map (fun _ => .ok ())),
         (List.range (n + 1)).map (fun r =>
          if r = 0 then [.file (outdir ++ "/continuum_chi2_catalog.fits") "CHI2_CAT" rows] else [])) ∧
      List.Forall₂ (fun p row => IsRow p.1 p.2 row)
        ((List.range (n + 1)).flatMap (fun r => (specs r).map (fun s => (r, s)))) rows := by
  refine ⟨((List.range (n + 1)).map (fun r => (specs r).map (rowOf corder r))).flatten,
    (sync_contchi2 c outdir hout corder n specs harm hx).job, ?_⟩
  have key : ∀ l : List Nat, (∀ r ∈ l, r ≤ n) → List.Forall₂ (fun p row => IsRow p.1 p.2 row)
      (l.flatMap (fun r => (specs r).map (fun s => (r, s))))
      (l.map (fun r => (specs r).map (rowOf corder r))).flatten := by
    intro l hl
    induction l with
    | nil => exact List.Forall₂.nil
    | cons r l ih =>
      rw [List.flatMap_cons, List.map_cons, List.flatten_cons]
      refine List.rel_append ?_ (ih fun q hq => hl q (.tail _ hq))
      have hr := hl r (.head _)
      rw [List.forall₂_map_left_iff, List.forall₂_map_right_iff, List.forall₂_same]
      exact fun s hs => isRow_rowOf corder r s (harm r hr s hs)
  exact key _ fun r hr => by have := List.mem_range.mp hr; omega

/-- **C57**: without an output directory nothing is exchanged or written. -/
theorem C57_no_directory {K : Type} [Zero K] (c : Codec (List (ChiRow K)) V) (corder n : Nat)
    (specs : Nat → List (ChiSpec K)) :
    runJob n (fun r => saveContchi2 c "" corder r (specs r)) =
      (.done ((List.range (n + 1)).map (fun _ => .ok ())), (List.range (n + 1)).map (fun _ => [])) := by
  unfold saveContchi2
  simp only [if_true]
  exact (sync_ret n _).job

/-- **C57**: a spectrum with more than three arms does not fit in the columns; the rank that has it raises before the
rows are gathered. -/
theorem C57_too_many_arms {K : Type} [Zero K] (c : Codec (List (ChiRow K)) V) (outdir : String) (hout : outdir ≠ "")
    (corder r : Nat) (specs : List (ChiSpec K)) (s : ChiSpec K) (hs : s ∈ specs) (h3 : 3 < s.meanSnr.length) :
    ∃ e, saveContchi2 c outdir corder r specs = .raise e := by
  have h1 : ∃ e, specs.mapM (chiRow corder r) = .error e := by
    cases h : specs.mapM (chiRow corder r) with
    | error e => exact ⟨e, rfl⟩
    | ok rows =>
      exfalso
      obtain ⟨row, hrow⟩ := mapM_mem_left h hs
      unfold chiRow snrVec at hrow
      rw [if_neg (by rw [List.length_map]; omega)] at hrow
      exact absurd hrow (by intro h'; cases h')
  obtain ⟨e, he⟩ := h1
  refine ⟨e, ?_⟩
  unfold saveContchi2
  rw [if_neg hout, he]
  rfl

-- two ranks, three spectra
example : (runJob 1 (fun r => saveContchi2 (K := ℤ) (Codec.refl _) "out" 2 r
    (if r = 0 then [⟨11, 2, 5, [("B", 1), ("R", 2)], 3, true, 7, 8, [1, 0], [1, 0, 0, 1]⟩]
     else [⟨12, 3, 6, [], 4, false, -1, 0, [0, 0], [0, 0, 0, 0]⟩,
       ⟨13, 3, 6, [("R", 9)], 4, true, 1, 2, [0, 1], [2, 0, 0, 2]⟩]))).2 =
    [[.file "out/continuum_chi2_catalog.fits" "CHI2_CAT"
      [⟨11, 2, 5, "B,R", [1, 2, 0], 3, 0, true, 7, 8, [1, 0], [1, 0, 0, 1]⟩,
       ⟨12, 3, 6, "", [0, 0, 0], 4, 1, false, -1, 0, [0, 0], [0, 0, 0, 0]⟩,
       ⟨13, 3, 6, "R", [9, 0, 0], 4, 1, true, 1, 2, [0, 1], [2, 0, 0, 2]⟩]], []] := by decide +kernel
example : (3 : Nat) < (ChiSpec.mk 1 (2 : ℤ) 5 [("A", 1), ("B", 2), ("C", 3), ("D", 4)] 3 true 7 8 [] []).meanSnr.length :=
  by decide

end Verif.Props
