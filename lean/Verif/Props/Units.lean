import Verif.Proofs.UnitsMore
import Verif.Props.WholeRun

/-!
# C90: results do not depend on the units of flux

The fluxes of two inputs are in different units, which may differ from spectrum to spectrum, and the inverse variances
accordingly (`OtherUnits`). The same spectra are selected, the fits have the same iterations and write the same
attributes file, and the delta files have the same deltas, inverse variances and weights; only the continua are in the
other units.
-/

namespace Verif.Props
open Verif Verif.Np Verif.Model Verif.Model.Prog Verif.Spec Verif.Proofs Spectrum

variable {K : Type} [Field K] [LinearOrder K] [IsStrictOrderedRing K] [FloorRing K]

omit [FloorRing K] in
/-- The coefficients of the best continuum follow the units. -/
theorem C90_cost {log : K → K} (hlog : ∀ a b : K, 0 < a → 0 < b → log (a * b) = log a + log b) {c : K} (hc : 0 < c)
    (y : K) (meancont meanflux varlss eta : K → K) (hve : ∀ w, 0 ≤ varlss w ∧ 0 < eta w) (r0 d : K) (s : Spectrum K)
    (hs : IvarNonneg s) (m : List K) :
    (∀ x : List K, x.length = m.length → piccaCost log meancont meanflux varlss eta r0 d s m ≤
      piccaCost log meancont meanflux varlss eta r0 d s x) ↔
    ∀ x : List K, x.length = m.length →
      piccaCost log meancont meanflux varlss eta r0 d (rescale c y s) (m.map (c * ·)) ≤
        piccaCost log meancont meanflux varlss eta r0 d (rescale c y s) x := by
  have key := piccaCost_rescale hlog hc y meancont meanflux varlss eta hve r0 d s hs
  have hc0 := hc.ne'
  constructor
  · intro h x hx
    have e : x = (x.map (1 / c * ·)).map (c * ·) := by
      rw [List.map_map]
      conv_lhs => rw [← List.map_id x]
      refine List.map_congr_left fun a _ => ?_
      simp only [Function.comp_apply, id_eq]
      field_simp
    rw [e, key, key]
    have := h (x.map (1 / c * ·)) (by rw [List.length_map, hx])
    linarith
  · intro h x hx
    have := h (x.map (c * ·)) (by rw [List.length_map, hx])
    rw [key, key] at this
    linarith

/-- The continuum fit on any number of ranks: the same iterations, the same files, the same valid spectra. Missing: a
minimizer which does not find the minimum (the starting point depends on the units, `C90_start_refuted`). -/
theorem C90_fit_partial {C : FullCfg K} {Q D V : Type} {P : FitterFns (FullState K) (Spectrum K) (StackSums K) Q D}
    (hres : C.residual = true) (hlog : ∀ a b : K, 0 < a → 0 < b → C.log (a * b) = C.log a + C.log b)
    (hmin : FindsMinimum C.minimize) (hP : SeesDeltas P) (c : FitterCodecs (StackSums K) Q V) (fname : String)
    (niter : Nat) (hasFitter : Bool) (hgood : hasFitter = true → ∀ g q, GoodVar g → GoodVar (P.varUpd g q))
    {g : FullState K} (hg : GoodVar g) (n : Nat) (l l' : Nat → List (Spectrum K))
    (hl : ∀ r ≤ n, List.Forall₂ OtherUnits (l r) (l' r)) (hnn : ∀ r ≤ n, ∀ s ∈ l r, IvarNonneg s) :
    let job := fun (l : Nat → List (Spectrum K)) => runJob n (fun r => (C.fns P).iterate c fname niter hasFitter r g (l r))
    SameOutcome (fun x y => x.1 = y.1 ∧ List.Forall₂ OtherUnits x.2.1 y.2.1 ∧ x.2.2 = y.2.2) (job l).1 (job l').1 ∧
      (job l).2 = (job l').2 := by
  dsimp only
  refine runJob_rel fun r hr => ?_
  refine iterate_rel hres hlog hmin hP c fname niter r hasFitter hgood hg ?_
  have h1 := hl r hr
  have h2 := hnn r hr
  generalize l r = a at h1 h2
  generalize l' r = b at h1
  induction h1 with
  | nil => exact .nil
  | cons hab _ ih =>
    exact .cons ⟨h2 _ List.mem_cons_self, hab⟩ (ih (fun s hs => h2 s (List.mem_cons_of_mem _ hs)))

/-- A whole run of `qsonic-fit`: the same spectra are selected and kept, with the same files. Missing: as above, and
resolution matrices with `--coadd-arms before` (`C90_reso_refuted`). -/
theorem C90_run_partial {Val : Type} [LinearOrder Val] (C : WholeCfg Val K) {Q D V : Type}
    {P : FitterFns (FullState K) (Spectrum K) (StackSums K) Q D}
    (hs : SqrtScales C.sel.sqrt)
    (heta : ∀ eta, C.sel.eta = some eta → ∀ w, 0 < eta w) (hsm : SmoothScales C.sel.smooth)
    (hn : ∀ l p, ∀ v ∈ C.sel.smooth l p, 0 ≤ v)
    (hres : C.fit.residual = true) (hlog : ∀ a b : K, 0 < a → 0 < b → C.fit.log (a * b) = C.fit.log a + C.fit.log b)
    (hmin : FindsMinimum C.fit.minimize) (hP : SeesDeltas P)
    (cs : Codec Bool V) (cq : Codec (List (List (Row Val))) V) (cn : Codec Val V)
    (c : FitterCodecs (StackSums K) Q V) (read : Except Err (Catalog Val)) (fname : String) {g0 : FullState K}
    (hg : GoodVar g0) (n : Nat) (reader' : List (Row Val) → Except Err (List (ReadSpec K)))
    (hread : ∀ q, SameResult (List.Forall₂ ReadUnits) (C.reader q) (reader' q))
    (hnn : ∀ q l, C.reader q = .ok l → ∀ x ∈ l, ReadNonneg x)
    (hc : C.sel.coaddBefore = true → ∀ q l, C.reader q = .ok l → ∀ x ∈ l, NoReso x.spec) :
    let job := fun (C : WholeCfg Val K) => runJob n (fun r => C.run P cs cq cn c read fname g0 (n + 1) r)
    SameOutcome OutUnits (job C).1 (job { C with reader := reader' }).1 ∧
      (job C).2 = (job { C with reader := reader' }).2 := by
  dsimp only
  refine runJob_rel fun r _ => whole_rel C hs heta hsm hn hres hlog hmin hP cs cq cn c read fname hg (n + 1) r fun q => ?_
  have h1 := hread q
  have h2 : ∀ l, C.reader q = .ok l → ∀ x ∈ l, ReadNonneg x ∧ (C.sel.coaddBefore = true → NoReso x.spec) :=
    fun l hl x hx => ⟨hnn q l hl x hx, fun hb => hc hb q l hl x hx⟩
  cases hq : C.reader q with
  | error e =>
    rw [hq] at h1
    cases hq' : reader' q with
    | error e' => rw [hq'] at h1; exact h1
    | ok b => rw [hq'] at h1; exact h1.elim
  | ok a =>
    rw [hq] at h1
    cases hq' : reader' q with
    | error e => rw [hq'] at h1; exact h1.elim
    | ok b =>
      rw [hq'] at h1
      have h3 := h2 a hq
      change List.Forall₂ ReadUnits a b at h1
      change List.Forall₂ (RelRead C.sel) a b
      clear hq hq' h2
      induction h1 with
      | nil => exact .nil
      | cons hab _ ih =>
        exact .cons ⟨(h3 _ List.mem_cons_self).1, hab, (h3 _ List.mem_cons_self).2⟩
          (ih (fun s hs => h3 s (List.mem_cons_of_mem _ hs)))

omit [FloorRing K] in
/-- The S/N of the constructor, used by `--min-rsnr`, is the same in other units. -/
theorem C90_rsnr {sqrt : K → K} (hs : SqrtScales sqrt) {c : K} (hc : 0 < c) (eps lya z : K)
    (wave flux ivar : Dict (List K)) :
    rsnr sqrt eps lya z wave (times c flux) (times (1 / c ^ 2) ivar) = rsnr sqrt eps lya z wave flux ivar :=
  rsnr_scale hs hc eps lya z wave flux ivar

omit [FloorRing K] in
/-- The smoothing of inverse variances meets the condition of `C90_run_partial`, if the median and the FFT smoother
follow a factor. -/
theorem C90_smooth {sqrt : K → K} (hs : SqrtScales sqrt) {median : List K → K}
    (hm : ∀ (k : K) (l : List K), 0 < k → median (l.map (k * ·)) = k * median l) {smooth : List K → K → List K}
    (hf : ∀ (k : K) (l : List K) (p : K), 0 < k → smooth (l.map (k * ·)) p = (smooth l p).map (k * ·)) (mad esigma : K) :
    SmoothScales (fun l p => getSmoothIvar sqrt median smooth mad l p esigma) ∧
      ∀ l p, ∀ v ∈ getSmoothIvar sqrt median smooth mad l p esigma, 0 ≤ v :=
  ⟨smooth_scales hs hm hf mad esigma, smooth_nonneg sqrt median smooth mad esigma⟩

/-- The tables: only the column `CONT` is in the other units. -/
theorem C90_written {c : K} (hc : 0 < c) (y lya : K) (night : Nat) (a : BlindArgs K) (id : Ident K)
    (meanReso : String → K) (rs : K) (s : Spectrum K) :
    SameResult (List.Forall₂ (fun h h' => h' = contTimes c h))
      (s.write (setBlinding lya .init night a) id meanReso rs)
      ((rescale c y s).write (setBlinding lya .init night a) id meanReso rs) := by
  rw [write_scale hc y (fitNames_set lya night a)]
  cases s.write (setBlinding lya .init night a) id meanReso rs with
  | error e => exact rfl
  | ok l =>
    change List.Forall₂ _ l (l.map (contTimes c))
    rw [List.forall₂_map_right_iff, List.forall₂_same]
    intro h _
    rfl

/-- The starting amplitude has `1e-6` in the denominator: it does not follow the units. -/
theorem C90_start_refuted : ¬ ∀ (c : ℚ) (s : Spectrum ℚ), 0 < c → startA0 (rescale c s.x0 s) = c * startA0 s := by
  intro h
  have := h 2 { Spectrum.blank 2 1 [] [] [] [] with
    fflux := [("b", [1])], fivar := [("b", [1])], ivarSm := none, weight := none } (by norm_num)
  revert this
  decide +kernel

/-- With a continuum from a file (`residual = false`) the mean continuum is an average in the units of the spectra:
what is summed does not stay the same. -/
theorem C90_stack_refuted : ¬ ∀ (c : ℚ) (s : Spectrum ℚ) (x : String × List ℚ), 0 < c →
    stackArm false (rescale c s.x0 s) x = stackArm false s x := by
  intro h
  have := congrArg (List.map SPix.wcont) (h 2 { Spectrum.blank 2 1 [] [] [] [] with
    fflux := [("b", [1])], fivar := [("b", [1])], ivarSm := none, weight := none, cont := [("b", [1])] } ("b", [3600]) (by norm_num))
  revert this
  decide +kernel

/-- A masked pixel has weight `1e-8` in the coadded resolution, whatever the units: the resolution does not stay the
same. -/
theorem C90_reso_refuted : ¬ ∀ (c : ℚ) (s : Spectrum ℚ), 0 < c →
    ((rescale c s.x0 s).newReso 0 (1 / 10 ^ 8) 3600 1).toOption = (s.newReso 0 (1 / 10 ^ 8) 3600 1).toOption := by
  intro h
  have := h 2 { Spectrum.blank 2 1 [] [] [] [] with
    fwave := [("b", [3600]), ("r", [3600])], fflux := [("b", [1]), ("r", [1])], fivar := [("b", [0]), ("r", [1])]
    freso := [("b", [[3]]), ("r", [[1]])], ivarSm := none, weight := none } (by norm_num)
  revert this
  decide +kernel

/-! ### Concrete cases -/

/-- A spectrum of two pixels and its tables in two units: deltas, inverse variances and weights agree. -/
def c90Spec : Spectrum ℚ :=
  { Spectrum.blank 2 1 [] [] [] [] with
    fwave := [("b", [3600, 3601])], fflux := [("b", [6, 3])], fivar := [("b", [1, 4])], cont := [("b", [4, 4])]
    ivarSm := none, weight := none, meanSnr := [("b", 5)] }

set_option synthInstance.maxSize 4000 in
example : (c90Spec.write (setBlinding 1215 .init 0 ⟨true, 1040, true⟩) ⟨7, 0, 0, 2, [], none⟩ (fun _ => 0) 5).toOption.map
      (List.map (fun h => h.cols)) =
      some [[("LAMBDA", Col.vec [3600, 3601]), ("DELTA", .vec [1 / 2, -1 / 4]), ("IVAR", .vec [16, 64]),
        ("WEIGHT", .vec [16, 64]), ("CONT", .vec [4, 4])]] ∧
    ((rescale 3 0 c90Spec).write (setBlinding 1215 .init 0 ⟨true, 1040, true⟩) ⟨7, 0, 0, 2, [], none⟩ (fun _ => 0) 5
      ).toOption.map (List.map (fun h => h.cols)) =
      some [[("LAMBDA", Col.vec [3600, 3601]), ("DELTA", .vec [1 / 2, -1 / 4]), ("IVAR", .vec [16, 64]),
        ("WEIGHT", .vec [16, 64]), ("CONT", .vec [12, 12])]] := by
  decide +kernel

end Verif.Props
