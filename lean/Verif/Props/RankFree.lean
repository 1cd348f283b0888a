import Verif.Model.FullFit
import Verif.Proofs.RankFree
import Verif.Proofs.ContFit
import Verif.Props.Stack
import Verif.Props.VarErrors

/-!
# The fit does not depend on the number of processes (C86)
-/

namespace Verif.Props
open Verif Verif.Np Verif.Model Verif.Model.Prog Verif.Spec Verif.Proofs

variable {K : Type} [Field K] [LinearOrder K] [IsStrictOrderedRing K] [FloorRing K]

/-- All forest pixels of the spectrum are in the forest. -/
def PixelsInForest (w1 w2 r1 r2 : K) (s : Spectrum K) : Prop :=
  0 < 1 + s.z ∧ ∀ x ∈ s.fwave, ∀ w ∈ x.2, InForest s.z w1 w2 r1 r2 w

omit [IsStrictOrderedRing K] in
theorem fitOne_same (C : FullCfg K) (g : FullState K) (s : Spectrum K) :
    (C.fitOne g s).fwave = s.fwave ∧ (C.fitOne g s).z = s.z := by
  have e : ∀ t : Spectrum K, (Spectrum.endFit g.varlss g.eta t).fwave = t.fwave ∧
      (Spectrum.endFit g.varlss g.eta t).z = t.z := by
    intro t
    have a := sfw_same g.varlss g.eta t
    have b := chi2_same (t.setForestWeight g.varlss g.eta)
    have h1 := b.2.2.1.trans a.2.2.1
    have h2 := b.2.2.2.2.2.2.1.trans a.2.2.2.2.2.2
    unfold Spectrum.endFit
    dsimp only
    split
    · exact ⟨h1, h2⟩
    · exact ⟨h1, h2⟩
  unfold FullCfg.fitOne Spectrum.piccaFit
  refine ⟨(e _).1.trans ?_, (e _).2.trans ?_⟩ <;>
  · split <;> rfl

theorem addSums_pool (C : FullCfg K) {w1 w2 dw r1 r2 dr : K} (ho : linGrid w1 w2 dw = .ok C.obs) (hw : w1 < w2)
    (hr : linGrid r1 r2 dr = .ok C.rf) (hrw : r1 < r2) (n n' : Nat) (sp sp' : Nat → List (Spectrum K))
    (hp : (pooled n sp).Perm (pooled n' sp')) (hf : ∀ s ∈ pooled n sp, PixelsInForest w1 w2 r1 r2 s) :
    C.addSums ((List.range (n + 1)).map (fun r => C.stackRank ((sp r).filter (fun s => s.valid)))) =
      C.addSums ((List.range (n' + 1)).map (fun r => C.stackRank ((sp' r).filter (fun s => s.valid)))) := by
  have hf' : ∀ s ∈ pooled n' sp', PixelsInForest w1 w2 r1 r2 s := fun s hs => hf s (hp.mem_iff.mpr hs)
  have A : ∀ (m : Nat) (q : Nat → List (Spectrum K)), (∀ s ∈ pooled m q, PixelsInForest w1 w2 r1 r2 s) →
      ∀ r ∈ List.range (m + 1), AllInForest w1 w2 r1 r2 ((q r).filter (fun s => s.valid)) := by
    intro m q hq r hr s hs _
    exact hq s (List.mem_flatMap.mpr ⟨r, hr, (List.mem_filter.mp hs).1⟩)
  have hpp : ∀ (m : Nat) (q : Nat → List (Spectrum K)),
      (List.range (m + 1)).flatMap (fun r => forestPixels ((q r).filter (fun s => s.valid))) =
        forestPixels (pooled m q) := by
    intro m q
    unfold forestPixels pooled
    simp only [List.filter_filter, Bool.and_self]
    rw [List.filter_flatMap, List.flatMap_assoc]
  have hperm : (forestPixels (pooled n sp)).Perm (forestPixels (pooled n' sp')) := by
    unfold forestPixels
    exact (hp.filter _).flatMap_right _
  have S : ∀ (m : Nat) (q : Nat → List (Spectrum K)), (∀ s ∈ pooled m q, PixelsInForest w1 w2 r1 r2 s) →
      C.addSums ((List.range (m + 1)).map (fun r => C.stackRank ((q r).filter (fun s => s.valid)))) =
      { fp := (List.range C.obs.n).map (fun k : Nat => (((forestPixels (pooled m q)).filter
          (fun p => decide (InStackCell w1 w2 C.obs.n k p.wave))).map
            (fun p => p.weight * p.cont ^ 2 * (p.flux / p.cont))).sum)
        ep := (List.range C.obs.n).map (fun k : Nat => (((forestPixels (pooled m q)).filter
          (fun p => decide (InStackCell w1 w2 C.obs.n k p.wave))).map (fun p => p.weight * p.cont ^ 2)).sum)
        fpRf := (List.range C.rf.n).map (fun k : Nat => (((forestPixels (pooled m q)).filter
          (fun p => decide (InStackCell r1 r2 C.rf.n k (p.wave / (1 + p.z))))).map
            (fun p => p.weight * p.cont ^ 2 * (if C.residual then p.flux / p.cont else p.cont))).sum)
        epRf := (List.range C.rf.n).map (fun k : Nat => (((forestPixels (pooled m q)).filter
          (fun p => decide (InStackCell r1 r2 C.rf.n k (p.wave / (1 + p.z))))).map
            (fun p => p.weight * p.cont ^ 2)).sum) } := by
    intro m q hq
    have R : ∀ r ∈ List.range (m + 1), _ := fun r hr' =>
      rank_sums ho hw hr hrw C.residual (A m q hq r hr')
    unfold FullCfg.addSums FullCfg.stackRank Stacker.sumArrays
    simp only [List.map_map, Function.comp_def]
    rw [StackSums.mk.injEq]
    refine ⟨?_, ?_, ?_, ?_⟩ <;>
    · refine List.map_congr_left fun k hk => ?_
      have hk := List.mem_range.mp hk
      rw [← hpp, ← sum_ranks]
      refine congrArg List.sum (List.map_congr_left fun r hr' => ?_)
      first
        | exact ((R r hr').2.2.1 k hk).1
        | exact ((R r hr').2.2.1 k hk).2
        | exact ((R r hr').2.2.2 k hk).1
        | exact ((R r hr').2.2.2 k hk).2
  rw [S n sp hf, S n' sp' hf', StackSums.mk.injEq]
  refine ⟨?_, ?_, ?_, ?_⟩ <;>
  · refine List.map_congr_left fun k _ => ?_
    exact ((hperm.filter _).map _).sum_eq

/-- **C86**, the part that holds (`PiccaContinuumFitter.iterate`). Full claim: the results of the continuum fit do not
depend on the number of processes, nor on how the spectra are distributed to them. Proved for given mean flux and LSS
variance, without rounding: let two jobs of `n + 1` and `n' + 1` processes have the same spectra, with all pixels in
the forest, in any distribution and order. Then either both end well, with the same number of iterations and the same
verdict on the convergence; the same function takes each spectrum to its result (continuum, weights and so on); and
rank 0 writes the same extensions to `attributes.fits`, up to the ones of the final variance fit. Or both raise
`QsonicException` on all ranks, having written the same. `P`, `P'`: the variance fitters, which may differ.
Missing: the variance fit, for which the claim is false (`C86_refuted`). -/
theorem C86_partial {Q D V : Type} (C : FullCfg K) {w1 w2 dw r1 r2 dr : K} (ho : linGrid w1 w2 dw = .ok C.obs)
    (hw : w1 < w2) (hr : linGrid r1 r2 dr = .ok C.rf) (hrw : r1 < r2)
    (P P' : FitterFns (FullState K) (Spectrum K) (StackSums K) Q D)
    (hd : P'.dataCont = P.dataCont ∧ P'.dataFlux = P.dataFlux ∧ P'.dataFluxRf = P.dataFluxRf)
    (c c' : FitterCodecs (StackSums K) Q V) (n n' : Nat) (g0 : FullState K) (sp sp' : Nat → List (Spectrum K))
    (hp : ((List.range (n + 1)).flatMap sp).Perm ((List.range (n' + 1)).flatMap sp'))
    (hf : ∀ s ∈ (List.range (n + 1)).flatMap sp, PixelsInForest w1 w2 r1 r2 s) (fname : String) (niter : Nat) :
    (∃ (k : Nat) (b : Bool) (f : Spectrum K → Spectrum K) (gfin gfin' : FullState K)
        (exts tail tail' : List (String × D)),
      runJob n (fun r => (C.fns P).iterate c fname niter false r g0 (sp r)) =
        (.done ((List.range (n + 1)).map (fun r => .ok (gfin, (sp r).map f, k, b))),
         (List.range (n + 1)).map (fun r => if r = 0 ∧ fname ≠ "" then
          [.create fname] ++ (exts ++ tail).map (.write fname) ++ [.close fname] else [])) ∧
      runJob n' (fun r => (C.fns P').iterate c' fname niter false r g0 (sp' r)) =
        (.done ((List.range (n' + 1)).map (fun r => .ok (gfin', (sp' r).map f, k, b))),
         (List.range (n' + 1)).map (fun r => if r = 0 ∧ fname ≠ "" then
          [.create fname] ++ (exts ++ tail').map (.write fname) ++ [.close fname] else [])) ∧
      tail.map Prod.fst = ["CONT-fit", "STACKED_FLUX-fit", "STACKED_FLUX_RF-fit", "VAR_FUNC-fit", "VAR_STATS"] ∧
      tail'.map Prod.fst = tail.map Prod.fst) ∨
    (∃ ev : List (SaverEv (String × D)),
      runJob n (fun r => (C.fns P).iterate c fname niter false r g0 (sp r)) =
        (.done ((List.range (n + 1)).map (fun _ => .error .qsonic)),
          (List.range (n + 1)).map (fun r => if r = 0 ∧ fname ≠ "" then ev else [])) ∧
      runJob n' (fun r => (C.fns P').iterate c' fname niter false r g0 (sp' r)) =
        (.done ((List.range (n' + 1)).map (fun _ => .error .qsonic)),
          (List.range (n' + 1)).map (fun r => if r = 0 ∧ fname ≠ "" then ev else []))) := by
  refine job_pool (F := C.fns P) (F' := C.fns P') (P := PixelsInForest w1 w2 r1 r2)
    ⟨rfl, rfl, rfl, fun g s hs => ?_, fun g m m' q q' hq hq' => ?_⟩ rfl rfl hd c c' n n' g0 sp sp' hp hf fname niter
  · obtain ⟨e1, e2⟩ := fitOne_same C g s
    change PixelsInForest w1 w2 r1 r2 (C.fitOne g s)
    unfold PixelsInForest
    rw [e1, e2]
    exact hs
  · exact addSums_pool C ho hw hr hrw m m' q q' hq hq'

/-- Four spectra with one pixel each, of delta 0, 2, 0, 2. -/
def c86Specs : List (List (VPix ℚ)) := [[⟨3600, 0, 1⟩], [⟨3600, 2, 1⟩], [⟨3600, 0, 1⟩], [⟨3600, 2, 1⟩]]

/-- **C86** is false for the variance fit: its subsamples depend on the rank, and so do its errors, which are weights
in the fit of the LSS variance. The same four spectra on one rank and on two: the same variance of delta, but errors
squared of 10 and of 7/4. -/
theorem C86_refuted :
    (VarLss.calculate 0 false (rankObjs c48Cfg (n := 2) (by decide) [c86Specs])).map (fun r =>
      ((r.1.meanRow 1).bind (·[0]?), (r.1.errRow 1).bind (·[0]?))) = [(some 1, some 10)] ∧
    (VarLss.calculate 0 false (rankObjs c48Cfg (n := 2) (by decide) [c86Specs.take 2, c86Specs.drop 2])).map (fun r =>
      ((r.1.meanRow 1).bind (·[0]?), (r.1.errRow 1).bind (·[0]?))) = [(some 1, some (7 / 4)), (some 1, some (7 / 4))] := by
  constructor <;> decide +kernel

/-! ### Example -/

/-- A run on small grids, with a minimizer that stays where it starts. -/
def c86Cfg : FullCfg ℚ :=
  { log := fun x => x - 1, sqrt := id, smooth := fun f _ => f, junk := fun _ => 0, minimize := fun _ x => (true, x)
    order := 0, residual := true, meanflux := fun _ => 1, obs := ⟨3304, 8, 4⟩, rf := ⟨1105, 10, 2⟩
    normalize := true, etaCalib := false }

/-- Start: mean continuum one. -/
def c86Start : FullState ℚ :=
  { cont := [1, 1], contErr := [0, 0], stack := Stacker.new c86Cfg.obs c86Cfg.rf, varlss := fun _ => 1, eta := fun _ => 1 }

/-- Variance fitters that do nothing. -/
def c86Var : FitterFns (FullState ℚ) (Spectrum ℚ) (StackSums ℚ) Unit (List ℚ) :=
  { fitOne := fun _ s => s, valid := fun _ => true, stack := fun _ _ => ⟨[], [], [], []⟩,
    addR := fun _ => ⟨[], [], [], []⟩, meanUpd := fun g _ => (g, true), varAcc := fun _ _ _ => (), addQ := fun _ => (),
    varUpd := fun g _ => g, newVar := id, normalize := fun _ s => s, etaCalib := fun _ s => s, dataCont := (·.cont),
    dataFlux := (·.stack.fp), dataFluxRf := (·.stack.fpRf), dataVar := fun _ => [], dataStats := fun _ => [] }

/-- A second spectrum, with pixels in the other cell. -/
def c86Spec2 : Spectrum ℚ :=
  { c52Spec with fwave := [("B", [3306, 3331])], fflux := [("B", [3, 1])], fivar := [("B", [1, 1])], cont := [] }

/-- Serialisation for the example. -/
def c86Codecs : FitterCodecs (StackSums ℚ) Unit (StackSums ℚ × Nat) :=
  ⟨⟨fun n => (⟨[], [], [], []⟩, n), Prod.snd, fun _ => rfl⟩, ⟨fun s => (s, 0), Prod.fst, fun _ => rfl⟩,
    ⟨fun _ => (⟨[], [], [], []⟩, 0), fun _ => (), fun _ => rfl⟩⟩

example : linGrid (3300 : ℚ) 3332 8 = .ok c86Cfg.obs ∧ linGrid (1100 : ℚ) 1120 10 = .ok c86Cfg.rf := by decide +kernel
-- three spectra, on two ranks and on one
example : ((List.range 2).flatMap (fun r => if r = 0 then [c52Spec, c86Spec2] else [c86Spec2])).Perm
    ((List.range 1).flatMap (fun _ => [c86Spec2, c52Spec, c86Spec2])) := .swap _ _ _
example : ∀ s ∈ (List.range 2).flatMap (fun r => if r = 0 then [c52Spec, c86Spec2] else [c86Spec2]),
    PixelsInForest 3300 3332 1100 1120 s := by
  intro s hs
  have : s = c52Spec ∨ s = c86Spec2 := by
    simp [List.range_succ] at hs
    exact hs
  rcases this with rfl | rfl
  · exact ⟨by decide +kernel, by decide +kernel⟩
  · exact ⟨by decide +kernel, by decide +kernel⟩

/-- What is compared in the example: continua and mean continuum, if the rank ends without exception. -/
def c86See : Except Err (FullState ℚ × List (Spectrum ℚ) × Nat × Bool) → List (Dict (List ℚ)) × List ℚ × Nat
  | .ok r => (r.2.1.map (·.cont), r.1.cont, r.2.2.1)
  | .error _ => ([], [], 0)

/-- The results of all ranks. -/
def c86Job : Outcome (FullState ℚ × List (Spectrum ℚ) × Nat × Bool) → List (List (Dict (List ℚ)) × List ℚ × Nat)
  | .done l => l.map c86See
  | _ => []

/-- The same continua and the same mean continuum on two ranks and on one, after two iterations. -/
example :
    let a := c86Job (runJob 1 (fun r => (c86Cfg.fns c86Var).iterate c86Codecs "" 2 false r c86Start
      (if r = 0 then [c52Spec, c86Spec2] else [c86Spec2]))).1
    let b := c86Job (runJob 0 (fun r => (c86Cfg.fns c86Var).iterate c86Codecs "" 2 false r c86Start
      [c86Spec2, c52Spec, c86Spec2])).1
    a.map (fun x => x.1.length) = [2, 1] ∧ b.map (fun x => x.1.length) = [3] ∧
    (a.flatMap (·.1)).Perm (b.flatMap (·.1)) ∧ a.map (·.2) = b.map (·.2) ++ b.map (·.2) ∧
    b.map (fun x => x.2.2) = [2] := by
  decide +kernel

end Verif.Props
