import Verif.Model.FitTail
import Verif.Model.ContFit
import Verif.Proofs.Fitter
import Verif.Props.Fitter
import Mathlib.Data.Rat.Floor

/-!
# The final variance fit and the weights: C56
-/

namespace Verif.Props
open Verif.Model Verif.Model.Prog Verif.Spec Verif.Proofs

/-- Two fitters that differ at most in the fit of the variance (which without a fitter of the variance is done only
at the end, in `fit_final_varlss`) and in what they write. -/
structure SameFit {G Sp R Q D : Type} (F F' : FitterFns G Sp R Q D) : Prop where
  fitOne : F'.fitOne = F.fitOne
  valid : F'.valid = F.valid
  stack : F'.stack = F.stack
  addR : F'.addR = F.addR
  meanUpd : F'.meanUpd = F.meanUpd
  normalize : F'.normalize = F.normalize
  etaCalib : F'.etaCalib = F.etaCalib

section
variable {K : Type} [Field K] [LinearOrder K] [FloorRing K] {G R Q D V : Type}

/-- **C56**, the part that holds (`fit_final_varlss`, 584-594, `mpi_continuum_fitting`). Full claim: with fiducial
variance the final variance fit does not change the deltas or their weights. Proved without additive noise
calibration and without coadding after the fit: whatever two final fits do (`F` and `F'`), on any number of ranks,
all ranks end with the same spectra, weights included. Missing: the two options, for which the claim is false
(`C56_refuted`). -/
theorem C56_partial (F F' : FitterFns G (Spectrum K) R Q D) (hF : SameFit F F') (c : FitterCodecs R Q V)
    (interps : G → (K → K) × (K → K)) (T : TailFns K) (fname : String) (niter n : Nat) (g : Nat → G)
    (sp : Nat → Nat → List (Spectrum K)) (conv : Nat → Bool) (h : Iterations F n false g sp conv)
    (hv : ∀ i < niter, (∀ j, 0 < j → j ≤ i → conv j = false) → SomeValid F n (sp (i + 1))) :
    (∃ k ≤ niter, (runJob n (fun r => continuumFitting F c interps T none false fname niter false r (g 0) (sp 0 r))).1 =
      .done ((List.range (n + 1)).map (fun r => .ok (((sp k r).map
        (fun s => F.etaCalib (g k) (if F.valid s = true then F.normalize (g k) s else s))).filter
          (fun s => F.valid s))))) ∧
    (runJob n (fun r => continuumFitting F' c interps T none false fname niter false r (g 0) (sp 0 r))).1 =
      (runJob n (fun r => continuumFitting F c interps T none false fname niter false r (g 0) (sp 0 r))).1 := by
  have main : ∀ F0 : FitterFns G (Spectrum K) R Q D, SameFit F F0 →
      ∃ k ≤ niter, (∀ j, 0 < j → j < k → conv j = false) ∧ (k = niter ∨ (0 < k ∧ conv k = true)) ∧
      (runJob n (fun r => continuumFitting F0 c interps T none false fname niter false r (g 0) (sp 0 r))).1 =
      .done ((List.range (n + 1)).map (fun r => .ok (((sp k r).map
        (fun s => F.etaCalib (g k) (if F.valid s = true then F.normalize (g k) s else s))).filter
          (fun s => F.valid s)))) := by
    intro F0 h0
    have hvo : ∀ l : List (Spectrum K), validOf F0 l = validOf F l := fun l => by
      unfold validOf; rw [h0.valid]
    have hit : Iterations F0 n false g sp conv := by
      refine ⟨fun i r => ?_, fun i => ?_, fun i => ?_⟩
      · rw [h0.fitOne]; exact h.fit i r
      · rw [h0.meanUpd, h0.addR, h0.stack]; simp only [hvo]; exact h.converged i
      · obtain ⟨m, hm, hg⟩ := h.update i
        refine ⟨m, ?_, ?_⟩
        · rw [h0.meanUpd, h0.addR, h0.stack]; simp only [hvo]; exact hm
        · exact hg
    have hv' : ∀ i < niter, (∀ j, 0 < j → j ≤ i → conv j = false) → SomeValid F0 n (sp (i + 1)) := by
      intro i hi hl
      obtain ⟨r, hr, s, hs, hv⟩ := hv i hi hl
      exact ⟨r, hr, s, hs, by rw [h0.valid]; exact hv⟩
    obtain ⟨k, hk, h1, h2, h3, h4⟩ := sync_iterate (c := c) hit fname niter hv'
    refine ⟨k, hk, h2, ?_, ?_⟩
    · rcases h3 with h3 | h3
      · exact .inl h3
      · rcases Nat.eq_zero_or_pos niter with e | hp
        · left; omega
        · exact .inr ⟨h1 hp, h3⟩
    have h5 := h4.bind (f := fun _ (q : G × List (Spectrum K) × Nat × Bool) =>
      ofExcept (fitTail T none false (interps q.1).1 (interps q.1).2 (q.2.1.filter (fun s => F0.valid s))))
      (sync_ret n (fun r => (F0.tweak (g k) (sp k r)).filter (fun s => F0.valid s)))
    have h6 := h5.job
    unfold continuumFitting
    rw [h6]
    dsimp only
    congr 1
    refine List.map_congr_left fun r _ => ?_
    unfold FitterFns.tweak
    rw [h0.valid, h0.normalize, h0.etaCalib, List.map_map]
    rfl
  obtain ⟨k, hk, h1, h2, h3⟩ := main F ⟨rfl, rfl, rfl, rfl, rfl, rfl, rfl⟩
  obtain ⟨k', hk', h1', h2', h3'⟩ := main F' hF
  refine ⟨⟨k, hk, h3⟩, ?_⟩
  rw [h3, h3']
  have : k' = k := by
    rcases Nat.lt_trichotomy k k' with hlt | he | hgt
    · exfalso
      rcases h2 with h2 | ⟨hp, h2⟩
      · omega
      · rw [h1' k hp hlt] at h2; exact absurd h2 (by simp)
    · exact he.symm
    · exfalso
      rcases h2' with h2' | ⟨hp, h2'⟩
      · omega
      · rw [h1 k' hp hgt] at h2'; exact absurd h2' (by simp)
  rw [this]

end

/-- A fitter for the examples: the functions are the LSS variance and eta; the fit of a spectrum sets its weights,
the final variance fit gives the constant `v`. -/
def demoTail (v : ℚ) : FitterFns ((ℚ → ℚ) × (ℚ → ℚ)) (Spectrum ℚ) Unit Unit Unit where
  fitOne := fun g s => Spectrum.endFit g.1 g.2 s
  valid := fun s => s.valid
  stack := fun _ _ => ()
  addR := fun _ => ()
  meanUpd := fun g _ => (g, true)
  varAcc := fun _ _ _ => ()
  addQ := fun _ => ()
  varUpd := fun g _ => (fun _ => v, g.2)
  newVar := fun _ => (fun _ => 1 / 10, fun _ => 1)
  normalize := fun _ s => s
  etaCalib := fun _ s => s
  dataCont := fun _ => ()
  dataFlux := fun _ => ()
  dataFluxRf := fun _ => ()
  dataVar := fun _ => ()
  dataStats := fun _ => ()

/-- A spectrum of three pixels with a continuum. -/
def demoSpec : Spectrum ℚ :=
  { Spectrum.blank 2 1 [("B", [1, 2, 3])] [("B", [4, 5, 6])] [("B", [1, 2, 1])] [] with
    fwave := [("B", [1, 2, 3])]
    fflux := [("B", [4, 5, 6])]
    fivar := [("B", [1, 2, 1])]
    ivarSm := none
    weight := none
    cont := [("B", [1, 1, 1])]
    valid := true }

/-- The serialisations of the example. -/
def demoTailCodecs : FitterCodecs Unit Unit Nat := ⟨.refl _, ⟨fun _ => 0, fun _ => (), fun _ => rfl⟩,
  ⟨fun _ => 0, fun _ => (), fun _ => rfl⟩⟩

/-- Numerical functions of the example. -/
def demoTailFns : TailFns ℚ := ⟨id, fun l _ => l, fun _ => 0, 0, 0⟩

/-- The weights at the end of a job of one rank: fiducial variance 1, final fit `v`. -/
def demoWeights (ncal : Option (NoiseCal ℚ)) (after : Bool) (v : ℚ) : List (List (String × List ℚ)) :=
  match (runJob 0 (fun r => continuumFitting (demoTail v) demoTailCodecs id demoTailFns ncal after "" 1 false r
    (fun _ => 1, fun _ => 1) [demoSpec])).1 with
  | .done [.ok l] => l.map (fun s => s.fweight)
  | _ => []

/-- **C56** is false with additive noise calibration and with coadding after the fit: the weights of the deltas are
those of the refit variance (`qcfit.varlss_interp` is the new interpolator after `fit_final_varlss`), so that two
final fits (`v` and `v'`) that differ in nothing else give different weights. Without the options they are those of
the fiducial variance. -/
theorem C56_refuted :
    (∀ v v', SameFit (demoTail v) (demoTail v')) ∧
    (∃ v v' ncal, demoWeights (some ncal) false v ≠ demoWeights (some ncal) false v') ∧
    (∃ v v', demoWeights none true v ≠ demoWeights none true v') ∧
    (∀ v, v = 0 ∨ v = 3 → demoWeights none false v = [[("B", [1 / 2, 2 / 3, 1 / 2])]]) := by
  refine ⟨fun _ _ => ⟨rfl, rfl, rfl, rfl, rfl, rfl, rfl⟩, ⟨0, 3, ⟨fun _ => 1, some (fun _ => 1)⟩, ?_⟩, ⟨0, 3, ?_⟩, ?_⟩
  · decide +kernel
  · decide +kernel
  · rintro v (rfl | rfl) <;> decide +kernel

example : demoWeights none true 0 = [[("brz", [1, 2, 1])]] := by decide +kernel
example : demoWeights none true 3 = [[("brz", [1 / 4, 2 / 7, 1 / 4])]] := by decide +kernel
-- the hypotheses of the partial theorem
example : Iterations (demoTail 3) 0 false (fun _ => (fun _ => 1, fun _ => 1))
    (fun i _ => (List.map (Spectrum.endFit (fun _ => 1) (fun _ => 1)))^[i] [demoSpec]) (fun _ => true) where
  fit := fun i _ => Function.iterate_succ_apply' _ _ _
  converged := fun _ => rfl
  update := fun _ => ⟨_, rfl, rfl⟩
example : SomeValid (demoTail 3) 0
    (fun _ => (List.map (Spectrum.endFit (fun _ => 1) (fun _ => 1)))^[0 + 1] [demoSpec]) :=
  ⟨0, le_rfl, _, .head _, by decide +kernel⟩

end Verif.Props
