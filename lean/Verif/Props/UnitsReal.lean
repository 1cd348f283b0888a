import Verif.Props.Units
import Mathlib.Analysis.SpecialFunctions.Log.Basic

/-!
# C90: a case with real numbers

Square root, logarithm, the smoothing of `mathtools.py` and an exact minimizer meet the conditions of `Verif.Props.Units`.
-/

namespace Verif.Props
open Verif Verif.Np Verif.Model Verif.Model.Prog Verif.Spec Verif.Proofs Spectrum

/-- The real functions meet the conditions. -/
theorem c90_sqrt : SqrtScales Real.sqrt := by
  intro c v hc
  rw [Real.sqrt_mul (by positivity), Real.sqrt_div zero_le_one, Real.sqrt_one, Real.sqrt_sq hc.le]

theorem c90_log (a b : ℝ) (ha : 0 < a) (hb : 0 < b) : Real.log (a * b) = Real.log a + Real.log b :=
  Real.log_mul ha.ne' hb.ne'

/-- A run with the real functions and an exact minimizer. -/
noncomputable def c90Cfg : WholeCfg Nat ℝ where
  sel :=
    { sqrt := Real.sqrt, junk := fun _ => 0, nan := 0, eps := 1 / 10 ^ 6, eps8 := 1 / 10 ^ 8, dlaFlux := fun _ _ _ => 1
      smooth := (fun l p => getSmoothIvar Real.sqrt (fun l => l.sum / l.length) (fun l _ => l) (14826 / 10000) l p (7 / 2))
      wave1 := 3600, wave2 := 6000, forestW1 := 1040, forestW2 := 1200, minRsnr := 0, minSnr := 0, skip := 1 / 5
      coaddBefore := true, eta := some (fun _ => 2), stack := none, sky := none, bal := false, dla := none }
  fit :=
    { log := Real.log, sqrt := Real.sqrt, smooth := fun f _ => f, junk := fun _ => 0, minimize := exactMin
      order := 1, residual := true, meanflux := fun _ => 1, obs := ⟨3604, 8, 300⟩, rf := ⟨1040, 2, 80⟩
      normalize := true, etaCalib := true }
  mock := true
  tile := false
  cols := []
  tid r := (r "TARGETID" : Nat)
  pix _ := 0
  reader l := .ok (l.map (fun r => ⟨⟨(r "TARGETID" : Nat), [], [], [], []⟩, 5,
    Spectrum.blank 2 1 [("b", [3700, 3701])] [("b", [1, 2])] [("b", [1, 3])] []⟩))
  smoothing := 8
  argsort := argsortStable
  outdir := true
  byHpx := true
  niter := 5

/-- The spectra in units which depend on the target. -/
noncomputable def c90Reader (l : List (Row Nat)) : Except Err (List (ReadSpec ℝ)) :=
  .ok (l.map (fun r => ⟨⟨(r "TARGETID" : Nat), [], [], [], []⟩, 5, rescale ((r "TARGETID" : Nat) + 1) 0
    (Spectrum.blank 2 1 [("b", [3700, 3701])] [("b", [1, 2])] [("b", [1, 3])] [])⟩))

/-- A variance fitter which uses the deltas. -/
noncomputable def c90Var : FitterFns (FullState ℝ) (Spectrum ℝ) (StackSums ℝ) ℝ (List ℝ) :=
  { fitOne := fun _ s => s, valid := fun _ => true, stack := fun _ _ => ⟨[], [], [], []⟩,
    addR := fun _ => ⟨[], [], [], []⟩, meanUpd := fun g _ => (g, true)
    varAcc := (fun _ _ l => ((l.map varInput).flatten.flatten.map (fun p => p.2.1 ^ 2)).sum), addQ := List.sum
    varUpd := fun g q => { g with varlss := fun _ => max q 0 }, newVar := id, normalize := fun _ s => s
    etaCalib := fun _ s => s, dataCont := (·.cont)
    dataFlux := (·.stack.fp), dataFluxRf := (·.stack.fpRf), dataVar := fun _ => [], dataStats := fun _ => [] }

/-- All conditions of `C90_run_partial` are met, and those of `C90_fit_partial`. -/
example : SqrtScales c90Cfg.sel.sqrt ∧ c90Cfg.sel.coaddBefore = true ∧
    (∀ eta, c90Cfg.sel.eta = some eta → ∀ w, 0 < eta w) ∧ SmoothScales c90Cfg.sel.smooth ∧
    (∀ l p, ∀ v ∈ c90Cfg.sel.smooth l p, 0 ≤ v) ∧ c90Cfg.fit.residual = true ∧
    (∀ a b : ℝ, 0 < a → 0 < b → c90Cfg.fit.log (a * b) = c90Cfg.fit.log a + c90Cfg.fit.log b) ∧
    FindsMinimum c90Cfg.fit.minimize ∧ SeesDeltas c90Var ∧ (∀ g q, GoodVar g → GoodVar (c90Var.varUpd g q)) ∧
    (∀ q, SameResult (List.Forall₂ ReadUnits) (c90Cfg.reader q) (c90Reader q)) ∧
    (∀ q l, c90Cfg.reader q = .ok l → ∀ x ∈ l, ReadNonneg x) ∧
    (∀ q l, c90Cfg.reader q = .ok l → ∀ x ∈ l, NoReso x.spec) := by
  have hS := C90_smooth c90_sqrt (median := fun l => l.sum / l.length) (smooth := fun l _ => l)
    (fun k l _ => by simp only [List.length_map]; rw [List.sum_map_mul_left, List.map_id']; ring) (fun k l p _ => rfl)
    (14826 / 10000) (7 / 2)
  refine ⟨c90_sqrt, rfl, ?_, hS.1, hS.2, rfl, c90_log, exactMin_finds, ?_, ?_, ?_, ?_, ?_⟩
  · rintro eta h
    cases h
    intro w
    norm_num
  · intro rank g l l' h
    change ((l.map varInput).flatten.flatten.map _).sum = ((l'.map varInput).flatten.flatten.map _).sum
    rw [h]
  · intro g q hg w
    exact ⟨le_max_right _ _, (hg w).2⟩
  · intro q
    exact forall₂_map_any (fun r => ⟨rfl, rfl, _, 0, by positivity, rfl⟩) q
  · intro q l h x hx
    cases h
    obtain ⟨r, -, rfl⟩ := List.mem_map.mp hx
    refine ⟨rfl, fun a ha v hv => ?_⟩
    change a ∈ [("b", [(1 : ℝ), 3])] at ha
    rw [List.mem_singleton.mp ha] at hv
    simp only [List.mem_cons, List.not_mem_nil, or_false] at hv
    rcases hv with rfl | rfl <;> norm_num
  · intro q l h x hx
    cases h
    obtain ⟨r, -, rfl⟩ := List.mem_map.mp hx
    exact ⟨rfl, rfl, le_rfl, rfl⟩

/-- A case of `C90_cost`: fluxes a thousand times as large. -/
example (m : List ℝ) :
    let s : Spectrum ℝ := { Spectrum.blank 2 1 [] [] [] [] with
      fwave := [("b", [3600, 3601])], fflux := [("b", [6, 3])], fivar := [("b", [1, 4])], ivarSm := none, weight := none }
    let cost := piccaCost Real.log (fun _ => 1) (fun _ => 1) (fun _ => 1 / 10) (fun _ => 1) 1040 1
    (∀ x : List ℝ, x.length = m.length → cost s m ≤ cost s x) ↔
      ∀ x : List ℝ, x.length = m.length → cost (rescale 1000 0 s) (m.map (1000 * ·)) ≤ cost (rescale 1000 0 s) x := by
  intro s cost
  refine C90_cost c90_log (by norm_num) 0 _ _ _ _ (fun w => ⟨by norm_num, by norm_num⟩) 1040 1 s ?_ m
  intro a ha v hv
  replace ha : a ∈ [("b", [(1 : ℝ), 4])] := ha
  rw [List.mem_singleton.mp ha] at hv
  simp only [List.mem_cons, List.not_mem_nil, or_false] at hv
  rcases hv with rfl | rfl <;> norm_num

end Verif.Props
