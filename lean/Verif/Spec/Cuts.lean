import Verif.Model.Select

/-!
# Specification vocabulary for cuts
-/

namespace Verif.Spec
open Verif.Np Verif.Model

/-- The same options with other cuts. -/
def withCuts {K : Type} (C : SelectCfg K) (minRsnr minSnr skip : K) : SelectCfg K :=
  { C with minRsnr := minRsnr, minSnr := minSnr, skip := skip }

/-- The number of good pixels of the forest, over all arms. -/
def numGoodPixels {K : Type} [Field K] [LinearOrder K] (s : Spectrum K) : Nat :=
  ((s.fivar.flatMap (fun a => a.2)).filter (fun v => decide (0 < v))).length

/-- A spectrum at the end of the selection meets the cuts: `rsnr`, the effective signal-to-noise from that of the arms,
and (unless `skip` is zero) more than the fraction `skip` of the pixels expected in the forest. -/
def MeetsCuts {K : Type} [Field K] [LinearOrder K] (C : SelectCfg K) (minRsnr minSnr skip : K) (t : ReadSpec K) : Prop :=
  minRsnr ≤ t.rsnr ∧
  minSnr ≤ (t.spec.meanSnr.map (fun a => a.2 ^ 3)).sum / (C.eps8 + (t.spec.meanSnr.map (fun a => a.2 ^ 2)).sum) ∧
  (skip = 0 ∨ skip * ((1 + t.spec.z) * (C.forestW2 - C.forestW1) / t.spec.dwave) < (numGoodPixels t.spec : K))

instance {K : Type} [Field K] [LinearOrder K] (C : SelectCfg K) (r s k : K) (t : ReadSpec K) :
    Decidable (MeetsCuts C r s k t) := by unfold MeetsCuts; infer_instance

/-- Every survey kept with `ks'` is kept with `ks`. -/
def KeepsMore {Val : Type} (ks ks' : Option (List Val)) : Prop :=
  ∀ l, ks = some l → ∃ l', ks' = some l' ∧ ∀ s ∈ l', s ∈ l

end Verif.Spec
