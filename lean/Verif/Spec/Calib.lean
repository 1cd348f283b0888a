import Verif.Model.Calib
import Mathlib.Algebra.Order.Group.Abs

/-!
# Specification of the calibration stack
-/

namespace Verif.Spec
open Verif.Model

variable {K : Type} [Field K] [LinearOrder K]

/-- The pixels of a delta are on a grid of spacing `dwave` and none is halfway between two pixels of the grid that
starts at `w1`. -/
def OnGrid (w1 dwave : K) (d : CalDelta K) : Prop :=
  ∃ (x0 : K) (m : Nat), (∀ k : Int, x0 ≠ k + 1 / 2) ∧
    d.wave = (List.range m).map (fun i : Nat => w1 + (x0 + (i : K)) * dwave)

/-- Wavelength, delta and weight of the pixels of these deltas that are nearest to pixel `j` of the grid of `w1`. -/
def pixelsAt (w1 dwave : K) (j : Nat) (deltas : List (CalDelta K)) : List (K × K × K) :=
  (deltas.flatMap (fun d => d.wave.zip (d.delta.zip d.weight))).filter
    (fun p => decide (|p.1 - (w1 + (j : K) * dwave)| < dwave / 2))

/-- The weighted mean of `1 + delta`, 0 without weight. -/
def weightedFlux (l : List (K × K × K)) : K :=
  if 0 < (l.map (fun p => p.2.2)).sum then
    (l.map (fun p => (1 + p.2.1) * p.2.2)).sum / (l.map (fun p => p.2.2)).sum
  else 0

end Verif.Spec
