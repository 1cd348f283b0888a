import Verif.Spec.Coadd
import Verif.Spec.Spectrum

/-!
# Specification vocabulary for coadding before and after the fit
-/

namespace Verif.Spec
open Verif.Model

variable {K : Type} [Field K] [LinearOrder K]

/-- The wavelengths of the coadded spectrum: `n + 1` points from `lo` to `hi`. -/
def gridWave (lo hi : K) (n k : Nat) : K := lo + (k : K) * ((hi - lo) / (n : K))

/-- The pixels of all arms in cell `k`. -/
def armsCell (s : Spectrum K) (lo : K) (k : Nat) : List (Pix K) :=
  cell lo s.dwave (s.fwave.map (fun x => s.forestPix x.1)) k

/-- A spectrum before the fit, without smoothing of the inverse variance: no continuum and no weights. -/
structure BeforeFit [FloorRing K] (s : Spectrum K) : Prop where
  ok : ForestOk s
  aligned : Aligned s
  ivarSm : s.ivarSm = none
  weight : s.weight = none
  smoothing : s.smoothing ≤ 0
  cont : s.cont = []

/-- The arms lie on one common grid of wavelengths from `lo` to `hi` with `n + 1` points. -/
structure OnCommonGrid (s : Spectrum K) (lo hi : K) (n : Nat) : Prop where
  least : IsLeast (allWaves s.fwave) lo
  greatest : IsGreatest (allWaves s.fwave) hi
  last : InCell lo s.dwave n hi
  one : OnePerCell lo s.dwave (s.fwave.map (fun x => s.forestPix x.1))
  exact : ∀ w ∈ allWaves s.fwave, ∀ k, InCell lo s.dwave k w → w = gridWave lo hi n k

/-- The number of pixels with positive inverse variance in cell `k`. -/
def goodInCell (s : Spectrum K) (lo : K) (k : Nat) : Nat :=
  ((armsCell s lo k).filter (fun p => decide (0 < p.ivar))).length

/-- Where good pixels of two arms fall into one cell, the variance of large-scale structure is zero. -/
def OverlapOk (s : Spectrum K) (lo hi : K) (n : Nat) (varlss : K → K) : Prop :=
  ∀ k ≤ n, goodInCell s lo k ≤ 1 ∨ varlss (gridWave lo hi n k) = 0

end Verif.Spec
