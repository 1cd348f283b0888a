import Verif.Model.Stack
import Verif.Spec.Spectrum

/-!
# Specification: stacks
-/

namespace Verif.Spec
open Verif.Np Verif.Model

variable {K : Type} [Field K] [LinearOrder K]

/-- The wavelength is in the `k`-th of `n` equal cells between `w1` and `w2`. -/
def InStackCell (w1 w2 : K) (n k : Nat) (w : K) : Prop :=
  w1 + k * ((w2 - w1) / n) ≤ w ∧ w < w1 + (k + 1) * ((w2 - w1) / n)

instance (w1 w2 : K) (n k : Nat) (w : K) : Decidable (InStackCell w1 w2 n k w) := by unfold InStackCell; infer_instance

/-- A forest pixel of a quasar: redshift, wavelength, flux, weight and continuum. -/
structure FPix (K : Type) where
  z : K
  wave : K
  flux : K
  weight : K
  cont : K

/-- The forest pixels of the spectra with a valid continuum, of all arms. -/
def forestPixels (l : List (Spectrum K)) : List (FPix K) :=
  (l.filter (·.valid)).flatMap (fun s => s.fwave.flatMap (fun x =>
    ((x.2.zip (s.fflux.arr x.1)).zip ((s.fweight.arr x.1).zip (s.cont.arr x.1))).map
      (fun p => { z := s.z, wave := p.1.1, flux := p.1.2, weight := p.2.1, cont := p.2.2 })))

/-- Weighted mean; zero if the weights do not sum up to a positive number. -/
def wmean {α : Type} (value weight : α → K) (l : List α) : K :=
  if 0 < (l.map weight).sum then (l.map (fun p => weight p * value p)).sum / (l.map weight).sum else 0

end Verif.Spec
