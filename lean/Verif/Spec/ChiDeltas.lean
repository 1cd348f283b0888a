import Verif.Model.Delta

/-! Specification of the chi square of a quasar as seen in its deltas. -/

namespace Verif.Spec
open Verif.Np Verif.Model

variable {K : Type} [Field K]

/-- The sum of the weights times the squared deltas of a table that was read. -/
def deltaChi2 (d : Delta K) : K := (List.zipWith (fun w x => w * x ^ 2) d.weight d.delta).sum

/-- A spectrum with a continuum as it should be: the arrays of an arm have the length of its wavelengths, the
continuum is nowhere zero, pixels without ivar have no weight, and an arm with mean signal-to-noise zero has no
weight at all. -/
structure ChiReady (s : Spectrum K) : Prop where
  flux : ∀ x ∈ s.fwave, (s.fflux.arr x.1).length = x.2.length
  ivar : ∀ x ∈ s.fwave, (s.fivar.arr x.1).length = x.2.length
  weight : ∀ x ∈ s.fwave, (s.fweight.arr x.1).length = x.2.length
  cont : ∀ x ∈ s.fwave, (s.cont.arr x.1).length = x.2.length
  nonzero : ∀ x ∈ s.fwave, ∀ c ∈ s.cont.arr x.1, c ≠ 0
  masked : ∀ x ∈ s.fwave, ∀ (i : Nat) (p : K), (s.fivar.arr x.1)[i]? = some 0 → (s.fweight.arr x.1)[i]? = some p →
    p = 0
  noise : ∀ x ∈ s.fwave, s.meanSnr.lookup x.1 = some 0 → ∀ p ∈ s.fweight.arr x.1, p = 0

end Verif.Spec
