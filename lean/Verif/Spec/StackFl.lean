import Verif.Model.StackFl
import Verif.Spec.Stack

/-!
# Specification: stacks of spectra with special values
-/

namespace Verif.Spec
open Verif.Np Verif.Model

variable {K : Type} [Field K] [LinearOrder K]

/-- A forest pixel with numbers only. -/
structure NPix (K : Type) where
  wave : K
  flux : K
  ivar : K
  cont : K

/-- The same pixel for the code. -/
def NPix.fl (p : NPix K) : FlPix K := { wave := p.wave, flux := .fin p.flux, ivar := .fin p.ivar, cont := .fin p.cont }

/-- The weight of a pixel in the stack: inverse of the total variance of flux / continuum. -/
def NPix.w (varlss eta : K → K) (p : NPix K) : K :=
  p.ivar / (eta p.wave + p.ivar * (varlss p.wave * p.cont ^ 2)) * p.cont ^ 2

/-- A spectrum with numbers only: redshift and the pixels of its arms. -/
abbrev NSpec (K : Type) := K × List (List (NPix K))

/-- The same spectrum for the code. -/
def flSpec (s : NSpec K) : FlSpec K := { z := s.1, arms := s.2.map (fun a => a.map NPix.fl) }

/-- The pixels of all spectra with numbers only, with the redshifts. -/
def numPixels (l : List (NSpec K)) : List (K × NPix K) := l.flatMap (fun s => s.2.flatten.map (fun p => (s.1, p)))

/-- The pixels of all spectra, with the redshifts. -/
def flPixels (l : List (FlSpec K)) : List (K × FlPix K) := l.flatMap (fun s => s.arms.flatten.map (fun p => (s.z, p)))

end Verif.Spec
