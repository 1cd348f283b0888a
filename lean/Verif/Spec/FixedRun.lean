import Verif.Model.FixedRun
import Verif.Spec.WholeRun

/-!
# Specification vocabulary for runs with continua that are not fitted
-/

namespace Verif.Spec
open Verif Verif.Np Verif.Model

variable {Val K : Type} [Field K] [LinearOrder K] [FloorRing K]

/-- `d` is the continuum (first wavelength, step, values) given for the target `t`. In the files of input continua: the
file of its pixel has a first wavelength, and the first row of this TARGETID in FIBERMAP has the number `k`, with the
values of row `k` of CONTINUA. -/
def GivenContinuum : ContSource K → Int → K × K × List K → Prop
  | .input hpx files _, t, d => ∃ (F : ContFile Int K) (k : Nat) (c : List K), files (hpx t) = some F ∧ F.wave1 ≠ 0 ∧
      F.ids[k]? = some t ∧ (∀ j < k, F.ids[j]? ≠ some t) ∧ F.continua[k]? = some c ∧ d = (F.wave1, F.dwave, c)
  | .truth data, t, d => d = data t

/-- Input continua are given at rest wavelengths, true continua at the observed ones. -/
def contWave : ContSource K → K → K → K
  | .input _ _ _, z, w => w / (1 + z)
  | .truth _, _, w => w

/-- Every file of input continua has as many continua as targets, and the sort is a sort. -/
def SourceOk : ContSource K → Prop
  | .input _ files argsort => (∀ p F, files p = some F → F.ids.length = F.continua.length) ∧ ∀ k, IsArgsort k (argsort k)
  | .truth _ => True

/-- Every rank can take part: with input continua every rank needs a spectrum. -/
def FixedIdleOk [LinearOrder Val] (C : FixedCfg Val K) (c : Catalog Val) (f : Val → List (ReadSpec K)) (ranks : Nat) : Prop :=
  match C.source with
  | .input _ _ _ => ranks ≤ (catPixels C.run.tile c).length ∧
      ∀ p ∈ catPixels C.run.tile c, ∃ x ∈ f p, PassesCuts C.run.sel x
  | .truth _ => IdleOk C.run ∨ ranks ≤ (catPixels C.run.tile c).length

end Verif.Spec
