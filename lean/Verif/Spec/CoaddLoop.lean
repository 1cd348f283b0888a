import Verif.Spec.CoaddWhen
import Verif.Model.FullFit

/-!
# Specification vocabulary for the whole fit with and without coadded arms
-/

namespace Verif.Spec
open Verif.Model

variable {K : Type} [Field K] [LinearOrder K]

/-- What is known of a pixel after the fit. -/
structure PixData (K : Type) where
  wave : K
  flux : K
  ivar : K
  weight : K
  cont : K
  deriving DecidableEq

/-- The pixels of an arm. -/
def armData (s : Spectrum K) (x : String × List K) : List (PixData K) :=
  ((x.2.zip (s.fflux.arr x.1)).zip ((s.fivar.arr x.1).zip ((s.fweight.arr x.1).zip (s.cont.arr x.1)))).map
    (fun p => ⟨p.1.1, p.1.2, p.2.1, p.2.2.1, p.2.2.2⟩)

/-- The pixels with positive inverse variance, of all arms. -/
def goodData (s : Spectrum K) : List (PixData K) :=
  (s.fwave.flatMap (armData s)).filter (fun p => decide (0 < p.ivar))

/-- Both spectra are valid or none, and if so they have the same good pixels, in whatever arms. -/
def SamePixels (s t : Spectrum K) : Prop :=
  s.z = t.z ∧ s.valid = t.valid ∧ (s.valid = true → (goodData s).Perm (goodData t))

/-- The arms lie on one grid without gap, no two good pixels are in one cell, and all pixels are inside the bins of the
stacks. -/
def DisjointArms [FloorRing K] (C : FullCfg K) (u : Spectrum K) : Prop :=
  BeforeFit u ∧ (∀ a ∈ u.fwave, Stacker.fits C.obs a.2 = true ∧ Stacker.fits C.rf (a.2.map (fun w => w / (1 + u.z))) = true) ∧
    ∃ (lo hi : K) (n : Nat), OnCommonGrid u lo hi n ∧ ∀ k ≤ n, armsCell u lo k ≠ [] ∧ goodInCell u lo k ≤ 1

/-- `t` is `u` with coadded arms. -/
def IsCoaddOf [FloorRing K] (u t : Spectrum K) : Prop :=
  ∃ (sqrt : K → K) (smooth : List K → K → List K) (junk : Nat → K) (nan eps : K) (varlss eta : K → K),
    u.coaddArmsForest sqrt smooth junk nan eps varlss eta = .ok t

/-- What the variance fitter adds up depends on the good pixels only. -/
def SeesPixels [FloorRing K] {Q D : Type} (P : FitterFns (FullState K) (Spectrum K) (StackSums K) Q D) : Prop :=
  ∀ rank g (l l' : List (Spectrum K)), List.Forall₂ SamePixels l l' → P.varAcc rank g l = P.varAcc rank g l'

end Verif.Spec
