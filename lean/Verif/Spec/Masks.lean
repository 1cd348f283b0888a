import Verif.Spec.Spectrum
import Verif.Model.Masks

/-!
# Specification vocabulary for masks
-/

namespace Verif.Spec
open Verif.Np Verif.Model

variable {K : Type} [Field K] [LinearOrder K]

/-- The values `y` with zero where the wavelength satisfies `p`. -/
def maskedAt (p : K → Prop) [DecidablePred p] (wave y : List K) : List K :=
  List.zipWith (fun w x => if p w then 0 else x) wave y

/-- A wavelength is in one of the ranges of a sky mask (upper limit excluded), in the observed frame or
in the rest frame of a quasar at redshift `z`. -/
def SkyMasked (lines : List (SkyLine K)) (z w : K) : Prop :=
  ∃ l ∈ lines, (l.frame = "OBS" ∧ l.wmin ≤ w ∧ w < l.wmax) ∨
    (l.frame = "RF" ∧ l.wmin * (1 + z) ≤ w ∧ w < l.wmax * (1 + z))

instance (lines : List (SkyLine K)) (z w : K) : Decidable (SkyMasked lines z w) := by
  unfold SkyMasked; infer_instance

/-- Observed wavelength of a line at rest-frame wavelength `l` of gas that leaves a quasar at redshift
`z` with velocity `v` towards us. -/
def shifted (z l v : K) : K := l * (1 + z) * (1 - v / (299792458 / 1000))

/-- The velocity pairs (minimum and maximum) in a catalog row. -/
def velocityPairs (row : MaskRow K) : List (K × K) :=
  (row.vmin450 ++ row.vmin2000).zip (row.vmax450 ++ row.vmax2000)

/-- Rest-frame wavelengths (in angstrom) at which broad absorption is expected, with the ion. -/
def ionLines : List (String × K) :=
  [("CIV", 1549), ("SiIV", 1403), ("SiIV", 1394), ("NV", 124081 / 100), ("Lya", 12161 / 10), ("CIII", 1175),
    ("PV", 1128), ("PV", 1117), ("SIV", 1074), ("SIV", 1062), ("OI", 1039), ("OVI", 1037), ("OIV", 1031),
    ("Lyb", 10257 / 10), ("NIII", 9899 / 10), ("CIII", 977), ("Ly3", 9725 / 10), ("Ly4", 9497 / 10)]

/-- A wavelength is between the shifted positions of a line for a pair of positive velocities. -/
def BalMasked (row : MaskRow K) (z w : K) : Prop :=
  ∃ l ∈ (ionLines : List (String × K)), ∃ p ∈ velocityPairs row, 0 < p.1 ∧ 0 < p.2 ∧
    ((shifted z l.2 p.2 ≤ w ∧ w < shifted z l.2 p.1) ∨ (shifted z l.2 p.1 ≤ w ∧ w < shifted z l.2 p.2))

instance (row : MaskRow K) (z w : K) : Decidable (BalMasked row z w) := by
  unfold BalMasked; infer_instance

/-- Transmission of the DLAs of target `id` at an observed wavelength: the product over all its rows in
the catalog, and one from the Lya line of the quasar on. -/
def transmission (dlaFlux : K → K → K → K) (cat : List (DlaRow K)) (id : Int) (z w : K) : K :=
  if w < (1 + z) * (121567 / 100) then
    ((cat.filter (fun r => decide (r.targetid = id))).map (fun r => dlaFlux w r.z r.nhi)).prod
  else 1

/-- Flux and ivar of a pixel after correction by the transmission `t`. -/
def corrected (limit t f v : K) : K × K := if t < limit then (0, 0) else (f / t, v * t ^ 2)

/-- Operations on the forest of a spectrum. -/
inductive ForestOp (K : Type)
  | region (w1 w2 lya1 lya2 : K)
  | dropShort (lya1 lya2 skip : K)
  | dropArm (arm : String)
  | removeNonforest
  | smooth (size : K)
  | masks (row : MaskRow K) (maskers : List (Masker K))

/-- One operation. `sm` is the smoother, `sqrt` and `eps` parameters of `set_forest_region`, `dlaFlux` the
transmission of one DLA. -/
def ForestOp.run [FloorRing K] (sqrt : K → K) (eps : K) (sm : List K → K → List K)
    (dlaFlux : K → K → K → K) (s : Spectrum K) : ForestOp K → Spectrum K
  | .region w1 w2 lya1 lya2 => s.setForestRegion sqrt eps w1 w2 lya1 lya2
  | .dropShort lya1 lya2 skip => s.dropShortArms lya1 lya2 skip
  | .dropArm arm => s.dropArm arm
  | .removeNonforest => s.removeNonforestPixels
  | .smooth size => s.setSmoothForestivar sm size
  | .masks row maskers => applyMasks dlaFlux row maskers s

end Verif.Spec
