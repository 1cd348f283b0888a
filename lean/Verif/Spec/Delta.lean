import Verif.Model.Delta
import Verif.Spec.Coadd

/-!
# Specification vocabulary for deltas
-/

namespace Verif.Spec
open Verif.Model

variable {K : Type} [Field K] [LinearOrder K]

/-- The pixel at grid number `j` of an array whose first pixel has number `j0`. -/
def pixAt {α : Type} (j0 : Nat) (l : List α) (j : Nat) : Option α :=
  if j0 ≤ j then l[j - j0]? else none

/-- The sum of the weights of some pixels. -/
def dweight (l : List (DPix K)) : K := (l.map (fun p => p.weight)).sum

/-- The weighted mean of a quantity. -/
def dmean (f : DPix K → K) (l : List (DPix K)) : K :=
  (l.map (fun p => p.weight * f p)).sum / dweight l

/-- The variance of the weighted mean delta, of pixels with variance `1 / ivar`. -/
def dmeanVar (l : List (DPix K)) : K :=
  ((l.filter (fun p => decide (0 < p.weight))).map (fun p => p.weight ^ 2 / p.ivar)).sum /
    dweight l ^ 2

/-- The variance added to `1 / ivar` in the weight of a pixel. -/
def addedVar (p : DPix K) : K := 1 / p.weight - 1 / p.ivar

/-- The arrays of a delta belong together: same lengths, wavelengths on the grid `w0 + j * dwave` from
number `j` on, weights not negative, positive weight only with positive ivar. -/
structure DeltaOk (w0 dwave : K) (j : Nat) (d : Delta K) : Prop where
  nonempty : d.wave ≠ []
  sorted : d.wave.Pairwise (· < ·)
  grid : OnGridFrom w0 dwave j d.wave
  delta : d.delta.length = d.wave.length
  ivar : d.ivar.length = d.wave.length
  weight : d.weight.length = d.wave.length
  cont : d.cont.length = d.wave.length
  nonneg : ∀ p ∈ d.pix, 0 ≤ p.weight ∧ (0 < p.weight → 0 < p.ivar)

/-- The pixels of two deltas at grid number `j`. -/
def both (j1 j2 : Nat) (d e : Delta K) (j : Nat) : List (DPix K) :=
  (pixAt j1 d.pix j).toList ++ (pixAt j2 e.pix j).toList

/-- The pixels of several deltas, each with the grid number of its first pixel, at grid number `j`. -/
def allAt (l : List (Nat × Delta K)) (j : Nat) : List (DPix K) :=
  l.flatMap (fun x => (pixAt x.1 x.2.pix j).toList)

/-- The resolution of a delta as an arm. -/
def resoArm (d : Delta K) (rows : List (List K)) : ResoArm K := ⟨d.wave, d.weight, rows⟩

/-- The pixels of two resolution matrices in row `r` at grid number `j`. -/
def bothReso (eps : K) (m r : Nat) (j1 j2 : Nat) (d e : ResoArm K) (j : Nat) : List (Pix K) :=
  (pixAt j1 (resoPix eps m r d) j).toList ++ (pixAt j2 (resoPix eps m r e) j).toList

/-- The average of pixels whose weight is their ivar: weighted means, the ivars add up. -/
def ivarMean (l : List (DPix K)) : DPix K :=
  ⟨dmean (fun p => p.delta) l, dweight l, dweight l, dmean (fun p => p.cont) l⟩

/-- The average, if there are pixels. -/
def agg (l : List (DPix K)) : Option (DPix K) := if l = [] then none else some (ivarMean l)

/-- A delta without masked pixels and without added variance, which covers grid number `m`; without
resolution. -/
structure GoodDelta (w0 dwave : K) (m j : Nat) (d : Delta K) : Prop where
  ok : DeltaOk w0 dwave j d
  good : ∀ p ∈ d.pix, 0 < p.ivar ∧ p.weight = p.ivar
  reso : d.reso = none
  shared : j ≤ m ∧ m < j + d.wave.length

/-- `set.pop()` of a set that is not empty gives one of its elements. -/
structure IsPick (pick : List String → Option String) : Prop where
  mem : ∀ {l x}, pick l = .some x → x ∈ l
  some : ∀ {l}, l ≠ [] → ∃ x, pick l = .some x

/-- The analysis must be blinded: data, in the Lya forest, with spectra after the early data release. -/
def MustBlind (lya : K) (maxlastnight : Nat) (a : BlindArgs K) : Prop :=
  a.mockAnalysis = false ∧ a.forestW1 ≤ lya ∧ 20210514 ≤ maxlastnight

instance (lya : K) (n : Nat) (a : BlindArgs K) : Decidable (MustBlind lya n a) := by
  unfold MustBlind; infer_instance

/-- A delta that was read from a file, possibly coadded with others. -/
inductive Loaded [FloorRing K] (pick : List String → Option String) (pow10 sqrt : K → K)
    (nan eps : K) : Delta K → Prop
  | read {h : Hdu K} {d : Delta K} (e : Delta.read pick pow10 h = .ok d) :
      Loaded pick pow10 sqrt nan eps d
  | coadd {w0 dwave : K} {j1 j2 : Nat} {d e t : Delta K} (hd : Loaded pick pow10 sqrt nan eps d)
      (h0 : 0 < dwave) (h1 : DeltaOk w0 dwave j1 d) (h2 : DeltaOk w0 dwave j2 e)
      (ht : d.coadd sqrt nan eps dwave e = .ok t) : Loaded pick pow10 sqrt nan eps t

end Verif.Spec
