import Verif.Model.Coadd

/-!
# Specification vocabulary for coadding
-/

namespace Verif.Spec
open Verif.Model

variable {K : Type} [Field K] [LinearOrder K]

/-- A wavelength belongs to cell `k` of the grid that starts at `minWave`: nearest from below, with a
tolerance of a tenth of the spacing. -/
def InCell (minWave dwave : K) (k : Nat) (w : K) : Prop :=
  minWave + ((k : K) - 1 / 10) * dwave ≤ w ∧ w < minWave + ((k : K) + 9 / 10) * dwave

instance (minWave dwave : K) (k : Nat) (w : K) : Decidable (InCell minWave dwave k w) := by
  unfold InCell; infer_instance

/-- The pixels of all arms in cell `k`. -/
def cell (minWave dwave : K) (arms : List (List (Pix K))) (k : Nat) : List (Pix K) :=
  arms.flatten.filter (fun p => decide (InCell minWave dwave k p.wave))

/-- No arm has two pixels in one cell. -/
def OnePerCell (minWave dwave : K) (arms : List (List (Pix K))) : Prop :=
  ∀ a ∈ arms, a.Pairwise (fun p q => ∀ k, InCell minWave dwave k p.wave →
    ¬ InCell minWave dwave k q.wave)

/-- The sum of the weights. -/
def sumWeight (l : List (Pix K)) : K := (l.map (fun p => p.weight)).sum

/-- The weighted mean of the flux. -/
def meanFlux (l : List (Pix K)) : K := (l.map (fun p => p.weight * p.flux)).sum / sumWeight l

/-- The variance of the weighted mean of independent pixels with variance `1 / ivar`. -/
def meanVar (l : List (Pix K)) : K :=
  ((l.filter (fun p => decide (0 < p.ivar))).map (fun p => p.weight ^ 2 / p.ivar)).sum /
    sumWeight l ^ 2

/-- The last value stored for a wavelength in cell `k`. -/
def lastIn (minWave dwave : K) (l : List (K × K)) (k : Nat) : Option K :=
  (l.filter (fun p => decide (InCell minWave dwave k p.1))).getLast?.map Prod.snd

/-- Rows of zeros above and below, as many on both sides as fit into `m` rows: row `r`. -/
def centredRow (m npix : Nat) (rows : List (List K)) (r : Nat) : List K :=
  if r < (m - rows.length) / 2 then List.replicate npix 0
  else rows.getD (r - (m - rows.length) / 2) (List.replicate npix 0)

/-- The values of one row of the resolution of an arm as the flux of its pixels. -/
def resoPix (eps : K) (m r : Nat) (a : ResoArm K) : List (Pix K) :=
  List.zipWith (fun x y => ⟨x.1, if x.2 = 0 then eps else x.2, y, 0⟩)
    (a.wave.zip a.weight) (centredRow m a.wave.length a.rows r)

/-- All wavelengths of a set of arms. -/
def allWaves (d : Np.Dict (List K)) : Set K := {w | ∃ x ∈ d, w ∈ x.2}

/-- The forest of a spectrum can be coadded: the arrays of every arm have the same length, its
wavelengths increase, weights are not negative, and a pixel with positive weight has positive ivar.
The resolution matrices have rows of that length, and their numbers of rows are all even or all
odd. -/
structure ForestOk [FloorRing K] (s : Spectrum K) : Prop where
  dwave : 0 < s.dwave
  nodup : s.fwave.keys.Nodup
  sorted : ∀ x ∈ s.fwave, x.2 ≠ [] ∧ x.2.Pairwise (· < ·)
  flux : ∀ x ∈ s.fwave, (s.fflux.arr x.1).length = x.2.length
  ivar : ∀ x ∈ s.fwave, (s.fivar.arr x.1).length = x.2.length
  weight : ∀ x ∈ s.fwave, (s.fweight.arr x.1).length = x.2.length
  nonneg : ∀ x ∈ s.fwave, ∀ p ∈ s.forestPix x.1, 0 ≤ p.weight ∧ (0 < p.weight → 0 < p.ivar)
  resoArm : ∀ r ∈ s.freso, ∃ w, (r.1, w) ∈ s.fwave ∧ ∀ row ∈ r.2, row.length = w.length
  resoParity : ∀ r ∈ s.freso, ∀ r' ∈ s.freso, r.2.length % 2 = r'.2.length % 2

/-- The wavelengths lie on the grid `w0 + j * dwave`, one after the other, up to a twentieth of the
spacing (rounding errors); the first one is number `j`. -/
def OnGridFrom (w0 dwave : K) (j : Nat) (wave : List K) : Prop :=
  ∀ i w, wave[i]? = some w → |w - (w0 + ((j + i : Nat) : K) * dwave)| < dwave / 20

end Verif.Spec
