import Verif.Model.VarLss

/-!
# Specification: bins of the variance statistics
-/

namespace Verif.Spec
open Verif.Model

variable {K : Type} [Field K] [LinearOrder K]

/-- Reasonable settings: a wavelength range divided into at least one bin and increasing positive edges of the
inverse variance bins. -/
structure GoodBins (c : VarCfg K) : Prop where
  range : c.w1 < c.w2
  nw_pos : 0 < c.nw
  length : c.edges.length = c.nv + 1
  sorted : c.edges.Pairwise (· < ·)
  pos : ∀ e ∈ c.edges, 0 < e

/-- The pixel is in wavelength bin `iw` (of `nw` equal bins between `w1` and `w2`) and in variance bin `iv`. -/
def InBin (c : VarCfg K) (iw iv : Nat) (p : VPix K) : Prop :=
  (c.w1 + iw * ((c.w2 - c.w1) / c.nw) ≤ p.wave ∧ p.wave < c.w1 + (iw + 1) * ((c.w2 - c.w1) / c.nw)) ∧
    ∃ lo hi, c.edges[iv]? = some lo ∧ c.edges[iv + 1]? = some hi ∧ lo < p.ivar ∧ p.ivar ≤ hi

open Classical in
/-- The pixels of a list that are in a bin. -/
noncomputable def inBin (c : VarCfg K) (iw iv : Nat) (l : List (VPix K)) : List (VPix K) :=
  l.filter (fun p => decide (InBin c iw iv p))

open Classical in
/-- The number of spectra with a pixel in a bin. -/
noncomputable def spectraIn (c : VarCfg K) (iw iv : Nat) (ls : List (List (VPix K))) : Nat :=
  ls.countP (fun l => decide (∃ p ∈ l, InBin c iw iv p))

end Verif.Spec
