import Verif.Model.CatalogRun
import Verif.Spec.WholeRun

/-!
# Specification vocabulary for a run with its chi square catalog
-/

namespace Verif.Spec
open Verif.Np Verif.Model

variable {Val K : Type} [LinearOrder Val] [Field K] [LinearOrder K] [FloorRing K]

/-- The row of the spectrum `x`, in terms of what was read: identity and redshift, signal-to-noise of the arms (zero
for missing ones), good pixels of the forest that are not masked minus the number of parameters, and the sizes of the
columns of the fit. -/
structure CatalogRow (C : CatalogCfg Val K) (x : ReadSpec K) (w : ChiRow K) : Prop where
  targetid : w.targetid = x.row.targetid
  hpxpixel : w.hpxpixel = C.pixNum (C.run.pix x.row.targetid)
  z : w.z = x.spec.z
  rsnr : w.rsnr = x.rsnr
  snr : w.meanSnr = inputSnrs C.run.sel x.spec ++ List.replicate (3 - (inputSnrs C.run.sel x.spec).length) 0
  dof : w.dof = ((((inputGood C.run.sel x.spec).filter (fun p => decide (¬ IsMasked C.run.sel x p.1))).length : Nat) : Int) -
    (C.run.fit.order + 1)
  x : w.x.length = C.run.fit.order + 1
  xcov : w.xcov.length = (C.run.fit.order + 1) ^ 2

/-- The row `w` belongs to the delta `d`. -/
structure DeltaRow (d : ReadSpec K) (w : ChiRow K) : Prop where
  targetid : w.targetid = d.row.targetid
  z : w.z = d.spec.z
  rsnr : w.rsnr = d.rsnr
  chi2 : w.chi2 = d.spec.chi2
  valid : d.spec.valid = true

/-- `rows` is the catalog of a run whose ranks end with `outs`, and in which the spectra `sel` are fitted. The root
writes it. It has one row for each of these spectra. The deltas of rank `r` are those of the rows which are valid
and have `MPI_RANK` equal to `r`, in this order. -/
structure CatalogOf (C : CatalogCfg Val K) (sel : List (ReadSpec K)) (outs : List (CatalogOut Val K))
    (rows : List (ChiRow K)) : Prop where
  root : outs.map (fun o => o.table) = some rows :: List.replicate (outs.length - 1) none
  once : ∃ l, l.Perm sel ∧ List.Forall₂ (CatalogRow C) l rows
  deltas : ∀ r o, outs[r]? = some o →
    List.Forall₂ DeltaRow o.out.deltas (rows.filter (fun w => w.valid && decide (w.rank = r)))
  ranks : ∀ w ∈ rows, w.rank < outs.length

end Verif.Spec
