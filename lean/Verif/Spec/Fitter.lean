import Verif.Model.Fitter

/-!
# Specification: the iterations of the continuum fit, over all ranks
-/

namespace Verif.Spec
open Verif.Model

variable {G Sp R Q D : Type}

/-- The valid spectra. -/
def validOf (F : FitterFns G Sp R Q D) (l : List Sp) : List Sp := l.filter (fun s => F.valid s)

/-- The sequence of iterations of a job of the ranks `0..n`: before iteration `i + 1` the global functions are
`g i` and rank `r` has the spectra `sp i r`; `conv (i + 1)` says that iteration `i + 1` converged. All spectra are
fit with the same functions; the functions are updated with the sums over all ranks. -/
structure Iterations (F : FitterFns G Sp R Q D) (n : Nat) (hasFitter : Bool) (g : Nat → G) (sp : Nat → Nat → List Sp)
    (conv : Nat → Bool) : Prop where
  fit : ∀ i r, sp (i + 1) r = (sp i r).map (F.fitOne (g i))
  converged : ∀ i, conv (i + 1) = (F.meanUpd (g i) (F.addR ((List.range (n + 1)).map
    (fun r => F.stack (g i) (validOf F (sp (i + 1) r)))))).2
  update : ∀ i, ∃ m, m = (F.meanUpd (g i) (F.addR ((List.range (n + 1)).map
      (fun r => F.stack (g i) (validOf F (sp (i + 1) r)))))).1 ∧
    g (i + 1) = if hasFitter then F.varUpd m (F.addQ ((List.range (n + 1)).map
      (fun r => F.varAcc r m (validOf F (sp (i + 1) r))))) else m

/-- Some spectrum of some rank is valid. -/
def SomeValid (F : FitterFns G Sp R Q D) (n : Nat) (sp : Nat → List Sp) : Prop :=
  ∃ r ≤ n, ∃ s ∈ sp r, F.valid s = true

end Verif.Spec

namespace Verif.Spec
open Verif.Model

/-- The row of the spectrum `s` of rank `rank`. -/
structure IsRow {K : Type} [Zero K] (rank : Nat) (s : ChiSpec K) (row : ChiRow K) : Prop where
  targetid : row.targetid = s.targetid
  z : row.z = s.z
  hpxpixel : row.hpxpixel = s.hpxpixel
  /-- names of the arms, cut after five characters -/
  arms : row.arms.toList = (",".intercalate (s.meanSnr.map Prod.fst)).toList.take 5
  /-- a column of three numbers: those of the arms in their order, then zeros -/
  snr_length : row.meanSnr.length = 3
  snr : ∀ i < 3, row.meanSnr[i]? = some ((s.meanSnr.map Prod.snd)[i]?.getD 0)
  rsnr : row.rsnr = s.rsnr
  rank : row.rank = rank
  valid : row.valid = s.valid
  chi2 : row.chi2 = s.chi2
  dof : row.dof = s.dof
  x : row.x = s.x
  xcov : row.xcov = s.xcov

end Verif.Spec
