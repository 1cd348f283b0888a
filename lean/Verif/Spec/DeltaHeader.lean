import Verif.Spec.Delta

/-!
# The headers of delta tables
-/

namespace Verif.Spec
open Verif Verif.Model

variable {K : Type} [Field K] [LinearOrder K]

/-- The name of the blinding strategy by the last night of the catalog: none for data that need no blinding (mocks,
forests redward of Lyman-alpha, nights before the main survey), otherwise by the data release. -/
def strategy (lya : K) (night : Nat) (a : BlindArgs K) : String :=
  if ¬ MustBlind lya night a then "none"
  else if 20220801 ≤ night then "desi_y3"
  else if 20210801 ≤ night then "desi_y1"
  else "desi_m2"

/-- What the header of the table of an arm says. -/
structure HeaderOk (id : Ident K) (blinding : String) (rsnr : K) (s : Spectrum K) (arm : String) (h : Hdu K) : Prop where
  los : h.header.lookup "LOS_ID" = some (.int id.targetid)
  target : h.header.lookup "TARGETID" = some (.int id.targetid)
  ra : h.header.lookup "RA" = some (.num id.ra)
  dec : h.header.lookup "DEC" = some (.num id.dec)
  z : h.header.lookup "Z" = some (.num id.z)
  blinding : h.header.lookup "BLINDING" = some (.str blinding)
  grid : h.header.lookup "WAVE_SOLUTION" = some (.str "lin")
  meanSnr : ∃ x, s.meanSnr.lookup arm = some x ∧ h.header.lookup "MEANSNR" = some (.num x)
  rsnr : h.header.lookup "RSNR" = some (.num rsnr)
  dwave : h.header.lookup "DELTA_LAMBDA" = some (.num s.dwave)
  smoothing : h.header.lookup "SMSCALE" = some (.num s.smoothing)
  rest : ∀ k ∈ ["TILEID", "FIBER", "PETAL_LOC", "EXPID", "NIGHT"], h.header.lookup k = id.extra.lookup k
  reso : h.header.lookup "MEANRESO" = none ↔ s.freso = []

end Verif.Spec
