import Verif.Model.DeltaFl

/-!
# `Delta.coadd` with NaN and infinities

One pixel of the coadded delta from the rows of the two deltas in its cell, and the signal to noise, on floating point
special values. Which rows are in a cell is in Model/Delta.lean.
-/

namespace Verif.Model
open Verif.Np

variable {K : Type} [Field K] [LinearOrder K]

namespace FlRow

/-- py/qsonic/spectrum.py:1015-1017: `var`. -/
def var (r : FlRow K) : Fl K :=
  if Fl.lt (.fin 0) r.weight && Fl.lt (.fin 0) r.ivar then Fl.div (.fin 1) r.ivar else .fin 0

/-- py/qsonic/spectrum.py:1023: `coadd_norm` in the cell. -/
def coNorm (l : List (FlRow K)) : Fl K := Fl.sum (l.map (fun r => r.weight))

/-- py/qsonic/spectrum.py:1025-1028: `x[w] /= coadd_norm[w]` with `w = coadd_norm > 0`. -/
def quot (x norm : Fl K) : Fl K := if Fl.lt (.fin 0) norm then Fl.div x norm else x

/-- py/qsonic/spectrum.py:1019, 1026: `coadd_delta` in the cell. -/
def coDelta (l : List (FlRow K)) : Fl K := quot (Fl.sum (l.map (fun r => Fl.mul r.weight r.delta))) (coNorm l)

/-- py/qsonic/spectrum.py:1020, 1027: `coadd_cont` in the cell. -/
def coCont (l : List (FlRow K)) : Fl K := quot (Fl.sum (l.map (fun r => Fl.mul r.weight r.cont))) (coNorm l)

/-- py/qsonic/spectrum.py:1022, 1028: `coadd_lss` in the cell. -/
def coLss (l : List (FlRow K)) : Fl K :=
  quot (Fl.sum (l.map (fun r => Fl.add (.fin 1) (Fl.mul (.fin (-1)) (Fl.mul r.weight r.var))))) (coNorm l)

/-- py/qsonic/spectrum.py:1021, 1029: `coadd_ivar` in the cell. -/
def coIvar (l : List (FlRow K)) : Fl K :=
  let v := Fl.sum (l.map (fun r => Fl.mul (Fl.mul r.weight r.weight) r.var))
  if Fl.lt (.fin 0) (coNorm l) then Fl.div (Fl.mul (coNorm l) (coNorm l)) v else v

/-- py/qsonic/spectrum.py:1034-1038: the row of the coadded delta, `ivar / (1 + ivar * coadd_lss)` is the weight. -/
def coRow (wave : K) (l : List (FlRow K)) : FlRow K :=
  { wave := wave
    delta := coDelta l
    ivar := coIvar l
    weight := Fl.div (coIvar l) (Fl.add (.fin 1) (Fl.mul (coIvar l) (coLss l)))
    cont := coCont l }

/-- py/qsonic/spectrum.py:1040-1041: `mean_snr` of the coadded rows; `sqrt` is the root of numbers. -/
def snr (sqrt : K → K) (l : List (FlRow K)) : Fl K :=
  Fl.div (Fl.sum (l.map (fun r => Fl.mul (Fl.sqrtOf sqrt r.ivar) (Fl.add r.delta (.fin 1)))))
    (.fin ((l.countP (fun r => Fl.lt (.fin 0) r.ivar) : Nat) : K))

end FlRow

end Verif.Model
