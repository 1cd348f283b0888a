import Verif.Model.CalibWhole
import Verif.Model.WrittenRun

/-!
# `qsonic-calib` on the output directory of `qsonic-fit`

The delta files that the ranks of a run have written, and how `qsonic-calib` reads them.
-/

namespace Verif.Model
open Verif Verif.Np

variable {Val K : Type} [Field K] [LinearOrder K]

/-- py/qsonic/io.py:269-270: the name of a file, without the directory; `text` is the text of a pixel. -/
def DeltaName.file (text : Val → String) : DeltaName Val → String
  | .pix p => "delta-" ++ text p ++ ".fits"
  | .rank r => "delta-" ++ Nat.repr r ++ ".fits"

/-- The files that a job has written. Simplification: the directory has no other delta files, and files do not replace
each other (names do not occur twice, C113). py/qsonic/io.py:226-275. -/
def writtenFiles (text : Val → String) (outs : List (WrittenOut Val K)) : Dict (List (Hdu K)) :=
  (outs.flatMap (·.files)).map (fun f => (f.1.file text, f.2))

/-- What `qsonic-calib` uses of a delta (py/qsonic/scripts/qsonic_calib.py:177, 183-188, 219-230). Simplification:
`DELTA_LAMBDA` is
required of every delta, the code needs it in the first only. -/
def Delta.forCalib (d : Delta K) : Except Err (CalDelta K) :=
  match d.targetid, d.meanSnr, d.header.lookup "DELTA_LAMBDA" with
  | .int i, .num s, some (.num w) => .ok ⟨i, s, w, d.wave, d.delta, d.ivar, d.weight⟩
  | _, _, _ => .error .keyError

/-- py/qsonic/io.py:202-223 `read_deltas` of a file in a directory. -/
def readForCalib (pick : List String → Option String) (pow10 : K → K) (dir : Dict (List (Hdu K))) (fname : String) :
    Except Err (List (CalDelta K)) := do
  let ds ← readDeltas pick pow10 (dir.lookup fname)
  ds.mapM Delta.forCalib

end Verif.Model
