import Verif.Model.Spectrum
import Verif.Np.Round

/-!
# Model of `FluxStacker` (`py/qsonic/picca_continuum.py:1228-1374`) and `stack_spectra` of the continuum models

Arithmetic is exact; in particular a division by zero is not an issue of this model: a continuum that is zero
in a pixel is outside its scope.
-/

namespace Verif.Model
open Verif Verif.Np

variable {K : Type} [Field K] [LinearOrder K]

/-- The bins of one frame: first center, spacing and number of bins. py/qsonic/picca_continuum.py:1272-1289. -/
structure StackGrid (K : Type) where
  x0 : K
  dx : K
  n : Nat
  deriving DecidableEq

/-- py/qsonic/picca_continuum.py:1274-1277 (observed frame) and 260-264 (rest frame): edges from `np.linspace`
with a step close to `dw`, and the centers between them. No bin: `waveobs[0]` raises `IndexError`; a negative
number: `np.linspace` raises `ValueError`. Exact: the last edge is `w2`. -/
def linGrid [FloorRing K] (w1 w2 dw : K) : Except Err (StackGrid K) :=
  let n := pyRound ((w2 - w1) / dw)
  if n + 1 < 0 then .error .valueError
  else if n ≤ 0 then .error .indexError
  else
    let dx := (w2 - w1) / (n.toNat : K)
    .ok { x0 := (w1 + dx + w1) / 2, dx := dx, n := n.toNat }

/-- py/qsonic/picca_continuum.py:1313, 1320: `wave_indx`. -/
def StackGrid.idx [FloorRing K] (g : StackGrid K) (w : K) : Int := truncInt ((w - g.x0) / g.dx + 1 / 2)

/-- What `add` gets for one pixel. py/qsonic/picca_continuum.py:1294-1313. -/
structure SPix (K : Type) where
  wave : K
  waveRf : K
  wflux : K
  wcont : K
  weight : K

/-- `fp += np.bincount(idx, weights=w, minlength=n)`, where all indices are below `n`.
py/qsonic/picca_continuum.py:1315-1325. -/
def binAdd (a : List K) (idx : List Int) (w : List K) : List K :=
  (List.range a.length).map (fun k : Nat => a[k]?.getD 0 +
    (((idx.zip w).filter (fun p => decide (p.1 = (k : Int)))).map Prod.snd).sum)

/-- The object: `fp` and `ep` of `_interp` and of `_interp_rf`. py/qsonic/picca_continuum.py:1272-1289. -/
structure Stacker (K : Type) where
  obs : StackGrid K
  rf : StackGrid K
  fp : List K
  ep : List K
  fpRf : List K
  epRf : List K

namespace Stacker

/-- py/qsonic/picca_continuum.py:1272-1289 `__init__`. -/
def new (obs rf : StackGrid K) : Stacker K :=
  { obs := obs, rf := rf, fp := List.replicate obs.n 1, ep := List.replicate obs.n 0,
    fpRf := List.replicate rf.n 1, epRf := List.replicate rf.n 0 }

/-- py/qsonic/picca_continuum.py:1346-1352 `reset`. -/
def reset (s : Stacker K) : Stacker K :=
  { s with
    fp := s.fp.map (fun _ => 0)
    ep := s.ep.map (fun _ => 0)
    fpRf := s.fpRf.map (fun _ => 0)
    epRf := s.epRf.map (fun _ => 0) }

/-- `np.bincount` and `+=` accept the indices: `np.bincount` raises for a negative one, and a large one makes
its result longer than the array, so that `+=` raises. py/qsonic/picca_continuum.py:1315-1325. -/
def fits [FloorRing K] (g : StackGrid K) (ws : List K) : Bool :=
  ws.all (fun w => decide (0 ≤ g.idx w) && decide (g.idx w < (g.n : Int)))

/-- py/qsonic/picca_continuum.py:1313-1318. -/
def addObs [FloorRing K] (s : Stacker K) (l : List (SPix K)) : Stacker K :=
  let idx := l.map (fun p => s.obs.idx p.wave)
  { s with fp := binAdd s.fp idx (l.map (·.wflux)), ep := binAdd s.ep idx (l.map (·.weight)) }

/-- py/qsonic/picca_continuum.py:1320-1325. -/
def addRf [FloorRing K] (s : Stacker K) (l : List (SPix K)) : Stacker K :=
  let idx := l.map (fun p => s.rf.idx p.waveRf)
  { s with fpRf := binAdd s.fpRf idx (l.map (·.wcont)), epRf := binAdd s.epRf idx (l.map (·.weight)) }

/-- py/qsonic/picca_continuum.py:1294-1325 `add`: the object afterwards and the exception, if any. -/
def add [FloorRing K] (s : Stacker K) (l : List (SPix K)) : Stacker K × Option Err :=
  if fits s.obs (l.map (·.wave)) then
    if fits s.rf (l.map (·.waveRf)) then ((s.addObs l).addRf l, none)
    else (s.addObs l, some .valueError)
  else (s, some .valueError)

/-- `add` for one list of pixels after the other; the first exception ends it.
py/qsonic/picca_continuum.py:1294-1325. -/
def addList [FloorRing K] (s : Stacker K) : List (List (SPix K)) → Stacker K × Option Err
  | [] => (s, none)
  | l :: ls =>
    match s.add l with
    | (s', none) => s'.addList ls
    | (s', some e) => (s', some e)

/-- `comm.Allreduce(MPI.IN_PLACE, a)`: the sum of the arrays of all ranks. py/qsonic/picca_continuum.py:1329-1334. -/
def sumArrays (n : Nat) (as : List (List K)) : List K :=
  (List.range n).map (fun k : Nat => (as.map (fun a => a[k]?.getD 0)).sum)

/-- `fp[w] /= ep[w]; fp[~w] = 0` with `w = ep > 0`. py/qsonic/picca_continuum.py:1336-1344. -/
def divPos (fp ep : List K) : List K := List.zipWith (fun f e => if 0 < e then f / e else 0) fp ep

/-- py/qsonic/picca_continuum.py:1336-1344: after the sums over the ranks. -/
def finish (sqrt : K → K) (s : Stacker K) : Stacker K :=
  { s with
    fp := divPos s.fp s.ep
    fpRf := divPos s.fpRf s.epRf
    epRf := s.epRf.map (fun e => if 0 < e then 1 / sqrt e else e) }

/-- py/qsonic/picca_continuum.py:1327-1344 `calculate`, on all ranks together. -/
def calculate (sqrt : K → K) (ranks : List (Stacker K)) : List (Stacker K) :=
  ranks.map (fun s => finish sqrt { s with
    fp := sumArrays s.obs.n (ranks.map (·.fp))
    ep := sumArrays s.obs.n (ranks.map (·.ep))
    fpRf := sumArrays s.rf.n (ranks.map (·.fpRf))
    epRf := sumArrays s.rf.n (ranks.map (·.epRf)) })

end Stacker

namespace Spectrum

/-- py/qsonic/continuum_models/picca_continuum_model.py:183-190 (`residual`) and
py/qsonic/continuum_models/base_continuum_model.py:20-30: one pixel. -/
def stackPix (residual : Bool) (z w f wt c : K) : SPix K :=
  { wave := w, waveRf := w / (1 + z), wflux := wt * c ^ 2 * f / c,
    wcont := if residual then wt * c ^ 2 * f / c else wt * c ^ 2 * c, weight := wt * c ^ 2 }

/-- What is passed to `add` for an arm. Simplification: arrays of different length are cut to the shorter
(numpy raises). py/qsonic/continuum_models/picca_continuum_model.py:180-190. -/
def stackArm (residual : Bool) (s : Spectrum K) (x : String × List K) : List (SPix K) :=
  ((x.2.zip (s.fflux.arr x.1)).zip ((s.fweight.arr x.1).zip (s.cont.arr x.1))).map
    (fun p => stackPix residual s.z p.1.1 p.1.2 p.2.1 p.2.2)

/-- py/qsonic/continuum_models/base_continuum_model.py:7-30,
py/qsonic/continuum_models/picca_continuum_model.py:169-190 `stack_spectra`
for `valid_spectra(spectra_list)` (py/qsonic/spectrum.py:49-51): one call of `add` for every arm. -/
def stackSpectra [FloorRing K] (residual : Bool) (st : Stacker K) (l : List (Spectrum K)) :
    Stacker K × Option Err :=
  st.addList ((l.filter (·.valid)).flatMap (fun s => s.fwave.map (stackArm residual s)))

end Spectrum
end Verif.Model
