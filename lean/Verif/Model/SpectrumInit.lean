import Verif.Np.Float
import Verif.Np.Unique
import Verif.Np.Dict
import Verif.Model.Spectrum

/-!
# Model of the constructor of `Spectrum` and of the common grid (`py/qsonic/spectrum.py`)

The choice of the row `idx` in the 2D arrays is modelled in `Model/Io.lean` (`initArm`); here the
rows are given.
-/

namespace Verif.Model
open Verif.Np

/-- The class attributes `_wave` (empty: `None`) and `_dwave`. py/qsonic/spectrum.py:102-134. -/
structure GridState (K : Type) where
  wave : Dict (List K)
  dwave : K

/-- The rows given to the constructor: flux, ivar, mask of one quasar, resolution. py/qsonic/spectrum.py:200-235. -/
structure InitData (K : Type) where
  wave : Dict (List K)
  flux : Dict (List (Fl K))
  ivar : Dict (List (Fl K))
  mask : Dict (List Nat)
  reso : Dict (List (List (Fl K)))

/-- The attributes `flux`, `ivar`, `reso` of the new spectrum. py/qsonic/spectrum.py:205-207. -/
structure InitSpec (K : Type) where
  flux : Dict (List (Fl K))
  ivar : Dict (List (Fl K))
  reso : Dict (List (List (Fl K)))

variable {K : Type} [Field K] [LinearOrder K]

/-- `d[key]`. py/qsonic/spectrum.py:119, 223. -/
def dictGet {α : Type} (d : Dict α) (k : String) : Except Err α :=
  match d.lookup k with
  | some v => .ok v
  | none => .error .keyError

/-- `np.allclose(a, b)` for finite arrays; `rtol` and `atol` are numpy's. Different shapes raise
(broadcasting of an array of one element is not modelled). py/qsonic/spectrum.py:119. -/
def allclose (rtol atol : K) (a b : List K) : Except Err Bool :=
  if a.length = b.length then
    .ok ((List.zipWith (fun x y => decide (|x - y| ≤ atol + rtol * |y|)) a b).all id)
  else .error .valueError

/-- `assert b`. py/qsonic/spectrum.py:118-119. -/
def assert (b : Bool) : Except Err Unit := if b then .ok () else .error .assertionError

/-- py/qsonic/spectrum.py:111-115: the grid is set for the first time. -/
def firstWave (wave : Dict (List K)) : Except Err (GridState K) :=
  match wave with
  | (_, w0 :: w1 :: _) :: _ => .ok { wave := wave, dwave := w1 - w0 }
  | _ => .error .indexError

/-- py/qsonic/spectrum.py:117-119: one arm of the check; `stored` is the item of `Spectrum._wave`
under iteration. -/
def checkArm (rtol atol : K) (st : GridState K) (wave : Dict (List K))
    (stored : String × List K) : Except Err Unit := do
  assert (decide (stored.1 ∈ wave.keys))
  let own ← dictGet st.wave stored.1
  let close ← allclose rtol atol own stored.2
  assert close

/-- py/qsonic/spectrum.py:102-119 `_set_wave`. -/
def setWave (rtol atol : K) (st : GridState K) (wave : Dict (List K)) (check : Bool) :
    Except Err (GridState K) :=
  if st.wave = [] then firstWave wave
  else if check then do
    st.wave.forM (checkArm rtol atol st wave)
    pure st
  else .ok st

/-- py/qsonic/spectrum.py:225-226: the condition for a bad pixel. -/
def badPixel (m : Nat) (f v : Fl K) : Bool :=
  decide (m ≠ 0) || f.isNan || v.isNan || v.lt (.fin 0)

/-- py/qsonic/spectrum.py:227-228: `x[w] = 0`. -/
def zeroBad (x : Fl K) (bad : Bool) : Fl K := if bad then .fin 0 else x

/-- py/qsonic/spectrum.py:223-228: flux and ivar of one arm. Arrays of different shape raise
(broadcasting of an array of one element is not modelled). -/
def cleanArm (mask : List Nat) (flux ivar : List (Fl K)) :
    Except Err (List (Fl K) × List (Fl K)) :=
  if mask.length = flux.length ∧ flux.length = ivar.length then
    let bad := List.zipWith (fun m p => badPixel m p.1 p.2) mask (flux.zip ivar)
    .ok (List.zipWith zeroBad flux bad, List.zipWith zeroBad ivar bad)
  else .error .valueError

/-- py/qsonic/spectrum.py:223-235: one arm of the loop. -/
def initStep (d : InitData K) (s : InitSpec K) (arm : String) : Except Err (InitSpec K) := do
  let flux ← dictGet d.flux arm
  let ivar ← dictGet d.ivar arm
  let mask ← dictGet d.mask arm
  let c ← cleanArm mask flux ivar
  let s := { s with flux := s.flux.set arm c.1, ivar := s.ivar.set arm c.2 }
  if d.reso = [] then pure s
  else do
    let r ← dictGet d.reso arm
    pure { s with reso := s.reso.set arm r }

/-- py/qsonic/spectrum.py:200-246 `__init__`: the arms are those of the common grid. -/
def initSpectrum (rtol atol : K) (st : GridState K) (d : InitData K) :
    Except Err (GridState K × InitSpec K) := do
  let st ← setWave rtol atol st d.wave false
  let s ← st.wave.keys.foldlM (initStep d) { flux := [], ivar := [], reso := [] }
  pure (st, s)

/-- py/qsonic/spectrum.py:253-259: the sums of one arm above Lya. -/
def rsnrArm (sqrt : K → K) (l : K) (wave flux ivar : List K) : K × Nat :=
  let ii1 := searchsorted wave l
  let weight := (ivar.drop ii1).map sqrt
  (dot (flux.drop ii1) weight, numGood weight)

/-- py/qsonic/spectrum.py:248-261 `_set_rsnr` (finite values); `eps` is `1e-6`, `lya` is
`WAVE_LYA_A`. -/
def rsnr (sqrt : K → K) (eps lya z : K) (wave flux ivar : Dict (List K)) : K :=
  let t := wave.map (fun x => rsnrArm sqrt ((1 + z) * lya) x.2 (flux.arr x.1) (ivar.arr x.1))
  (t.map Prod.fst).sum / (eps + (((t.map Prod.snd).sum : Nat) : K))

end Verif.Model
