import Mathlib.Algebra.Order.Field.Basic
import Mathlib.Algebra.Order.Floor.Ring
import Mathlib.Data.List.Range
import Mathlib.Logic.Function.Basic

/-!
# Model of the interpolators (`py/qsonic/mathtools.py`)

Arithmetic is exact. An array that is filled in place is a function on indices; `np.empty` is an
arbitrary function. Reading outside a table gives `none` (numba does not check).
-/

namespace Verif.Model

variable {K : Type} [Field K] [LinearOrder K]

/-- py/qsonic/mathtools.py:20-21 and 32-33: index of the left node,
`np.clip(xx, 0, fp.size - 1 - 1e-8).astype(int)`, where `xx` is the position in units of the spacing. The
clipped value is nonnegative for two or more nodes, so `astype` is the floor. -/
def interpIdx [FloorRing K] (n : Nat) (xx : K) : Int :=
  ⌊min (max xx 0) ((n : K) - 1 - 1 / 100000000)⌋

/-- `fp[i]` of numba: no bounds check, so nothing is known outside. py/qsonic/mathtools.py:24, 38. -/
def at? (fp : List K) (i : Int) : Option K := if i < 0 then none else fp[i.toNat]?

/-- py/qsonic/mathtools.py:17-26 `_fast_eval_interp1d_lin`, one point. -/
def evalLin [FloorRing K] (x xp0 dxp : K) (fp : List K) : Option K :=
  let xx := (x - xp0) / dxp
  let idx := interpIdx fp.length xx
  let d := xx - (idx : K)
  (at? fp idx).bind (fun y1 => (at? fp (idx + 1)).map (fun y2 => y1 * (1 - d) + y2 * d))

/-- py/qsonic/mathtools.py:36-43: the cubic between two nodes; `a = 1 - b`. -/
def cubicPiece (dxp y1 y2 ypp1 ypp2 b : K) : K :=
  let a := 1 - b
  (a * y1 + b * y2) + ((a + 1) * ypp1 + (b + 1) * ypp2) * (-a * b * dxp ^ 2 / 6)

/-- py/qsonic/mathtools.py:29-43 `_fast_eval_interp1d_cubic`, one point. -/
def evalCubic [FloorRing K] (x xp0 dxp : K) (fp y2p : List K) : Option K :=
  let xx := (x - xp0) / dxp
  let idx := interpIdx fp.length xx
  let d := xx - (idx : K)
  (at? fp idx).bind (fun y1 => (at? fp (idx + 1)).bind (fun y2 =>
    (at? y2p idx).bind (fun z1 => (at? y2p (idx + 1)).map (fun z2 => cubicPiece dxp y1 y2 z1 z2 d))))

/-- py/qsonic/mathtools.py:74-77: one step of the elimination. -/
def naturalStep (fp : Nat → K) (dxp : K) (s : (Nat → K) × (Nat → K)) (i : Nat) :
    (Nat → K) × (Nat → K) :=
  let p := 1 / 2 * s.1 (i - 1) + 2
  let u := (fp (i + 1) + fp (i - 1) - 2 * fp i) / dxp
  (Function.update s.1 i ((1 / 2 - 1) / p),
    Function.update s.2 i ((3 * u / dxp - 1 / 2 * s.2 (i - 1)) / p))

/-- py/qsonic/mathtools.py:80: one step of the back substitution. -/
def backStep (u : Nat → K) (y : Nat → K) (i : Nat) : Nat → K :=
  Function.update y i (y i * y (i + 1) + u i)

/-- py/qsonic/mathtools.py:46-82 `_spline_cubic_natural` for `n` nodes; `junk`, `junk'` are the values of
`np.empty`. -/
def splineNatural (junk junk' : Nat → K) (n : Nat) (fp : Nat → K) (dxp : K) : Nat → K :=
  let y0 := Function.update (Function.update junk (n - 1) 0) 0 0
  let u0 := Function.update junk' 0 0
  let s := (List.range' 1 (n - 2)).foldl (naturalStep fp dxp) (y0, u0)
  (List.range' 1 (n - 2)).reverse.foldl (backStep s.2) s.1

/-- py/qsonic/mathtools.py:109-117. -/
def uTable : List K :=
  [6, 4, 375 / 100, 3733333333333333393 / 10 ^ 18, 3732142857142857206 / 10 ^ 18,
   3732057416267942518 / 10 ^ 18, 3732051282051282115 / 10 ^ 18, 3732050841635176752 / 10 ^ 18,
   3732050810014727382 / 10 ^ 18, 3732050807744481613 / 10 ^ 18, 3732050807581485330 / 10 ^ 18,
   3732050807569782691 / 10 ^ 18, 3732050807568942474 / 10 ^ 18, 3732050807568882078 / 10 ^ 18,
   3732050807568877637 / 10 ^ 18, 3732050807568877193 / 10 ^ 18]

/-- py/qsonic/mathtools.py:118-126. -/
def pTable : List K :=
  [1666666666666666574 / 10 ^ 19, 25 / 100, 2666666666666666630 / 10 ^ 19,
   2678571428571428492 / 10 ^ 19, 2679425837320574266 / 10 ^ 19, 2679487179487179405 / 10 ^ 19,
   2679491583648230812 / 10 ^ 19, 2679491899852724512 / 10 ^ 19, 2679491922555185535 / 10 ^ 19,
   2679491924185148921 / 10 ^ 19, 2679491924302174755 / 10 ^ 19, 2679491924310576922 / 10 ^ 19,
   2679491924311180329 / 10 ^ 19, 2679491924311223627 / 10 ^ 19, 2679491924311226958 / 10 ^ 19]

/-- `u[i]` while there is such an entry, else `u[-1]` (lines 137-140). py/qsonic/mathtools.py:137-140. -/
def uAt (i : Nat) : K := uTable.getD (min i 15) 0

/-- `p[i - 1]` while there is such an entry, else `p[-1]` (lines 131-134). py/qsonic/mathtools.py:131-134. -/
def pAt (i : Nat) : K := pTable.getD (min (i - 1) 14) 0

/-- py/qsonic/mathtools.py:131-134: `y2p[i + 1] -= p * y2p[i]`. -/
def nakForward (y : Nat → K) (i : Nat) : Nat → K :=
  Function.update y (i + 1) (y (i + 1) - pAt i * y i)

/-- py/qsonic/mathtools.py:137-140: `y2p[i + 1] = (y2p[i + 1] - y2p[i + 2]) / u`. -/
def nakBackward (y : Nat → K) (i : Nat) : Nat → K :=
  Function.update y (i + 1) ((y (i + 1) - y (i + 2)) / uAt i)

/-- `y2p[i] /= u[0]`. py/qsonic/mathtools.py:136, 142. -/
def divSix (y : Nat → K) (i : Nat) : Nat → K := Function.update y i (y i / uAt 0)

/-- py/qsonic/mathtools.py:128-129. -/
def secondDifferences (junk : Nat → K) (n : Nat) (fp : Nat → K) : Nat → K :=
  (List.range' 1 (n - 2)).foldl
    (fun y i => Function.update y i (fp (i - 1) - 2 * fp i + fp (i + 1))) junk

/-- py/qsonic/mathtools.py:143-144: the first and the last value. -/
def nakEnds (n : Nat) (y : Nat → K) : Nat → K :=
  let y := Function.update y 0 (2 * y 1 - y 2)
  Function.update y (n - 1) (2 * y (n - 2) - y (n - 3))

/-- py/qsonic/mathtools.py:85-147 `_spline_cubic_notaknot` for `n` nodes, at least three (with two,
`y2p[-3]` is out of range); `junk` are the values of `np.empty`. The two loops over each range of the
source, below and beyond the end of the tables, are one here, with `uAt` and `pAt`. -/
def splineNotaknot (junk : Nat → K) (n : Nat) (fp : Nat → K) (dxp : K) : Nat → K :=
  let y := secondDifferences junk n fp
  let y := (List.range' 1 (n - 4)).foldl nakForward y
  let y := divSix y (n - 2)
  let y := (List.range' 1 (n - 4)).reverse.foldl nakBackward y
  let y := divSix y 1
  let y := nakEnds n y
  fun i => y i * (6 / dxp ^ 2)

/-- The array of the first `n` values. py/qsonic/mathtools.py:47-148. -/
def toArr (n : Nat) (y : Nat → K) : List K := (List.range n).map y

/-- py/qsonic/mathtools.py:355-365 `FastLinear1DInterp`: construction and call. -/
structure LinInterp (K : Type) where
  xp0 : K
  dxp : K
  fp : List K

/-- py/qsonic/mathtools.py:364-365. -/
def LinInterp.eval [FloorRing K] (f : LinInterp K) (x : K) : Option K := evalLin x f.xp0 f.dxp f.fp

/-- py/qsonic/mathtools.py:401-423 `FastCubic1DInterp`. -/
structure CubicInterp (K : Type) where
  xp0 : K
  dxp : K
  fp : List K
  y2p : List K

/-- Construction with `bc_type='natural'`. py/qsonic/mathtools.py:401-419. -/
def CubicInterp.natural (junk junk' : Nat → K) (xp0 dxp : K) (fp : List K) : CubicInterp K :=
  ⟨xp0, dxp, fp, toArr fp.length (splineNatural junk junk' fp.length (fun i => fp.getD i 0) dxp)⟩

/-- Construction with `bc_type='not-a-knot'`, the default. py/qsonic/mathtools.py:401-419. -/
def CubicInterp.notaknot (junk : Nat → K) (xp0 dxp : K) (fp : List K) : CubicInterp K :=
  ⟨xp0, dxp, fp, toArr fp.length (splineNotaknot junk fp.length (fun i => fp.getD i 0) dxp)⟩

/-- py/qsonic/mathtools.py:421-423. -/
def CubicInterp.eval [FloorRing K] (f : CubicInterp K) (x : K) : Option K :=
  evalCubic x f.xp0 f.dxp f.fp f.y2p

end Verif.Model
