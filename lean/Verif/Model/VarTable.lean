import Verif.Model.VarLss

/-!
# Model of `VarLSSFitter.write` (`py/qsonic/picca_continuum.py:1120-1161`)
-/

namespace Verif.Model
open Verif Verif.Np

variable {K : Type} [Field K] [LinearOrder K]

/-- The columns of the extension VAR_STATS. The header and the file are left out (see C07 for the saver).
py/qsonic/picca_continuum.py:1120-1161. -/
structure VarTable (K : Type) where
  wave : List K
  varPipe : List K
  eVarPipe : List K
  varDelta : List K
  eVarDelta : List K
  meanDelta : List K
  var2Delta : List K
  numPixels : List Nat
  numQso : List Nat
  cov : Option (List (List K))

variable {n : Nat} {c : VarCfg K}

/-- py/qsonic/picca_continuum.py:1146: `np.repeat(self.waveobs, self.nvarbins)`. -/
def repeatWave (c : VarCfg K) : List K := (List.range c.nw).flatMap (fun iw => List.replicate c.nv (c.center iw))

/-- py/qsonic/picca_continuum.py:1155-1156: `cov_var_delta` in the shape `(nwbins * nvarbins, nvarbins)`. -/
def covTable (s : VarLss K n c) : List (List K) :=
  (List.range (c.nw * c.nv)).map (fun i => (List.range c.nv).map (fun b => s.covVarDelta (i / c.nv) (i % c.nv) b))

/-- py/qsonic/picca_continuum.py:1145-1161: the table. Before the statistics are calculated `mean` and `variance` are
`None`, which has no elements. -/
def writeTable (sqrt : K → K) (useCov : Bool) (s : VarLss K n c) : Except Err (VarTable K) :=
  match s.meanRow 0, s.meanRow 1, s.meanRow 2, s.meanRow 3, s.errRow 1, s.errRow 3 with
  | some m0, some m1, some m2, some m3, some e1, some e3 =>
    .ok { wave := repeatWave c, varPipe := m3, eVarPipe := e3.map sqrt, varDelta := m1, eVarDelta := e1.map sqrt
          meanDelta := m0, var2Delta := m2, numPixels := s.numPixels, numQso := s.numQsos
          cov := if useCov then some (covTable s) else none }
  | _, _, _, _, _, _ => .error .typeError

end Verif.Model
