import Verif.Model.Stack
import Verif.Np.FloatArith

/-!
# `FluxStacker` and `stack_spectra` with NaN and infinities

The same functions as in `Verif/Model/Stack.lean`, on floating point special values. Pixels outside of the bins, which raise,
are left to that model.
-/

namespace Verif.Model
open Verif Verif.Np

variable {K : Type} [Field K] [LinearOrder K]

/-- A forest pixel of a valid spectrum: wavelength, flux, `forestivar_sm` and continuum.
py/qsonic/continuum_models/picca_continuum_model.py:180-190. -/
structure FlPix (K : Type) where
  wave : K
  flux : Fl K
  ivar : Fl K
  cont : Fl K

/-- A valid spectrum: redshift and the pixels of its arms. py/qsonic/continuum_models/picca_continuum_model.py:180-190. -/
structure FlSpec (K : Type) where
  z : K
  arms : List (List (FlPix K))

/-- A valid spectrum of the exact model. Simplification: arrays of different length are cut to the shorter (numpy
raises). py/qsonic/continuum_models/picca_continuum_model.py:180-190. -/
def FlSpec.ofSpectrum (s : Spectrum K) : FlSpec K :=
  { z := s.z
    arms := s.fwave.map (fun x => ((x.2.zip (s.fflux.arr x.1)).zip ((s.fivarSm.arr x.1).zip (s.cont.arr x.1))).map
      (fun p => { wave := p.1.1, flux := .fin p.1.2, ivar := .fin p.2.1, cont := .fin p.2.2 })) }

namespace FlPix

/-- py/qsonic/spectrum.py:492-497 `set_forest_weight`, one pixel; the interpolators give numbers. -/
def wt (varlss eta : K → K) (p : FlPix K) : Fl K :=
  Fl.div p.ivar (Fl.add (.fin (eta p.wave)) (Fl.mul p.ivar (Fl.mul (.fin (varlss p.wave)) (Fl.mul p.cont p.cont))))

/-- `weight = spec.forestweight[arm] * cont**2`. py/qsonic/continuum_models/picca_continuum_model.py:185. -/
def weight (varlss eta : K → K) (p : FlPix K) : Fl K := Fl.mul (p.wt varlss eta) (Fl.mul p.cont p.cont)

/-- `weighted_flux = weight * flux / cont`. py/qsonic/continuum_models/picca_continuum_model.py:186. -/
def wflux (varlss eta : K → K) (p : FlPix K) : Fl K := Fl.div (Fl.mul (p.weight varlss eta) p.flux) p.cont

/-- What is stacked in the rest frame: the weighted flux (`residual`) or `weight * cont`.
py/qsonic/continuum_models/picca_continuum_model.py:188-190, py/qsonic/continuum_models/base_continuum_model.py:26. -/
def wcont (residual : Bool) (varlss eta : K → K) (p : FlPix K) : Fl K :=
  if residual then p.wflux varlss eta else Fl.mul (p.weight varlss eta) p.cont

end FlPix

/-- `fp += np.bincount(idx, weights=w, minlength=n)`. py/qsonic/picca_continuum.py:1315-1325. -/
def flBinAdd (a : List (Fl K)) (idx : List Int) (w : List (Fl K)) : List (Fl K) :=
  (List.range a.length).map (fun k : Nat => Fl.add (a[k]?.getD (.fin 0))
    (Fl.sum (((idx.zip w).filter (fun p => decide (p.1 = (k : Int)))).map Prod.snd)))

/-- `fp` and `ep` in both frames. py/qsonic/picca_continuum.py:1272-1289. -/
structure FlStack (K : Type) where
  fp : List (Fl K)
  ep : List (Fl K)
  fpRf : List (Fl K)
  epRf : List (Fl K)

/-- What does not change during the stacking. py/qsonic/picca_continuum.py:1272-1289. -/
structure FlStackCfg (K : Type) where
  obs : StackGrid K
  rf : StackGrid K
  residual : Bool
  varlss : K → K
  eta : K → K

namespace FlStackCfg
variable (C : FlStackCfg K)

omit [LinearOrder K] in
/-- py/qsonic/picca_continuum.py:1346-1352 `reset`. -/
def zero : FlStack K :=
  { fp := List.replicate C.obs.n (.fin 0), ep := List.replicate C.obs.n (.fin 0)
    fpRf := List.replicate C.rf.n (.fin 0), epRf := List.replicate C.rf.n (.fin 0) }

/-- py/qsonic/picca_continuum.py:1294-1325 `add`, for an arm of a spectrum at redshift `z`. -/
def add [FloorRing K] (z : K) (st : FlStack K) (l : List (FlPix K)) : FlStack K :=
  let idx := l.map (fun p => C.obs.idx p.wave)
  let idxRf := l.map (fun p => C.rf.idx (p.wave / (1 + z)))
  let weight := l.map (FlPix.weight C.varlss C.eta)
  { fp := flBinAdd st.fp idx (l.map (FlPix.wflux C.varlss C.eta)), ep := flBinAdd st.ep idx weight
    fpRf := flBinAdd st.fpRf idxRf (l.map (FlPix.wcont C.residual C.varlss C.eta)), epRf := flBinAdd st.epRf idxRf weight }

/-- py/qsonic/continuum_models/picca_continuum_model.py:169-190 `stack_spectra` on a rank, for valid spectra. -/
def stack [FloorRing K] (l : List (FlSpec K)) : FlStack K :=
  l.foldl (fun st s => s.arms.foldl (C.add s.z) st) C.zero

/-- `comm.Allreduce(MPI.IN_PLACE, a)`. py/qsonic/picca_continuum.py:1329-1334. -/
def sumArrays (n : Nat) (as : List (List (Fl K))) : List (Fl K) :=
  (List.range n).map (fun k : Nat => Fl.sum (as.map (fun a => a[k]?.getD (.fin 0))))

/-- `fp[w] /= ep[w]; fp[~w] = 0` with `w = ep > 0`. py/qsonic/picca_continuum.py:1336-1342. -/
def divPos (fp ep : List (Fl K)) : List (Fl K) :=
  List.zipWith (fun f e => if Fl.lt (.fin 0) e then Fl.div f e else .fin 0) fp ep

/-- py/qsonic/picca_continuum.py:1327-1344 `calculate`: the result on every rank. -/
def calculate (sqrt : K → K) (ranks : List (FlStack K)) : FlStack K :=
  let ep := sumArrays C.obs.n (ranks.map (·.ep))
  let epRf := sumArrays C.rf.n (ranks.map (·.epRf))
  { fp := divPos (sumArrays C.obs.n (ranks.map (·.fp))) ep, ep := ep
    fpRf := divPos (sumArrays C.rf.n (ranks.map (·.fpRf))) epRf
    epRf := epRf.map (fun e => if Fl.lt (.fin 0) e then Fl.div (.fin 1) (Fl.sqrtOf sqrt e) else e) }

end FlStackCfg

/-- `np.mean(a[w])`, `w = std > 0`. py/qsonic/picca_continuum.py:393-395. -/
def flMeanWhere (std a : List (Fl K)) : Fl K :=
  let l := ((std.zip a).filter (fun p => Fl.lt (.fin 0) p.1)).map Prod.snd
  Fl.div (Fl.sum l) (.fin (l.length : K))

/-- What `UnivariateSpline` gets: py/qsonic/picca_continuum.py:384-396 `norm_flux`. -/
def flNormFlux (st : FlStack K) : List (Fl K) :=
  List.zipWith (fun s f => if Fl.lt (.fin 0) s then f else flMeanWhere st.epRf st.fpRf) st.epRf st.fpRf

end Verif.Model
