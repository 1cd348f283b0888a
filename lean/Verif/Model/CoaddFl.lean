import Verif.Np.FloatArith
import Verif.Model.SpectrumInit

/-!
# Coadding arms with NaN and infinities

One pixel of the coadded spectrum from the pixels of the arms in its cell, on floating point special values. Which pixels
are in a cell is in Model/Coadd.lean; here an arm has at most one pixel in a cell.
-/

namespace Verif.Model
open Verif.Np

variable {K : Type} [Field K] [LinearOrder K]

/-- A pixel of an arm in the file. py/qsonic/spectrum.py:223-226. -/
structure FilePix (K : Type) where
  mask : Nat
  flux : Fl K
  ivar : Fl K

namespace FilePix

/-- `self.flux` of the pixel. py/qsonic/spectrum.py:223-228. -/
def rFlux (p : FilePix K) : Fl K := zeroBad p.flux (badPixel p.mask p.flux p.ivar)

/-- `self.ivar` of the pixel. py/qsonic/spectrum.py:223-228. -/
def rIvar (p : FilePix K) : Fl K := zeroBad p.ivar (badPixel p.mask p.flux p.ivar)

end FilePix

/-- Flux, ivar and weight of a pixel of an arm. py/qsonic/spectrum.py:550-558, 622-630. -/
structure CellPix (K : Type) where
  flux : Fl K
  ivar : Fl K
  weight : Fl K

namespace CellPix

/-- py/qsonic/spectrum.py:552-554, 624-626: `var`. -/
def var (p : CellPix K) : Fl K := if Fl.lt (.fin 0) p.ivar then Fl.div (.fin 1) p.ivar else .fin 0

/-- py/qsonic/spectrum.py:558, 630: `coadd_norm` in the cell. -/
def norm (l : List (CellPix K)) : Fl K := Fl.sum (l.map (fun p => p.weight))

/-- py/qsonic/spectrum.py:556, 560-561 and 628, 632-633: `coadd_flux` in the cell. -/
def coFlux (l : List (CellPix K)) : Fl K :=
  let f := Fl.sum (l.map (fun p => Fl.mul p.weight p.flux))
  if Fl.lt (.fin 0) (norm l) then Fl.div f (norm l) else f

/-- py/qsonic/spectrum.py:557, 562 and 629, 634: `coadd_ivar` in the cell. -/
def coIvar (l : List (CellPix K)) : Fl K :=
  let v := Fl.sum (l.map (fun p => Fl.mul (Fl.mul p.weight p.weight) p.var))
  if Fl.lt (.fin 0) (norm l) then Fl.div (Fl.mul (norm l) (norm l)) v else v

end CellPix

/-- The pixels of a cell in `simple_coadd`: the weight is the ivar. py/qsonic/spectrum.py:550. -/
def simpleCell (l : List (FilePix K)) : List (CellPix K) := l.map (fun p => ⟨p.rFlux, p.rIvar, p.rIvar⟩)

end Verif.Model
