import Verif.Model.FullFit
import Verif.Model.Delta
import Verif.Model.WholeRun
import Verif.Spec.SameJob

/-!
# Spectra in other units of flux

A unit of flux which is smaller by a factor `c` makes the fluxes `c` times and the inverse variances `1 / c ^ 2` times
as large.
-/

namespace Verif.Spec
open Verif Verif.Np Verif.Model

variable {K : Type} [Field K] [LinearOrder K]

/-- Every array of the dictionary is multiplied by `k`. -/
def times (k : K) (d : Dict (List K)) : Dict (List K) := d.mapVals (fun _ v => v.map (k * ·))

/-- The spectrum in other units. Continuum and weights are those of an earlier iteration, if any. `y` is the entry
`x0`, which the fit does not use. -/
def rescale (c y : K) (s : Spectrum K) : Spectrum K :=
  { s with
    flux := times c s.flux, ivar := times (1 / c ^ 2) s.ivar
    fflux := times c s.fflux, fivar := times (1 / c ^ 2) s.fivar
    ivarSm := s.ivarSm.map (times (1 / c ^ 2)), weight := s.weight.map (times (1 / c ^ 2))
    cont := times c s.cont, x0 := y }

/-- `t` is the spectrum `s` in other units. -/
def OtherUnits (s t : Spectrum K) : Prop := ∃ c y : K, 0 < c ∧ t = rescale c y s

/-- No negative inverse variance. -/
def IvarNonneg (s : Spectrum K) : Prop := ∀ a ∈ s.fivarSm, ∀ v ∈ a.2, 0 ≤ v

/-- A minimizer whose result follows a change of the units of the parameters, and does not depend on the starting
point: one which finds the minimum. -/
def FindsMinimum (minimize : (List K → K) → List K → Bool × List K) : Prop :=
  ∀ (f f' : List K → K) (c k : K) (x0 x0' : List K), 0 < c → x0.length = x0'.length →
    (∀ x, f' (x.map (c * ·)) = f x + k) →
    minimize f' x0' = ((minimize f x0).1, (minimize f x0).2.map (c * ·))

/-- What the variance fitter is given of a spectrum: for every arm the wavelengths, deltas and their inverse
variances. -/
def varInput (s : Spectrum K) : List (List (K × K × K)) :=
  s.fwave.map (fun a => (a.2.zip ((s.fflux.arr a.1).zip ((s.cont.arr a.1).zip (s.fivar.arr a.1)))).map
    (fun p => (p.1, p.2.1 / p.2.2.1 - 1, p.2.2.2 * p.2.2.1 ^ 2)))

/-- The variance fitter uses no more of the spectra than `varInput`. -/
def SeesDeltas {Q D : Type} (P : FitterFns (FullState K) (Spectrum K) (StackSums K) Q D) : Prop :=
  ∀ rank g (l l' : List (Spectrum K)), l.map varInput = l'.map varInput → P.varAcc rank g l = P.varAcc rank g l'

/-- The LSS variance is not negative and `eta` is positive. -/
def GoodVar (g : FullState K) : Prop := ∀ w, 0 ≤ g.varlss w ∧ 0 < g.eta w

/-- The column of continua multiplied by `c`. -/
def contTimes (c : K) (h : Hdu K) : Hdu K :=
  { h with cols := h.cols.mapVals (fun name col =>
      match name, col with
      | "CONT", .vec v => .vec (v.map (c * ·))
      | _, col => col) }

/-- How `sqrt` follows a change of units. -/
def SqrtScales (sqrt : K → K) : Prop := ∀ c v : K, 0 < c → sqrt (1 / c ^ 2 * v) = 1 / c * sqrt v

/-- How the smoothing of inverse variances follows a change of units. -/
def SmoothScales (smooth : List K → K → List K) : Prop :=
  ∀ (c : K) (l : List K) (p : K), 0 < c → smooth (l.map (1 / c ^ 2 * ·)) p = (smooth l p).map (1 / c ^ 2 * ·)

/-- What the two runs read: the same rows, with the spectra in other units. -/
def ReadUnits (x x' : ReadSpec K) : Prop := x.row = x'.row ∧ x.rsnr = x'.rsnr ∧ OtherUnits x.spec x'.spec

/-- The spectra are as the constructor gives them: no forest, and no negative inverse variance. -/
def ReadNonneg (x : ReadSpec K) : Prop := x.spec.fivar = [] ∧ ∀ a ∈ x.spec.ivar, ∀ v ∈ a.2, 0 ≤ v

/-- Neither resolution nor smoothing nor continuum. -/
def NoReso (s : Spectrum K) : Prop := s.reso = [] ∧ s.freso = [] ∧ s.smoothing ≤ 0 ∧ s.cont = []

/-- The same file with the same spectra, in other units. -/
def FileUnits {κ : Type} (f f' : DeltaName κ × List (SavedSpec κ (ReadSpec K))) : Prop :=
  f.1 = f'.1 ∧ List.Forall₂ (fun a b => a.hpix = b.hpix ∧ a.valid = b.valid ∧ ReadUnits a.data b.data) f.2 f'.2

/-- Two runs end with the same on a rank, up to units. -/
def OutUnits {Val : Type} (o o' : WholeOut Val K) : Prop :=
  o.night = o'.night ∧ o.iterations = o'.iterations ∧ o.converged = o'.converged ∧
    List.Forall₂ ReadUnits o.deltas o'.deltas ∧ List.Forall₂ FileUnits o.files o'.files

end Verif.Spec
