import Verif.Model.WholeRun
import Verif.Spec.SameJob
import Verif.Spec.Spectrum

/-!
# Spectra whose arms come in another order

The order of the arms is that of `list(set(args.arms))` (py/qsonic/scripts/qsonic_fit.py:61), which changes from one run
to the next.
-/

namespace Verif.Spec
open Verif Verif.Np Verif.Model

/-- Two dictionaries with the same items, perhaps in another order. -/
def SameItems {α : Type} (d d' : Dict α) : Prop := (List.map Prod.fst d).Nodup ∧ List.Perm d d'

/-- The same for a dictionary that may be the object of another attribute. -/
def SameItems? {α : Type} : Option (Dict α) → Option (Dict α) → Prop
  | none, none => True
  | some d, some d' => SameItems d d'
  | _, _ => False

variable {K : Type}

/-- Two spectra that differ in the order of their arms at most. -/
structure ArmOrder (s s' : Spectrum K) : Prop where
  z : s.z = s'.z
  dwave : s.dwave = s'.dwave
  wave : SameItems s.wave s'.wave
  flux : SameItems s.flux s'.flux
  ivar : SameItems s.ivar s'.ivar
  reso : SameItems s.reso s'.reso
  fwave : SameItems s.fwave s'.fwave
  fflux : SameItems s.fflux s'.fflux
  fivar : SameItems s.fivar s'.fivar
  freso : SameItems s.freso s'.freso
  ivarSm : SameItems? s.ivarSm s'.ivarSm
  weight : SameItems? s.weight s'.weight
  smoothing : s.smoothing = s'.smoothing
  meanSnr : SameItems s.meanSnr s'.meanSnr
  cont : SameItems s.cont s'.cont
  valid : s.valid = s'.valid
  chi2 : s.chi2 = s'.chi2
  x0 : s.x0 = s'.x0

/-- What the two runs read or end with: the same rows, with the arms in another order. -/
structure ReadOrder (x x' : ReadSpec K) : Prop where
  row : x.row = x'.row
  rsnr : x.rsnr = x'.rsnr
  spec : ArmOrder x.spec x'.spec

/-- Two spectra as they are read: new ones, with the arms in another order. The numbers of rows of the resolution matrices
are all even or all odd. -/
structure ReadOther [Field K] [LinearOrder K] [FloorRing K] (x x' : ReadSpec K) : Prop where
  order : ReadOrder x x'
  data : DataOk x.spec
  fresh : Fresh x.spec
  zpos : 0 < 1 + x.spec.z
  cont : x.spec.cont = []
  parity : ∀ a ∈ x.spec.wave, ∀ b ∈ x.spec.wave, (x.spec.reso.arr a.1).length % 2 = (x.spec.reso.arr b.1).length % 2

/-- What the variance fitter adds up does not depend on the order of the arms. -/
def VarSym {Q D : Type} (P : FitterFns (FullState K) (Spectrum K) (StackSums K) Q D) : Prop :=
  ∀ rank g (l l' : List (Spectrum K)), List.Forall₂ ArmOrder l l' → P.varAcc rank g l = P.varAcc rank g l'

/-- The same file with the same spectra. -/
def FileOrder {κ : Type} (f f' : DeltaName κ × List (SavedSpec κ (ReadSpec K))) : Prop :=
  f.1 = f'.1 ∧ List.Forall₂ (fun a b => a.hpix = b.hpix ∧ a.valid = b.valid ∧ ReadOrder a.data b.data) f.2 f'.2

/-- Two runs end with the same on a rank, up to the order of the arms. -/
def OutOrder {Val : Type} (o o' : WholeOut Val K) : Prop :=
  o.night = o'.night ∧ o.iterations = o'.iterations ∧ o.converged = o'.converged ∧
    List.Forall₂ ReadOrder o.deltas o'.deltas ∧ List.Forall₂ FileOrder o.files o'.files

end Verif.Spec
