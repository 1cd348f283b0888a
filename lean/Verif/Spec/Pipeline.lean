import Verif.Model.Pipeline
import Verif.Spec.CalibWhole
import Verif.Spec.WrittenRun

/-!
# Specification vocabulary for `qsonic-calib` after `qsonic-fit`
-/

namespace Verif.Spec
open Verif.Np Verif.Model

variable {K : Type} [Field K] [LinearOrder K]

/-- The delta of one arm of a fitted spectrum: flux over continuum minus one where the ivar of delta is not zero, ivar and
weight times the squared continuum. -/
def armDelta (x : ReadSpec K) (a : String × List K) : CalDelta K :=
  let f := x.spec.fflux.arr a.1
  let v := x.spec.fivar.arr a.1
  let w := x.spec.fweight.arr a.1
  let c := x.spec.cont.arr a.1
  let idx := List.range a.2.length
  { targetid := x.row.targetid
    meanSnr := (x.spec.meanSnr.lookup a.1).getD 0
    dwave := x.spec.dwave
    wave := a.2
    delta := idx.map (fun i => if v.getD i 0 * c.getD i 0 ^ 2 = 0 then 0 else f.getD i 0 / c.getD i 0 - 1)
    ivar := idx.map (fun i => v.getD i 0 * c.getD i 0 ^ 2)
    weight := idx.map (fun i => w.getD i 0 * c.getD i 0 ^ 2) }

/-- The deltas of all arms with signal of some fitted spectra. -/
def fitDeltas (l : List (ReadSpec K)) : List (CalDelta K) := (signalArms l).map (fun y => armDelta y.1 y.2)

/-- The wavelengths of all arms of a spectrum are on one grid with the spacing of the stack that begins at `w1`, not
halfway between its points. -/
def OnStackGrid (w1 dw : K) (s : Spectrum K) : Prop :=
  s.dwave = dw ∧ ∃ x0 : K, (∀ k : Int, x0 ≠ k + 1 / 2) ∧ ∀ a ∈ s.wave, ∃ (k : Int) (m : Nat),
    a.2 = (List.range m).map (fun i : Nat => w1 + (x0 + k + i) * dw)

/-- Every file of rank `r` has a delta that is to be used. -/
def FilesUsed {Val : Type} [DecidableEq Val] (C : WrittenCfg Val K) (C' : CalibCfg K) (ids : List Int)
    (rows : Option (List (CalRow K))) (r : Nat) (o : WrittenOut Val K) : Prop :=
  ∀ f ∈ o.files, ∃ d ∈ fitDeltas (o.deltas.filter (fun x => decide (deltaFile C.run r x = f.1))), CalUsed C' ids rows d

end Verif.Spec
