import Verif.Model.FitTail
import Verif.Model.WholeRun

/-!
# A run of `qsonic-fit` with the steps after the fit (`py/qsonic/scripts/qsonic_fit.py:315-502`)

The run of `Verif.Model.WholeRun` with `--varlss-as-additive-noise` and `--coadd-arms after`. The table of the noise
calibration is read before (`ncal`). `--exposures after` and the chi square catalog are left out.
-/

namespace Verif.Model
open Verif Verif.Np Prog

variable {Val K : Type} [LinearOrder Val] [Field K] [LinearOrder K] [FloorRing K]

/-- The options. `ncal` is the calibrator of lines 332-334 with `--noise-calibration` and
`--varlss-as-additive-noise`, `after` is `--coadd-arms after`. py/qsonic/scripts/qsonic_fit.py:315-356. -/
structure TailCfg (Val K : Type) where
  run : WholeCfg Val K
  fns : TailFns K
  ncal : Option (NoiseCal K)
  after : Bool

namespace TailCfg

variable (C : TailCfg Val K)

/-- py/qsonic/scripts/qsonic_fit.py:327-350, 494-496: the spectra `l` of a rank after the iterations, of which `g` is
the last state. -/
def finish (g : FullState K) (l : List (ReadSpec K)) : Except Err (List (ReadSpec K)) := do
  let v := l.filter (fun x => x.spec.valid)
  let t ← fitTail C.fns C.ncal C.after g.varlss g.eta (v.map (·.spec))
  pure ((SelectCfg.setSpecs v t).map
    (fun x => { x with spec := x.spec.dropShortArms C.run.sel.forestW1 C.run.sel.forestW2 C.run.sel.skip }))

/-- py/qsonic/scripts/qsonic_fit.py:327-350, 494-502. -/
def ending {V W : Type} (night : Option Val) (rank : Nat) (l : List (ReadSpec K))
    (r : FullState K × List (Spectrum K) × Nat × Bool) : Prog V W (WholeOut Val K) :=
  (ofExcept (C.finish r.1 (SelectCfg.setSpecs l r.2.1))).bind fun deltas =>
  (ofExcept (C.run.save rank deltas)).bind fun files =>
  .ret ⟨night, r.2.2.1, r.2.2.2, deltas, files⟩

/-- py/qsonic/scripts/qsonic_fit.py:452-502 `mpi_run_all`; see `WholeCfg.run`. -/
def runAll {Q D V : Type} (P : FitterFns (FullState K) (Spectrum K) (StackSums K) Q D)
    (cs : Codec Bool V) (cq : Codec (List (List (Row Val))) V) (cn : Codec Val V)
    (c : FitterCodecs (StackSums K) Q V) (read : Except Err (Catalog Val)) (fname : String) (g0 : FullState K)
    (size rank : Nat) : Prog V (SaverEv (String × D)) (WholeOut Val K) :=
  (mpiGetLocalQueue cs cq read C.run.tile size rank).bind fun q =>
  (C.run.blinding cn q).bind fun night =>
  (ofExcept (C.run.prepare q)).bind fun l =>
  ((C.run.fit.fns P).iterate c fname C.run.niter false rank g0 (l.map (·.spec))).bind fun r =>
  C.ending night rank l r

end TailCfg
end Verif.Model
