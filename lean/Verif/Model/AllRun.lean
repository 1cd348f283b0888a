import Verif.Model.CatalogRun
import Verif.Model.ExposureRun
import Verif.Model.FitTail

/-!
# A run of `qsonic-fit` with all steps after the fit (`py/qsonic/scripts/qsonic_fit.py:315-502`)

The run of `Verif.Model.CatalogRun` with `--varlss-as-additive-noise`, `--coadd-arms after` and `--exposures after`, in
any combination, and with the chi square catalog. The tables of the noise calibration are read before.
-/

namespace Verif.Model
open Verif Verif.Np Prog

variable {Val K : Type} [LinearOrder Val] [Field K] [LinearOrder K] [FloorRing K]

/-- `spectra_list` and `valid_spectra` share their objects (py/qsonic/scripts/qsonic_fit.py:327): what is done to the
valid
spectra is seen in the list of all spectra. -/
def putBack : List (FitRec K) → List (Spectrum K) → List (FitRec K)
  | [], _ => []
  | x :: l, [] => x :: putBack l []
  | x :: l, t :: ts => if x.spec.valid then { x with spec := t } :: putBack l ts else x :: putBack l (t :: ts)

/-- The options: `ncal` and `after` as in `TailCfg`; with `--exposures after` the reader of exposures and `spec.catrow`
by the target, as in `ExposureCfg`. py/qsonic/scripts/qsonic_fit.py:315-503. -/
structure AllCfg (Val K : Type) where
  cat : CatalogCfg Val K
  fns : TailFns K
  ncal : Option (NoiseCal K)
  after : Bool
  exps : Option ((List (Row Val) → Except Err (List (ReadSpec K))) × (Int → Row Val))

namespace AllCfg

variable (C : AllCfg Val K)

/-- py/qsonic/scripts/qsonic_fit.py:404-405: arms of exposures are coadded before unless this is disabled. -/
def expSel : SelectCfg K := { C.cat.run.sel with coaddBefore := C.cat.run.sel.coaddBefore || C.after }

/-- The options when the exposures are read (py/qsonic/scripts/qsonic_fit.py:403-409). -/
def expCfg (e : (List (Row Val) → Except Err (List (ReadSpec K))) × (Int → Row Val)) : ExposureCfg Val K :=
  ⟨{ C.cat.run with sel := C.expSel }, e.1, e.2⟩

/-- py/qsonic/scripts/qsonic_fit.py:327-345: the valid spectra after noise calibration and coadding. -/
def tail (g : FullState K) (l : List (FitRec K)) : Except Err (List (Spectrum K)) :=
  fitTail C.fns C.ncal C.after g.varlss g.eta ((l.filter (fun x => x.spec.valid)).map (·.spec))

/-- py/qsonic/scripts/qsonic_fit.py:350: the valid spectra of `l`, with `t` done to them. -/
def kept (l : List (ReadSpec K)) (s : List (FitRec K)) (t : List (Spectrum K)) : List (ReadSpec K) :=
  SelectCfg.setSpecs ((SelectCfg.setSpecs l (s.map (·.spec))).filter (fun x => x.spec.valid)) t

/-- py/qsonic/scripts/qsonic_fit.py:490-492. -/
def exposures (q : List (List (Row Val))) (l : List (ReadSpec K)) : Except Err (List (ReadSpec K)) :=
  match C.exps with
  | none => .ok l
  | some e => (C.expCfg e).exposuresAfter (q.flatten.map C.cat.run.tid) l

/-- py/qsonic/scripts/qsonic_fit.py:494-496. -/
def clean (l : List (ReadSpec K)) : List (ReadSpec K) :=
  l.map (fun x => { x with
    spec := x.spec.dropShortArms C.cat.run.sel.forestW1 C.cat.run.sel.forestW2 C.cat.run.sel.skip })

/-- py/qsonic/scripts/qsonic_fit.py:494-502. -/
def saveAll {V W : Type} (night : Option Val) (rank k : Nat) (b : Bool) (t : Option (List (ChiRow K)))
    (e : List (ReadSpec K)) : Prog V W (CatalogOut Val K) :=
  (ofExcept (C.cat.run.save rank (C.clean e))).bind fun files =>
  .ret ⟨⟨night, k, b, C.clean e, files⟩, t⟩

/-- py/qsonic/scripts/qsonic_fit.py:347-350, 490-502: the catalog, the exposures and the deltas, with the valid
spectra `t`. -/
def afterTail {V W : Type} (ck : Codec (List (ChiRow K)) V) (night : Option Val) (rank : Nat)
    (q : List (List (Row Val))) (l : List (ReadSpec K)) (r : FullState K × List (FitRec K) × Nat × Bool)
    (t : List (Spectrum K)) : Prog V W (CatalogOut Val K) :=
  (C.cat.saveTable ck rank (putBack r.2.1 t)).bind fun table =>
  (ofExcept (C.exposures q (kept l r.2.1 t))).bind fun e =>
  C.saveAll night rank r.2.2.1 r.2.2.2 table e

/-- py/qsonic/scripts/qsonic_fit.py:327-356, 490-502: what follows the iterations. -/
def ending {V W : Type} (ck : Codec (List (ChiRow K)) V) (night : Option Val) (rank : Nat)
    (q : List (List (Row Val))) (l : List (ReadSpec K)) (r : FullState K × List (FitRec K) × Nat × Bool) :
    Prog V W (CatalogOut Val K) :=
  (ofExcept (C.tail r.1 r.2.1)).bind fun t => C.afterTail ck night rank q l r t

/-- py/qsonic/scripts/qsonic_fit.py:452-502 `mpi_run_all`; see `WholeCfg.run`. -/
def runAll {Q D V : Type} (P : FitterFns (FullState K) (Spectrum K) (StackSums K) Q D)
    (cs : Codec Bool V) (cq : Codec (List (List (Row Val))) V) (cn : Codec Val V)
    (c : FitterCodecs (StackSums K) Q V) (ck : Codec (List (ChiRow K)) V) (read : Except Err (Catalog Val))
    (fname : String) (g0 : FullState K) (size rank : Nat) :
    Prog V (SaverEv (String × D)) (CatalogOut Val K) :=
  (mpiGetLocalQueue cs cq read C.cat.run.tile size rank).bind fun q =>
  (C.cat.run.blinding cn q).bind fun night =>
  (ofExcept (C.cat.run.prepare q)).bind fun l =>
  ((C.cat.run.fit.recFns C.cat.cov P).iterate c fname C.cat.run.niter false rank g0 (l.map C.cat.start)).bind fun r =>
  C.ending ck night rank q l r

end AllCfg
end Verif.Model
