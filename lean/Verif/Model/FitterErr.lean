import Verif.Model.AllRun

/-!
# Model of the iterations with updates that fail (`py/qsonic/picca_continuum.py:359-594`)

In `Verif.Model.Fitter` the updates of the mean continuum and of the variance functions always give a result. Here they
may raise: `UnivariateSpline` on values that it refuses (398), `VarLSSFitter.fit` with too many wavelength bins that
fail
(1106-1108). The rest is the same.
-/

namespace Verif.Model
open Verif Verif.Np Prog

/-- The exception that the update raises, if any: `mean` in `update_mean_cont` after the sums are reduced
(py/qsonic/picca_continuum.py:384-414), `var` in `update_var_lss_eta` (458). -/
structure UpdateErrs (G R Q : Type) where
  mean : G → R → Option Err
  var : G → Q → Option Err

/-- Raise the exception if there is one. py/qsonic/picca_continuum.py:359-482. -/
def orRaise {V W A : Type} (o : Option Err) (p : Prog V W A) : Prog V W A :=
  match o with
  | some e => .raise e
  | none => p

namespace FitterFns

variable {G Sp R Q D V : Type} (F : FitterFns G Sp R Q D) (E : UpdateErrs G R Q) (c : FitterCodecs R Q V)

/-- py/qsonic/picca_continuum.py:359-427 `update_mean_cont`. -/
def updateMeanContE {W : Type} (g : G) (specs : List Sp) : Prog V W (G × Bool) :=
  .allreduce (fun l => c.stack.enc (F.addR (l.map c.stack.dec)))
    (c.stack.enc (F.stack g (specs.filter (fun s => F.valid s)))) fun r =>
  orRaise (E.mean g (c.stack.dec r)) (.ret (F.meanUpd g (c.stack.dec r)))

/-- py/qsonic/picca_continuum.py:429-482 `update_var_lss_eta`. -/
def updateVarLssEtaE {W : Type} (rank : Nat) (g : G) (specs : List Sp) : Prog V W G :=
  .allreduce (fun l => c.var.enc (F.addQ (l.map c.var.dec)))
    (c.var.enc (F.varAcc rank g (specs.filter (fun s => F.valid s)))) fun q =>
  orRaise (E.var g (c.var.dec q)) (.ret (F.varUpd g (c.var.dec q)))

/-- py/qsonic/picca_continuum.py:561-562: `if self.varlss_fitter: ...`. -/
def varStepE {W : Type} (rank : Nat) (hasFitter : Bool) (g : G) (specs : List Sp) : Prog V W G :=
  if hasFitter then F.updateVarLssEtaE E c rank g specs else .ret g

/-- py/qsonic/picca_continuum.py:550-566; see `iterLoop`. -/
def iterLoopE (s : Saver) (rank : Nat) (hasFitter : Bool) : Nat → Nat → G → List Sp →
    Prog V (SaverEv (String × D)) (G × List Sp × Nat × Bool)
  | 0, it, g, specs => .ret (g, specs, it, false)
  | n + 1, it, g, specs =>
    .emits (F.saveEv s hasFitter (suffix it) g) <|
    (F.fitContinua c g specs).bind fun f =>
    (F.updateMeanContE E c g f.1).bind fun m =>
    (F.varStepE E c rank hasFitter m.1 f.1).bind fun g2 =>
    if m.2 then .ret (g2, f.1, it + 1, true) else iterLoopE s rank hasFitter n (it + 1) g2 f.1

/-- py/qsonic/picca_continuum.py:584-594 `fit_final_varlss`. -/
def fitFinalVarlssE {W : Type} (rank : Nat) (g : G) (specs : List Sp) : Prog V W G :=
  (F.updateVarLssEtaE E c rank (F.newVar g) specs).bind fun g1 =>
  (F.updateMeanContE E c g1 specs).bind fun m => .ret m.1

/-- py/qsonic/picca_continuum.py:575-577. -/
def finalVarE (s : Saver) (rank : Nat) (hasFitter : Bool) (g : G) (specs : List Sp) :
    Prog V (SaverEv (String × D)) G :=
  if hasFitter then .ret g
  else (F.fitFinalVarlssE E c rank g specs).bind fun g' => .emits (F.saveEv s true "-fit" g') (.ret g')

/-- py/qsonic/picca_continuum.py:522-582 `iterate`; see `FitterFns.iterate`. -/
def iterateE (fname : String) (niter : Nat) (hasFitter : Bool) (rank : Nat) (g : G) (specs : List Sp) :
    Prog V (SaverEv (String × D)) (G × List Sp × Nat × Bool) :=
  let ev := (Saver.init (D := String × D) fname rank).1
  let s := (Saver.init (D := String × D) fname rank).2
  .emits ev <|
  (F.iterLoopE E c s rank hasFitter niter 0 g specs).bind fun r =>
  .emits (F.saveEv s hasFitter "" r.1) <|
  (F.finalVarE E c s rank hasFitter r.1 (F.tweak r.1 r.2.1)).bind fun g' =>
  .emits (s.write ("VAR_STATS", F.dataStats g') ++ s.close) <|
  .ret (g', F.tweak r.1 r.2.1, r.2.2)

end FitterFns

/-- py/qsonic/scripts/qsonic_fit.py:452-502 `mpi_run_all` with updates that may fail; `hasFitter` is false with
`--fiducial-varlss` (py/qsonic/picca_continuum.py:208-216). See `AllCfg.runAll`. -/
def AllCfg.runE {Val K : Type} [LinearOrder Val] [Field K] [LinearOrder K] [FloorRing K] (C : AllCfg Val K)
    {Q D V : Type} (P : FitterFns (FullState K) (Spectrum K) (StackSums K) Q D)
    (E : UpdateErrs (FullState K) (StackSums K) Q)
    (cs : Codec Bool V) (cq : Codec (List (List (Row Val))) V) (cn : Codec Val V)
    (c : FitterCodecs (StackSums K) Q V) (ck : Codec (List (ChiRow K)) V) (read : Except Err (Catalog Val))
    (fname : String) (hasFitter : Bool) (g0 : FullState K) (size rank : Nat) :
    Prog V (SaverEv (String × D)) (CatalogOut Val K) :=
  (mpiGetLocalQueue cs cq read C.cat.run.tile size rank).bind fun q =>
  (C.cat.run.blinding cn q).bind fun night =>
  (ofExcept (C.cat.run.prepare q)).bind fun l =>
  ((C.cat.run.fit.recFns C.cat.cov P).iterateE E c fname C.cat.run.niter hasFitter rank g0
    (l.map C.cat.start)).bind fun r =>
  C.ending ck night rank q l r

end Verif.Model
