import Verif.Model.MpiCalls

/-!
# Model of `PiccaContinuumFitter` (`py/qsonic/picca_continuum.py:284-681`) as an MPI program

`G` is what a rank holds of the global functions (mean continuum, mean flux, LSS variance, eta and the stacked flux;
every rank has its own copy), `Sp` a spectrum. What is done with them numerically is a parameter.
Simplifications: the arrays that `FluxStacker.calculate` and `VarLSSFitter` reduce one after the other are reduced
together; logging is left out.
-/

namespace Verif.Model
open Prog

/-- The numerical parts. `R`: sums of the flux stack, `Q`: sums of the variance statistics, `D`: tables written.
py/qsonic/picca_continuum.py:284-482. -/
structure FitterFns (G Sp R Q D : Type) where
  /-- `self.model.fit_continuum(spec)` -/
  fitOne : G → Sp → Sp
  /-- `spec.cont_params['valid']` -/
  valid : Sp → Bool
  /-- `flux_stacker.reset()` and `model.stack_spectra` of the valid spectra -/
  stack : G → List Sp → R
  addR : List R → R
  /-- the rest of `update_mean_cont`: new mean continuum and `has_converged` -/
  meanUpd : G → R → G × Bool
  /-- `varlss_fitter.reset()` and `add` for the valid spectra; the subsample that `add` begins with depends on the
  rank -/
  varAcc : Nat → G → List Sp → Q
  addQ : List Q → Q
  /-- the rest of `update_var_lss_eta` -/
  varUpd : G → Q → G
  /-- lines 586-590: new variance fitter and interpolators -/
  newVar : G → G
  /-- `_normalize_flux` (484-501) for a valid spectrum -/
  normalize : G → Sp → Sp
  /-- `_eta_calibate_ivar` (503-520) for a spectrum -/
  etaCalib : G → Sp → Sp
  dataCont : G → D
  dataFlux : G → D
  dataFluxRf : G → D
  dataVar : G → D
  dataStats : G → D

/-- The serialisations of what is exchanged. py/qsonic/picca_continuum.py:309-310, 936-940, 1327-1344. -/
structure FitterCodecs (R Q V : Type) where
  nat : Codec Nat V
  stack : Codec R V
  var : Codec Q V

namespace FitterFns

variable {G Sp R Q D V : Type} (F : FitterFns G Sp R Q D) (c : FitterCodecs R Q V)

/-- `comm.allreduce` of a number: the sum. py/qsonic/picca_continuum.py:309-310. -/
def sumNat (l : List V) : V := c.nat.enc ((l.map c.nat.dec).sum)

/-- py/qsonic/picca_continuum.py:284-319 `fit_continua`; the result is the list of the spectra, which the code
changes in place, and the two counts. -/
def fitContinua {W : Type} (g : G) (specs : List Sp) : Prog V W (List Sp × Nat × Nat) :=
  let specs' := specs.map (F.fitOne g)
  let numValid := specs'.countP (fun s => F.valid s)
  let numInvalid := specs'.countP (fun s => !F.valid s)
  .allreduce (sumNat c) (c.nat.enc numValid) fun nv =>
  .allreduce (sumNat c) (c.nat.enc numInvalid) fun ni =>
  if c.nat.dec nv = 0 then .raise .qsonic
  else .ret (specs', c.nat.dec nv, c.nat.dec ni)

/-- py/qsonic/picca_continuum.py:359-427 `update_mean_cont`. -/
def updateMeanCont {W : Type} (g : G) (specs : List Sp) : Prog V W (G × Bool) :=
  .allreduce (fun l => c.stack.enc (F.addR (l.map c.stack.dec)))
    (c.stack.enc (F.stack g (specs.filter (fun s => F.valid s)))) fun r =>
  .ret (F.meanUpd g (c.stack.dec r))

/-- py/qsonic/picca_continuum.py:429-482 `update_var_lss_eta`. -/
def updateVarLssEta {W : Type} (rank : Nat) (g : G) (specs : List Sp) : Prog V W G :=
  .allreduce (fun l => c.var.enc (F.addQ (l.map c.var.dec)))
    (c.var.enc (F.varAcc rank g (specs.filter (fun s => F.valid s)))) fun q =>
  .ret (F.varUpd g (c.var.dec q))

/-- py/qsonic/picca_continuum.py:596-630 `save`: the extensions; `hasFitter` is `self.varlss_fitter is not None`. -/
def saveExts (hasFitter : Bool) (suff : String) (g : G) : List (String × D) :=
  [("CONT" ++ suff, F.dataCont g), ("STACKED_FLUX" ++ suff, F.dataFlux g),
    ("STACKED_FLUX_RF" ++ suff, F.dataFluxRf g)] ++ if hasFitter then [("VAR_FUNC" ++ suff, F.dataVar g)] else []

/-- `f"-{it + 1}"`. py/qsonic/picca_continuum.py:556. -/
def suffix (it : Nat) : String := "-" ++ Nat.repr (it + 1)

/-- `save` on the file handler of this rank. py/qsonic/picca_continuum.py:596-630. -/
def saveEv (s : Saver) (hasFitter : Bool) (suff : String) (g : G) : List (SaverEv (String × D)) :=
  (F.saveExts hasFitter suff g).flatMap s.write

/-- py/qsonic/picca_continuum.py:561-562: `if self.varlss_fitter: ...`. -/
def varStep {W : Type} (rank : Nat) (hasFitter : Bool) (g : G) (specs : List Sp) : Prog V W G :=
  if hasFitter then F.updateVarLssEta c rank g specs else .ret g

/-- py/qsonic/picca_continuum.py:550-566: the loop, with the number of iterations left and done. The result is the
global functions, the spectra, the number of iterations and `has_converged`. -/
def iterLoop (s : Saver) (rank : Nat) (hasFitter : Bool) : Nat → Nat → G → List Sp →
    Prog V (SaverEv (String × D)) (G × List Sp × Nat × Bool)
  | 0, it, g, specs => .ret (g, specs, it, false)
  | n + 1, it, g, specs =>
    .emits (F.saveEv s hasFitter (suffix it) g) <|
    (F.fitContinua c g specs).bind fun f =>
    (F.updateMeanCont c g f.1).bind fun m =>
    (F.varStep c rank hasFitter m.1 f.1).bind fun g2 =>
    if m.2 then .ret (g2, f.1, it + 1, true) else iterLoop s rank hasFitter n (it + 1) g2 f.1

/-- py/qsonic/picca_continuum.py:484-520: `_normalize_flux` and `_eta_calibate_ivar`. -/
def tweak (g : G) (specs : List Sp) : List Sp :=
  (specs.map (fun s => if F.valid s then F.normalize g s else s)).map (F.etaCalib g)

/-- py/qsonic/picca_continuum.py:584-594 `fit_final_varlss`. -/
def fitFinalVarlss {W : Type} (rank : Nat) (g : G) (specs : List Sp) : Prog V W G :=
  (F.updateVarLssEta c rank (F.newVar g) specs).bind fun g1 =>
  (F.updateMeanCont c g1 specs).bind fun m => .ret m.1

/-- py/qsonic/picca_continuum.py:575-577. -/
def finalVar (s : Saver) (rank : Nat) (hasFitter : Bool) (g : G) (specs : List Sp) :
    Prog V (SaverEv (String × D)) G :=
  if hasFitter then .ret g
  else (F.fitFinalVarlss c rank g specs).bind fun g' => .emits (F.saveEv s true "-fit" g') (.ret g')

/-- py/qsonic/picca_continuum.py:522-582 `iterate`, after `init_spectra` (546). `fname` is empty without an output
directory. -/
def iterate (fname : String) (niter : Nat) (hasFitter : Bool) (rank : Nat) (g : G) (specs : List Sp) :
    Prog V (SaverEv (String × D)) (G × List Sp × Nat × Bool) :=
  let ev := (Saver.init (D := String × D) fname rank).1
  let s := (Saver.init (D := String × D) fname rank).2
  .emits ev <|
  (F.iterLoop c s rank hasFitter niter 0 g specs).bind fun r =>
  .emits (F.saveEv s hasFitter "" r.1) <|
  (F.finalVar c s rank hasFitter r.1 (F.tweak r.1 r.2.1)).bind fun g' =>
  .emits (s.write ("VAR_STATS", F.dataStats g') ++ s.close) <|
  .ret (g', F.tweak r.1 r.2.1, r.2.2)

end FitterFns

/-! ### The chi square catalog -/

/-- What is used of a spectrum in `save_contchi2_catalog`. py/qsonic/picca_continuum.py:658-674. -/
structure ChiSpec (K : Type) where
  targetid : Int
  z : K
  hpxpixel : Int
  meanSnr : List (String × K)
  rsnr : K
  valid : Bool
  chi2 : K
  dof : Int
  x : List K
  xcov : List K

/-- A row of the catalog. py/qsonic/picca_continuum.py:648-655. -/
structure ChiRow (K : Type) where
  targetid : Int
  z : K
  hpxpixel : Int
  arms : String
  meanSnr : List K
  rsnr : K
  rank : Nat
  valid : Bool
  chi2 : K
  dof : Int
  x : List K
  xcov : List K
  deriving DecidableEq

/-- Assignment of an array to a column of shape `(n,)`: one value is broadcast, another length raises
`ValueError`. py/qsonic/picca_continuum.py:672-674. -/
def assignVec {K : Type} (n : Nat) (l : List K) : Except Err (List K) :=
  if l.length = n then .ok l
  else match l with
    | [a] => .ok (List.replicate n a)
    | _ => .error .valueError

/-- py/qsonic/picca_continuum.py:657-659: `mean_snrs[:len(_x)] = _x`. -/
def snrVec {K : Type} [Zero K] (l : List K) : Except Err (List K) :=
  if l.length ≤ 3 then .ok (l ++ List.replicate (3 - l.length) 0) else .error .valueError

/-- py/qsonic/picca_continuum.py:656-672: the row of a spectrum. Single precision is not modelled. -/
def chiRow {K : Type} [Zero K] (corder rank : Nat) (s : ChiSpec K) : Except Err (ChiRow K) := do
  let snr ← snrVec (s.meanSnr.map Prod.snd)
  let x ← assignVec corder s.x
  let xcov ← assignVec (corder ^ 2) s.xcov
  pure { targetid := s.targetid, z := s.z, hpxpixel := s.hpxpixel,
         arms := String.ofList ((",".intercalate (s.meanSnr.map Prod.fst)).toList.take 5), meanSnr := snr,
         rsnr := s.rsnr, rank := rank, valid := s.valid, chi2 := s.chi2, dof := s.dof, x := x, xcov := xcov }

/-- The catalog file. py/qsonic/picca_continuum.py:676-682. -/
inductive ChiEv (K : Type)
  | file (fname extname : String) (rows : List (ChiRow K))
  deriving DecidableEq

/-- py/qsonic/picca_continuum.py:674-681, on the root. -/
def chiWrite {K V : Type} (c : Codec (List (ChiRow K)) V) (outdir : String) :
    Option (List V) → Prog V (ChiEv K) Unit
  | some l => .emit (.file (outdir ++ "/continuum_chi2_catalog.fits") "CHI2_CAT" (l.map c.dec).flatten) (.ret ())
  | none => .ret ()

/-- py/qsonic/picca_continuum.py:632-681 `save_contchi2_catalog`; `outdir` is empty if not set. -/
def saveContchi2 {K V : Type} [Zero K] (c : Codec (List (ChiRow K)) V) (outdir : String) (corder rank : Nat)
    (specs : List (ChiSpec K)) : Prog V (ChiEv K) Unit :=
  if outdir = "" then .ret ()
  else (ofExcept (specs.mapM (chiRow corder rank))).bind fun rows =>
    .gather (c.enc rows) (chiWrite c outdir)

end Verif.Model
