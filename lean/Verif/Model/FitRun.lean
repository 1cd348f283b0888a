import Verif.Model.Catalog
import Verif.Model.Masks

/-!
# Model of the control flow of `qsonic-fit` (`py/qsonic/scripts/qsonic_fit.py:452-530`) with stages that may fail

All that a rank does between two collectives is a stage which may raise on any rank. What the stages compute is a
parameter: `S` is all that a rank holds, `G` the global functions of the continuum fitter, `U` any data read from a file
or exchanged. The collectives, the branches around them and the exceptions are those of the code.
Simplifications: arrays that are reduced one after the other are reduced together; logging is left out; the number of
spectra read, which is only logged, is data like any other.
-/

namespace Verif.Model
open Prog

/-- The options that decide on the control flow. py/qsonic/scripts/qsonic_fit.py:452-503. -/
structure FitOpts where
  outdir : String
  mock : Bool
  tile : Bool
  skyMask : Bool
  balMask : Bool
  dlaMask : Bool
  noiseCal : Bool
  fluxCal : Bool
  addVarlss : Bool
  smoothing : Bool
  fidMeanflux : Bool
  fidVarlss : Bool
  niter : Nat
  coaddAfter : Bool
  exposuresAfter : Bool
  deriving DecidableEq

/-- Stages that a rank does on its own (scripts/qsonic_fit.py unless stated).
py/qsonic/scripts/qsonic_fit.py:98-503. -/
inductive LocStage where
  /-- 474 -/
  | blinding
  /-- py/qsonic/masks.py:68-74 after reading -/
  | sky
  /-- 209-210 -/
  | dlaIds
  /-- py/qsonic/masks.py:424-434 -/
  | dla
  /-- 121-145 -/
  | read
  /-- 160 -/
  | noise
  /-- 166 -/
  | flux
  /-- 300-310 -/
  | maskSelect
  /-- 484-486 -/
  | smooth
  /-- py/qsonic/picca_continuum.py:546, `init_spectra` -/
  | initSpectra
  /-- py/qsonic/picca_continuum.py:546-547, the file on the root -/
  | openFile
  /-- py/qsonic/picca_continuum.py:552, the file on the root -/
  | save
  /-- py/qsonic/picca_continuum.py:297-307, the fits of the spectra of this rank -/
  | fit
  /-- py/qsonic/picca_continuum.py:566-568 -/
  | normalize
  /-- py/qsonic/picca_continuum.py:570-580, the file on the root -/
  | saveFinal
  /-- 335-339 -/
  | varlssNoise
  /-- 343-345 -/
  | coadd
  /-- py/qsonic/picca_continuum.py:675-681, on the root -/
  | writeChi2
  /-- 391-408 -/
  | localCatalog
  /-- 415-442 -/
  | matchCont
  /-- 494-496 -/
  | dropShort
  /-- 500-502 -/
  | saveDeltas
  deriving DecidableEq

/-- Files read on the root by `mpi_fnc_bcast` (the sky mask by every rank).
py/qsonic/mpi_utils.py:52-107, py/qsonic/masks.py:67-74. -/
inductive FileStage where
  | sky | dla | noise | flux | meanflux | varlss
  deriving DecidableEq

/-- Data of all ranks that is brought together. py/qsonic/picca_continuum.py:309-310, 936-940, 1327-1344. -/
inductive ValStage where
  /-- py/qsonic/scripts/qsonic_fit.py:472-473 -/
  | lastNight
  /-- py/qsonic/scripts/qsonic_fit.py:147 -/
  | numSpec
  /-- py/qsonic/picca_continuum.py:309 -/
  | numValid
  /-- py/qsonic/picca_continuum.py:310 -/
  | numInvalid
  /-- py/qsonic/picca_continuum.py:1330-1334 -/
  | stack
  /-- py/qsonic/picca_continuum.py:939-940, py/qsonic/mathtools.py:561-562 -/
  | variance
  /-- py/qsonic/picca_continuum.py:640-674 -/
  | chi2
  deriving DecidableEq

/-- Computations of the global functions, which every rank does with the same data.
py/qsonic/picca_continuum.py:359-482. -/
inductive GlobStage where
  /-- py/qsonic/picca_continuum.py:250-273 -/
  | initFitter
  /-- py/qsonic/picca_continuum.py:275-282 -/
  | initModel
  /-- py/qsonic/picca_continuum.py:312-315; raises `QsonicException` without valid fits -/
  | checkValid
  /-- py/qsonic/picca_continuum.py:371-427 -/
  | meanCont
  /-- py/qsonic/picca_continuum.py:449-465, 945-1115; raises `QsonicException` if many fits fail -/
  | varLss
  /-- py/qsonic/picca_continuum.py:586-590 -/
  | newVar
  deriving DecidableEq

/-- What the stages do, on each rank. py/qsonic/scripts/qsonic_fit.py:452-503. -/
structure RunFns (Val S G U : Type) where
  /-- `read_quasar_catalog` on the root -/
  catalog : FitOpts → Except Err (Catalog Val)
  /-- columns of the catalog, known to every rank from its queue -/
  cols : FitOpts → List String
  /-- py/qsonic/scripts/qsonic_fit.py:456-462, `os_makedirs` on the root and the redshift range -/
  makedirs : Nat → FitOpts → Except Err Unit
  init : Nat → List (List (Row Val)) → S
  g0 : G
  loc : LocStage → Nat → FitOpts → G → Option U → S → Except Err S
  file : FileStage → Nat → FitOpts → Except Err U
  value : ValStage → Nat → FitOpts → G → S → Except Err U
  combine : ValStage → List U → U
  glob : GlobStage → FitOpts → G → Option U → Except Err (G × Bool)

/-- Serialisations. py/qsonic/scripts/qsonic_fit.py:452-503. -/
structure RunCodecs (Val U V : Type) where
  opts : Codec (Option FitOpts) V
  status : Codec Bool V
  queue : Codec (List (List (Row Val))) V
  file : Codec (Option U) V
  val : Codec U V

namespace RunFns

variable {Val S G U V W : Type} [LinearOrder Val] (F : RunFns Val S G U) (C : RunCodecs Val U V)
  (called : W) (o : FitOpts) (rank : Nat)

/-- A stage of the rank. py/qsonic/scripts/qsonic_fit.py:452-503. -/
def local' (st : LocStage) (g : G) (u : Option U) (s : S) : Prog V W S := ofExcept (F.loc st rank o g u s)

/-- `comm.allreduce`. py/qsonic/picca_continuum.py:309-310, 936-940, 1327-1344. -/
def allred (st : ValStage) (g : G) (s : S) : Prog V W U :=
  (ofExcept (F.value st rank o g s)).bind fun u =>
  .allreduce (fun l => C.val.enc (F.combine st (l.map C.val.dec))) (C.val.enc u) fun v => .ret (C.val.dec v)

/-- `mpi_fnc_bcast`, then what the rank does with the data; only with the option. py/qsonic/mpi_utils.py:52-107. -/
def fileStage (opt : Bool) (f : FileStage) (st : LocStage) (g : G) (s : S) : Prog V W S :=
  if opt then
    (mpiFncBcast C.file called (F.file f rank o) true rank).bind fun u => F.local' o rank st g (some u) s
  else .ret s

/-- A stage only with the option. py/qsonic/scripts/qsonic_fit.py:452-503. -/
def optStage (opt : Bool) (st : LocStage) (g : G) (s : S) : Prog V W S :=
  if opt then F.local' o rank st g none s else .ret s

/-- py/qsonic/scripts/qsonic_fit.py:468-474. -/
def blind (s : S) : Prog V W S :=
  if o.mock then F.local' o rank .blinding F.g0 none s
  else (F.allred C o rank .lastNight F.g0 s).bind fun u => F.local' o rank .blinding F.g0 (some u) s

/-- py/qsonic/scripts/qsonic_fit.py:194-195: `SkyMask(args.sky_mask)`, that is `comm=None`: every rank reads the
file. -/
def skyStage (s : S) : Prog V W S :=
  if o.skyMask then
    (mpiFncBcast C.file called (F.file .sky rank o) false rank).bind fun u => F.local' o rank .sky F.g0 (some u) s
  else .ret s

/-- py/qsonic/scripts/qsonic_fit.py:200-204: `local_queue[0]` of an empty queue raises `IndexError`. -/
def balStage (queue : List (List (Row Val))) : Except Err Unit :=
  if o.balMask then
    match queue with
    | [] => .error .indexError
    | _ :: _ => balCheckCatalog (F.cols o)
  else .ok ()

/-- py/qsonic/scripts/qsonic_fit.py:206-218. -/
def dlaStage (s : S) : Prog V W S :=
  (F.optStage o rank o.dlaMask .dlaIds F.g0 s).bind fun s => F.fileStage C called o rank o.dlaMask .dla .dla F.g0 s

/-- py/qsonic/scripts/qsonic_fit.py:169-220 `mpi_read_masks`. -/
def readMasks (queue : List (List (Row Val))) (s : S) : Prog V W S :=
  (F.skyStage C called o rank s).bind fun s =>
  (ofExcept (F.balStage o queue)).bind fun _ => F.dlaStage C called o rank s

/-- py/qsonic/scripts/qsonic_fit.py:267-312 `mpi_read_calibrate_mask_select_spectra` with 98-166. -/
def readSelect (g : G) (s : S) : Prog V W S :=
  (F.local' o rank .read g none s).bind fun s =>
  (ofExcept (F.value .numSpec rank o g s)).bind fun u =>
  .reduce (fun l => C.val.enc (F.combine .numSpec (l.map C.val.dec))) (C.val.enc u) fun _ =>
  (F.fileStage C called o rank o.noiseCal .noise .noise g s).bind fun s =>
  (F.fileStage C called o rank o.fluxCal .flux .flux g s).bind fun s =>
  F.local' o rank .maskSelect g none s

/-- A file of the fitter, read on the root. py/qsonic/picca_continuum.py:149-216. -/
def fiducial (opt : Bool) (f : FileStage) : Prog V W (Option U) :=
  if opt then (mpiFncBcast C.file called (F.file f rank o) true rank).bind fun u => .ret (some u) else .ret none

/-- py/qsonic/picca_continuum.py:246-282 `PiccaContinuumFitter.__init__`. -/
def initFitter : Prog V W G :=
  (ofExcept (F.glob .initFitter o F.g0 none)).bind fun g =>
  (F.fiducial C called o rank o.fidMeanflux .meanflux).bind fun u =>
  (ofExcept (F.glob .initFitter o g.1 u)).bind fun g =>
  (F.fiducial C called o rank o.fidVarlss .varlss).bind fun u =>
  (ofExcept (F.glob .initModel o g.1 u)).bind fun g => .ret g.1

/-- Collects data of all ranks and updates the global functions. py/qsonic/picca_continuum.py:359-482. -/
def update (v : ValStage) (st : GlobStage) (g : G) (s : S) : Prog V W (G × Bool) :=
  (F.allred C o rank v g s).bind fun u => ofExcept (F.glob st o g (some u))

/-- py/qsonic/picca_continuum.py:561-562. -/
def varStage (opt : Bool) (g : G) (s : S) : Prog V W G :=
  if opt then (F.update C o rank .variance .varLss g s).bind fun g => .ret g.1 else .ret g

/-- py/qsonic/picca_continuum.py:284-319 `fit_continua`. -/
def fitStage (g : G) (s : S) : Prog V W S :=
  (F.local' o rank .fit g none s).bind fun s =>
  (F.allred C o rank .numValid g s).bind fun nv =>
  (F.allred C o rank .numInvalid g s).bind fun _ =>
  (ofExcept (F.glob .checkValid o g (some nv))).bind fun _ => .ret s

/-- py/qsonic/picca_continuum.py:549-562: the loop with the number of iterations left. -/
def loop : Nat → G → S → Prog V W (G × S)
  | 0, g, s => .ret (g, s)
  | n + 1, g, s =>
    (F.local' o rank .save g none s).bind fun s =>
    (F.fitStage C o rank g s).bind fun s =>
    (F.update C o rank .stack .meanCont g s).bind fun m =>
    (F.varStage C o rank (!o.fidVarlss) m.1 s).bind fun g =>
    if m.2 then .ret (g, s) else loop n g s

/-- py/qsonic/picca_continuum.py:572-573, 584-594 `fit_final_varlss`. -/
def finalStage (g : G) (s : S) : Prog V W G :=
  if o.fidVarlss then
    (ofExcept (F.glob .newVar o g none)).bind fun g =>
    (F.update C o rank .variance .varLss g.1 s).bind fun g =>
    (F.update C o rank .stack .meanCont g.1 s).bind fun g => .ret g.1
  else .ret g

/-- py/qsonic/picca_continuum.py:522-582 `iterate`. -/
def iterateF (g : G) (s : S) : Prog V W (G × S) :=
  (F.local' o rank .initSpectra g none s).bind fun s =>
  (F.local' o rank .openFile g none s).bind fun s =>
  (F.loop C o rank o.niter g s).bind fun x =>
  (F.local' o rank .normalize x.1 none x.2).bind fun s =>
  (F.local' o rank .save x.1 none s).bind fun s =>
  (F.finalStage C o rank x.1 s).bind fun g =>
  (F.local' o rank .saveFinal g none s).bind fun s => .ret (g, s)

/-- py/qsonic/picca_continuum.py:632-681 `save_contchi2_catalog`. -/
def chi2Stage (g : G) (s : S) : Prog V W S :=
  if o.outdir = "" then .ret s
  else (ofExcept (F.value .chi2 rank o g s)).bind fun u =>
    .gather (C.val.enc u) fun _ => F.local' o rank .writeChi2 g none s

/-- py/qsonic/scripts/qsonic_fit.py:315-356 `mpi_continuum_fitting`. -/
def fitting (s : S) : Prog V W (G × S) :=
  (F.initFitter C called o rank).bind fun g =>
  (F.iterateF C o rank g s).bind fun x =>
  (F.fileStage C called o rank (o.noiseCal && o.addVarlss) .noise .varlssNoise x.1 x.2).bind fun s =>
  (F.optStage o rank o.coaddAfter .coadd x.1 s).bind fun s =>
  (F.chi2Stage C o rank x.1 s).bind fun s => .ret (x.1, s)

/-- py/qsonic/scripts/qsonic_fit.py:359-449 `mpi_read_exposures_after`. -/
def exposures (g : G) (s : S) : Prog V W S :=
  if o.exposuresAfter then
    (F.local' o rank .localCatalog g none s).bind fun s =>
    (F.readSelect C called o rank g s).bind fun s => F.local' o rank .matchCont g none s
  else .ret s

/-- py/qsonic/scripts/qsonic_fit.py:452-503 `mpi_run_all` after the options are parsed. -/
def runOpts (size : Nat) : Prog V W Unit :=
  (ofExcept (F.makedirs rank o)).bind fun _ =>
  (mpiGetLocalQueue C.status C.queue (F.catalog o) o.tile size rank).bind fun q =>
  (F.blind C o rank (F.init rank q)).bind fun s =>
  (F.readMasks C called o rank q s).bind fun s =>
  (F.readSelect C called o rank F.g0 s).bind fun s =>
  (F.optStage o rank o.smoothing .smooth F.g0 s).bind fun s =>
  (F.fitting C called o rank s).bind fun x =>
  (F.exposures C called o rank x.1 x.2).bind fun s =>
  (F.local' o rank .dropShort x.1 none s).bind fun s =>
  (F.local' o rank .saveDeltas x.1 none s).bind fun _ => .ret ()

/-- py/qsonic/scripts/qsonic_fit.py:452-503 `mpi_run_all`. -/
def runAll (parse : Except Err FitOpts) (logic : FitOpts → Except Err (Bool × FitOpts)) (size : Nat) :
    Prog V W Unit :=
  (mpiParse C.opts parse logic rank).bind fun o => F.runOpts C called o rank size

end RunFns

/-- py/qsonic/scripts/qsonic_fit.py:521-527 and py/qsonic/scripts/qsonic_calib.py:275-281: what `main` does with an
exception. `SystemExit` is
no `Exception`. -/
def mainHandler {V W A : Type} : Err → Prog V W A
  | .qsonic => .raise (.systemExit 1)
  | .systemExit c => .raise (.systemExit c)
  | _ => .abort

/-- py/qsonic/scripts/qsonic_fit.py:518-527 and py/qsonic/scripts/qsonic_calib.py:273-281 `main`. -/
def mainProg {V W A : Type} (p : Prog V W A) : Prog V W A := p.catch' mainHandler

end Verif.Model
