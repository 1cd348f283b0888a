import Verif.Model.Calib
import Verif.Model.Masks
import Verif.Model.VarTable

/-!
# A run of `qsonic-calib` with what it computes (`py/qsonic/scripts/qsonic_calib.py:206-259`)

The parts are put together: targets to remove, delta files, statistics of the variance, fit, and stack of the fluxes.
The control flow with errors in any stage is in `Verif.Model.CalibRun`. Parsing of options, the output directory and
logging are left out.
-/

namespace Verif.Model
open Verif Verif.Np Prog

variable {K : Type} [Field K] [LinearOrder K]

section
variable {n : Nat} {c : VarCfg K}

/-- The arrays of `VarLSSFitter` that are summed over the ranks. py/qsonic/picca_continuum.py:936-940. -/
structure VarSums (K : Type) (n : Nat) (c : VarCfg K) where
  x : Fin n → Fin 4 → Fin ((c.nv + 2) * (c.nw + 2)) → K
  w : Fin n → Fin ((c.nv + 2) * (c.nw + 2)) → K
  numPix : Fin ((c.nv + 2) * (c.nw + 2)) → Nat
  numQso : Fin ((c.nv + 2) * (c.nw + 2)) → Nat

/-- The arrays of this rank. py/qsonic/picca_continuum.py:936-940. -/
def VarLss.sums (s : VarLss K n c) : VarSums K n c := ⟨s.sub.x, s.sub.w, s.numPix, s.numQso⟩

/-- Their sums. py/qsonic/picca_continuum.py:936-940. -/
def VarSums.total (l : List (VarSums K n c)) : VarSums K n c :=
  ⟨fun i j k => (l.map (fun s => s.x i j k)).sum, fun i k => (l.map (fun s => s.w i k)).sum,
    fun k => (l.map (fun s => s.numPix k)).sum, fun k => (l.map (fun s => s.numQso k)).sum⟩

/-- The object with other arrays. py/qsonic/picca_continuum.py:936-940. -/
def VarLss.withSums (s : VarLss K n c) (t : VarSums K n c) : VarLss K n c :=
  { s with sub := { s.sub with x := t.x, w := t.w }, numPix := t.numPix, numQso := t.numQso }

/-- An object with a possible exception. py/qsonic/picca_continuum.py:885-917. -/
def VarLss.orRaise {V W : Type} (r : VarLss K n c × Option Err) : Prog V W (VarLss K n c) :=
  match r.2 with
  | some e => .raise e
  | none => .ret r.1

/-- py/qsonic/picca_continuum.py:919-970 `calculate_subsampler_stats` on one rank, which calls `Allreduce`. Four
calls in
the code (py/qsonic/mathtools.py:561-562, py/qsonic/picca_continuum.py:939-940), one here. -/
def VarLss.statsProg {V W : Type} (eps : K) (useCov : Bool) (cv : Codec (VarSums K n c) V) (s : VarLss K n c) :
    Prog V W (VarLss K n c) :=
  if s.calculated then .ret s
  else
    .allreduce (fun l => cv.enc (VarSums.total (l.map cv.dec))) (cv.enc s.sums) fun v =>
    VarLss.orRaise ((s.withSums (cv.dec v)).finish eps useCov)

end

/-- Options and constants. `removeList`, `catalog`: these options are given; `cols` are the columns of the catalog.
`sqrt`, `cholesky`, `curveFit` and `smooth` are numpy and scipy functions as in `VarLss.fit`, `eps` as in `Subsample`,
`minPix` and `minQso` are constants of `VarLSSFitter`, `nsub` the number of subsamples.
py/qsonic/scripts/qsonic_calib.py:206-260. -/
structure CalibCfg (K : Type) where
  var : VarCfg K
  nsub : Nat
  nsub_pos : 0 < nsub
  useCov : Bool
  removeList : Bool
  catalog : Bool
  cols : List String
  removeBal : Bool
  keepSurveys : List String
  minSnr : K
  maxSnr : K
  eps : K
  minPix : Nat
  minQso : Nat
  sqrt : K → K
  cholesky : List (List K) → Bool
  curveFit : List K × List K × VarLss.Sigma K → List K → Option (List K × List K)
  smooth : List (List K) → List (List K) → List (List K)

/-- What is written to the file. py/qsonic/scripts/qsonic_calib.py:241-257. -/
inductive CalHdu (K : Type) where
  /-- py/qsonic/picca_continuum.py:1120-1161 -/
  | stats (t : VarTable K)
  /-- py/qsonic/scripts/qsonic_calib.py:246-251: central wavelengths, fitted values and errors -/
  | func (wave : List K) (y e : List (List K))
  /-- py/qsonic/scripts/qsonic_calib.py:254-257 -/
  | stack (wave flux : List K)

/-- What a rank has at the end. py/qsonic/scripts/qsonic_calib.py:206-260. -/
structure CalibOut (K : Type) where
  kept : List (CalDelta K)
  table : VarTable K
  fit : List (List K) × List (List K)
  stack : List K × List K

/-- Outcomes, on this rank, of what is read from files: the list of targets, the catalog, the names of the delta
files and
the files themselves. Only those of the root matter for the first three. py/qsonic/scripts/qsonic_calib.py:88-173. -/
structure CalibIn (K : Type) where
  ids : Except Err (List Int)
  cat : Except Err (List (CalRow K))
  glob : Except Err (List String)
  read : String → Except Err (List (CalDelta K))

/-- Serialisations of what is exchanged. py/qsonic/scripts/qsonic_calib.py:88-260. -/
structure CalibCodecs (K : Type) (n : Nat) (c : VarCfg K) (V : Type) where
  ids : Codec (Option (List Int)) V
  cat : Codec (Option (List (CalRow K))) V
  glob : Codec (Option (List String)) V
  sums : Codec (VarSums K n c) V
  arr : Codec (List K) V

/-- py/qsonic/scripts/qsonic_calib.py:229-230: the pixels given to `add`. -/
def CalDelta.vpix (d : CalDelta K) : List (VPix K) :=
  (d.wave.zip (d.delta.zip d.ivar)).map (fun p => ⟨p.1, p.2.1, p.2.2⟩)

namespace CalibCfg
variable (C : CalibCfg K) {V W : Type} (c : CalibCodecs K C.nsub C.var V)

/-- py/qsonic/scripts/qsonic_calib.py:113-119. -/
def listedIds (called : W) (inp : CalibIn K) (rank : Nat) : Prog V W (List Int) :=
  if C.removeList then mpiFncBcast c.ids called inp.ids true rank else .ret []

/-- py/qsonic/scripts/qsonic_calib.py:121-125 with py/qsonic/catalog.py:85-130 `mpi_read_quasar_catalog`. -/
def readCat (called : W) (inp : CalibIn K) (rank : Nat) : Prog V W (Option (List (CalRow K))) :=
  if C.catalog then (mpiFncBcast c.cat called inp.cat true rank).bind fun l => .ret (some l) else .ret none

/-- py/qsonic/scripts/qsonic_calib.py:127-129. -/
def balColumns : Except Err Unit := if C.catalog && C.removeBal then balCheckCatalog C.cols else .ok ()

/-- py/qsonic/scripts/qsonic_calib.py:218-227. -/
def kept (listed : List Int) (rows : Option (List (CalRow K))) (lists : List (List (CalDelta K))) : List (CalDelta K) :=
  keptDeltas (idsToRemove listed rows C.removeBal C.keepSurveys) C.minSnr C.maxSnr lists

/-- py/qsonic/scripts/qsonic_calib.py:211-214, 229-230. -/
def addKept [FloorRing K] (size rank : Nat) (l : List (CalDelta K)) : Prog V W (VarLss K C.nsub C.var) :=
  VarLss.orRaise ((VarLss.new C.var C.nsub_pos rank size).addList (l.map CalDelta.vpix))

/-- py/qsonic/scripts/qsonic_calib.py:233-235; `fit` calculates the statistics first
(py/qsonic/picca_continuum.py:1066-1070). -/
def fitStats (s : VarLss K C.nsub C.var) : Except Err (List (List K) × List (List K)) :=
  s.fit C.minPix C.minQso C.sqrt C.cholesky C.useCov C.curveFit C.smooth (List.replicate C.var.nw [1 / 10, 1])

/-- py/qsonic/scripts/qsonic_calib.py:206-259 `mpi_run_all` after the options are parsed; `fname` is the name of the
file, which is
not empty. -/
def run [FloorRing K] (called : W) (ev : SaverEv (CalHdu K) → W) (fname : String) (inp : CalibIn K) (size rank : Nat) :
    Prog V W (CalibOut K) :=
  (C.listedIds c called inp rank).bind fun listed =>
  (C.readCat c called inp rank).bind fun rows =>
  (ofExcept C.balColumns).bind fun _ =>
  (readAllDeltas c.glob called inp.glob inp.read rank size).bind fun lists =>
  (C.addKept size rank (C.kept listed rows lists)).bind fun obj =>
  (obj.statsProg C.eps C.useCov c.sums).bind fun s =>
  (ofExcept (C.fitStats s)).bind fun fit =>
  (ofExcept (writeTable C.sqrt C.useCov s)).bind fun table =>
  let saver := Saver.init (D := CalHdu K) fname rank
  .emits ((saver.1 ++ saver.2.write (CalHdu.stats table) ++
    saver.2.write (CalHdu.func ((List.range C.var.nw).map C.var.center) fit.1 fit.2)).map ev) <|
  (stackFluxes c.arr C.var.w1 C.var.w2 (C.kept listed rows lists)).bind fun st =>
  .emits ((saver.2.write (CalHdu.stack st.1 st.2) ++ saver.2.close).map ev) <|
  .ret ⟨C.kept listed rows lists, table, fit, st⟩

end CalibCfg
end Verif.Model
