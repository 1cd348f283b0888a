import Verif.Model.Args
import Verif.Model.MpiCalls
import Mathlib.Algebra.Field.Defs

/-!
# Command lines of the programs: the parsers of `qsonic-fit`, `qsonic-calib` and `qsonic-coadd-deltas`

`parser.parse_args` is that of Python's `argparse` (version 3.11) for parsers that have optional arguments only, which
all three are. A word is a list of characters. Simplifications: all ways in which `argparse` leaves (wrong options, help)
are one result `none`, the exception `SystemExit`; its messages are not modelled; digits are those of ASCII.
-/

namespace Verif.Model.Cli
open Verif.Np Verif.Model

/-- A word of the command line. py/qsonic/mpi_utils.py:30-35. -/
abbrev Word := List Char

/-- The number of values: `action="store_true"`, none given, `nargs='+'`, `nargs='*'`.
py/qsonic/scripts/qsonic_fit.py:20-57, py/qsonic/io.py:16-74. -/
inductive NArgs
  | zero
  | one
  | plus
  | star
  deriving DecidableEq, Repr

/-- The type of a value: `str`, `int`, `float` or `_float_range(0, 1)`. py/qsonic/io.py:16-74, 714-728. -/
inductive Kind
  | str
  | int
  | float
  | ratio
  deriving DecidableEq, Repr

/-- A value in the namespace. py/qsonic/mpi_utils.py:30-35. -/
inductive Val (K : Type)
  | none
  | flag (b : Bool)
  | str (s : String)
  | strs (l : List String)
  | int (i : Int)
  | num (x : Fl K)
  deriving DecidableEq, Repr

/-- The arguments of one call of `add_argument`. No choices are the empty list; `help` marks `--help`.
py/qsonic/scripts/qsonic_fit.py:20-57, py/qsonic/io.py:16-74. -/
structure Opt (K : Type) where
  name : Word
  short : Option Char := Option.none
  nargs : NArgs := .one
  kind : Kind := .str
  choices : List String := []
  required : Bool := false
  default : Val K := .none
  help : Bool := false
  deriving DecidableEq, Repr

variable {K : Type}

/-- `action="store_true"`. py/qsonic/scripts/qsonic_fit.py:20-57. -/
def flagOpt (name : String) : Opt K := { name := name.toList, nargs := .zero, default := .flag false }

/-- An option with a text, `None` if it is not given. py/qsonic/scripts/qsonic_fit.py:20-57. -/
def textOpt (name : String) : Opt K := { name := name.toList }

/-- The help option that `ArgumentParser` adds. py/qsonic/scripts/qsonic_fit.py:20-57. -/
def helpOpt : Opt K := { name := "--help".toList, short := some 'h', nargs := .zero, help := true }

/-- py/qsonic/io.py:16-74 `add_io_parser`. -/
def ioOpts : List (Opt K) :=
  [{ name := "--input-dir".toList, short := some 'i', required := true },
   { name := "--catalog".toList, required := true },
   flagOpt "--tile-format",
   flagOpt "--mock-analysis",
   { name := "--keep-surveys".toList, nargs := .plus, default := .strs ["main"] },
   flagOpt "--skip-resomat",
   { name := "--arms".toList, nargs := .plus, choices := ["B", "R", "Z"], default := .strs ["B", "R"] },
   { name := "--outdir".toList, short := some 'o' },
   { name := "--coadd-arms".toList, choices := ["before", "after", "disable"], default := .str "before" },
   { name := "--exposures".toList, choices := ["before", "after", "disable"], default := .str "disable" },
   flagOpt "--save-by-hpx"]

/-- py/qsonic/calibration.py:12-39 `add_calibration_parser`. -/
def calibrationOpts : List (Opt K) :=
  [textOpt "--noise-calibration", flagOpt "--varlss-as-additive-noise", textOpt "--flux-calibration"]

/-- py/qsonic/spectrum.py:8-39 `add_wave_region_parser`. -/
def waveOpts [Field K] : List (Opt K) :=
  [{ name := "--wave1".toList, kind := .float, default := .num (.fin 3600) },
   { name := "--wave2".toList, kind := .float, default := .num (.fin 6000) },
   { name := "--forest-w1".toList, kind := .float, default := .num (.fin 1050) },
   { name := "--forest-w2".toList, kind := .float, default := .num (.fin 1180) }]

/-- py/qsonic/masks.py:21-49 `add_mask_parser`. -/
def maskOpts : List (Opt K) := [textOpt "--sky-mask", flagOpt "--bal-mask", textOpt "--dla-mask"]

/-- py/qsonic/picca_continuum.py:24-87 `add_picca_continuum_parser`. -/
def continuumOpts [Field K] : List (Opt K) :=
  [{ name := "--num-iterations".toList, kind := .int, default := .int 10 },
   { name := "--continuum-model".toList, choices := ["picca", "true", "input"], default := .str "picca" },
   flagOpt "--true-continuum",
   textOpt "--input-continuum-dir",
   textOpt "--fiducial-meanflux",
   textOpt "--fiducial-varlss",
   { name := "--cont-order".toList, kind := .int, default := .int 1 },
   flagOpt "--var-fit-eta",
   flagOpt "--var-use-cov",
   flagOpt "--normalize-stacked-flux",
   flagOpt "--eta-calib-ivar",
   { name := "--rfdwave".toList, kind := .float, default := .num (.fin (8 / 10)) },
   { name := "--minimizer".toList, choices := ["iminuit", "l_bfgs_b"], default := .str "iminuit" }]

/-- py/qsonic/scripts/qsonic_fit.py:20-57 `get_parser`. -/
def fitParser [Field K] : List (Opt K) :=
  helpOpt :: (ioOpts ++ calibrationOpts ++
  ([{ name := "--smoothing-scale".toList, kind := .float, default := .num (.fin 16) },
   { name := "--min-rsnr".toList, kind := .float, default := .num (.fin 0) },
   { name := "--min-forestsnr".toList, kind := .float, default := .num (.fin 0) },
   { name := "--skip".toList, kind := .ratio, default := .num (.fin (1 / 5)) }] : List (Opt K)) ++
  waveOpts ++ maskOpts ++ continuumOpts)

/-- py/qsonic/scripts/qsonic_calib.py:19-85 `get_parser`. -/
def calibParser [Field K] : List (Opt K) :=
  helpOpt ::
  (([{ name := "--input-dir".toList, short := some 'i', required := true },
   { name := "--outdir".toList, short := some 'o', required := true },
   { name := "--fbase".toList, default := .str "qsonic-eta-fits" },
   textOpt "--catalog",
   flagOpt "--mock-analysis",
   { name := "--keep-surveys".toList, nargs := .star },
   flagOpt "--remove-bal-qsos",
   textOpt "--remove-targetid-list",
   { name := "--nvarbins".toList, kind := .int, default := .int 100 },
   flagOpt "--var-use-cov",
   { name := "--nwbins".toList, kind := .int },
   { name := "--var1".toList, kind := .float, default := .num (.fin (1 / 10000)) },
   { name := "--var2".toList, kind := .float, default := .num (.fin 20) },
   { name := "--min-snr".toList, kind := .float, default := .num (.fin 0) },
   { name := "--max-snr".toList, kind := .float, default := .num (.fin 100) }] : List (Opt K)) ++ waveOpts)

/-- py/qsonic/scripts/qsonic_coadd_deltas.py:15-39 `get_parser`. -/
def coaddParser : List (Opt K) :=
  [helpOpt,
   { name := "--input-dirs".toList, short := some 'i', nargs := .plus, required := true },
   { name := "--output-dir".toList, short := some 'o', required := true },
   { name := "--nside".toList, kind := .int, default := .int 8 },
   flagOpt "--nest",
   { name := "--nproc".toList, kind := .int }]

/-- The keys of `_option_string_actions` with their options. py/qsonic/mpi_utils.py:30-35. -/
def strings (T : List (Opt K)) : List (Word × Opt K) :=
  T.flatMap (fun o => (o.name, o) :: (o.short.toList.map (fun c => (['-', c], o))))

/-- `_option_string_actions[t]`. py/qsonic/mpi_utils.py:30-35. -/
def exact? (T : List (Opt K)) (t : Word) : Option (Opt K) :=
  ((strings T).find? (fun x => decide (x.1 = t))).map Prod.snd

/-- `t.partition('=')`. py/qsonic/mpi_utils.py:30-35. -/
def splitEq (t : Word) : Word × Option Word :=
  (t.takeWhile (fun c => decide (c ≠ '=')), if '=' ∈ t then some (t.dropWhile (fun c => decide (c ≠ '='))).tail else Option.none)

/-- `_get_option_tuples`, called in `_parse_optional`. py/qsonic/mpi_utils.py:30-35. -/
def candidates (T : List (Opt K)) (t : Word) : List (Opt K × Option Word) :=
  match t with
  | '-' :: '-' :: _ =>
    ((strings T).filter (fun x => (splitEq t).1.isPrefixOf x.1)).map (fun x => (x.2, (splitEq t).2))
  | '-' :: c :: v =>
    (strings T).filterMap (fun x =>
      if x.1 = ['-', c] then some (x.2, some v) else if t.isPrefixOf x.1 then some (x.2, Option.none) else Option.none)
  | _ => []

/-- `_negative_number_matcher`: `^-\d+$|^-\d*\.\d+$`. py/qsonic/mpi_utils.py:30-35. -/
def negative (t : Word) : Bool :=
  match t with
  | '-' :: v =>
    let a := v.takeWhile Char.isDigit
    match v.dropWhile Char.isDigit with
    | [] => !a.isEmpty
    | '.' :: b => !b.isEmpty && b.all Char.isDigit
    | _ => false
  | _ => false

/-- What a word is taken for. py/qsonic/mpi_utils.py:30-35. -/
inductive Tok (K : Type)
  | arg
  | opt (o : Opt K) (explicit : Option Word)
  | refused
  deriving DecidableEq, Repr

/-- `_parse_optional`; ambiguous and unknown options are refused (at the latest at the end of `parse_args`), as is the
word `--`, after which only positional arguments could follow. py/qsonic/mpi_utils.py:30-35. -/
def classify (T : List (Opt K)) (t : Word) : Tok K :=
  if t.head? ≠ some '-' then .arg
  else if t = ['-', '-'] then .refused
  else match exact? T t with
    | some o => .opt o Option.none
    | Option.none =>
      if t.length = 1 then .arg
      else match (splitEq t).2.bind (fun e => (exact? T (splitEq t).1).map (fun o => (o, e))) with
        | some (o, e) => .opt o (some e)
        | Option.none =>
          match candidates T t with
          | [c] => .opt c.1 c.2
          | [] => if negative t || decide (' ' ∈ t) then .arg else .refused
          | _ => .refused

/-- Whether a word is taken for a value. py/qsonic/mpi_utils.py:30-35. -/
def isArg [DecidableEq K] (T : List (Opt K)) (t : Word) : Bool := decide (classify T t = .arg)

/-- How many of the next words an option takes (`_match_argument`), none if there are too few.
py/qsonic/mpi_utils.py:30-35. -/
def takes (n : NArgs) (avail : Nat) : Option Nat :=
  match n with
  | .zero => some 0
  | .one => if avail = 0 then Option.none else some 1
  | .plus => if avail = 0 then Option.none else some avail
  | .star => some avail

/-- `consume_optional` along the command line: the options with their words. `fuel` bounds the number of steps, there are
at most as many as words. py/qsonic/mpi_utils.py:30-35. -/
def settings [DecidableEq K] (T : List (Opt K)) : Nat → List Word → Option (List (Opt K × List Word))
  | _, [] => some []
  | 0, _ :: _ => Option.none
  | fuel + 1, t :: ts =>
    match classify T t with
    | .opt o (some e) => if o.nargs = .zero then Option.none else (settings T fuel ts).map (fun r => (o, [e]) :: r)
    | .opt o Option.none =>
      (takes o.nargs (ts.takeWhile (isArg T)).length).bind (fun k =>
        (settings T fuel (ts.drop k)).map (fun r => (o, ts.take k) :: r))
    | _ => Option.none

/-- The conversions of Python: `float` and `int`, none if they raise.
py/qsonic/io.py:714-728, py/qsonic/mpi_utils.py:30-35. -/
structure Conv (K : Type) where
  float : String → Option (Fl K)
  int : String → Option Int

/-- `_get_value` and `_check_value` for one word. py/qsonic/io.py:714-728, py/qsonic/mpi_utils.py:30-35. -/
def value [Field K] [LT K] [DecidableLT K] (cv : Conv K) (o : Opt K) (w : Word) : Option (Val K) :=
  let s := String.ofList w
  if !o.choices.isEmpty && !o.choices.contains s then Option.none
  else match o.kind with
    | .str => some (.str s)
    | .int => (cv.int s).map .int
    | .float => (cv.float s).map .num
    | .ratio => (floatRange (.fin 0) (.fin 1) cv.float s).toOption.map .num

/-- `_get_values` and the action: what is stored. Simplification: lists are lists of texts (no option with a list has
another type). Help leaves. py/qsonic/mpi_utils.py:30-35. -/
def stored [Field K] [LT K] [DecidableLT K] (cv : Conv K) (o : Opt K) (ws : List Word) : Option (Val K) :=
  match o.nargs with
  | .zero => if o.help then Option.none else some (.flag true)
  | .one => value cv o (ws.headD [])
  | _ => if ws.all (fun w => o.choices.isEmpty || o.choices.contains (String.ofList w)) then
      some (.strs (ws.map String.ofList)) else Option.none

/-- The words of the last setting of an option. py/qsonic/mpi_utils.py:30-35. -/
def lastOf (bs : List (Opt K × List Word)) (o : Opt K) : Option (List Word) :=
  (bs.reverse.find? (fun b => decide (b.1.name = o.name))).map Prod.snd

/-- `parser.parse_args(words)`: the namespace, by the names of the options; none if it leaves.
py/qsonic/mpi_utils.py:30-35. -/
def parseArgs [Field K] [LinearOrder K] (cv : Conv K) (T : List (Opt K)) (words : List Word) :
    Option (List (Word × Val K)) :=
  (settings T words.length words).bind fun bs =>
    if bs.all (fun b => (stored cv b.1 b.2).isSome) && T.all (fun o => !o.required || (lastOf bs o).isSome) then
      some ((T.filter (fun o => !o.help)).map (fun o =>
        (o.name, ((lastOf bs o).bind (stored cv o)).getD o.default)))
    else Option.none

/-- The value of an option. py/qsonic/scripts/qsonic_fit.py:60-95. -/
def get (ns : List (Word × Val K)) (name : String) : Val K := (ns.lookup name.toList).getD .none

/-- The truth value of a flag. py/qsonic/scripts/qsonic_fit.py:60-95. -/
def Val.isTrue : Val K → Bool
  | .flag b => b
  | _ => false

/-- The text, if there is one. py/qsonic/scripts/qsonic_fit.py:60-95. -/
def Val.text? : Val K → Option String
  | .str s => some s
  | _ => Option.none

/-- The list of texts. py/qsonic/scripts/qsonic_fit.py:60-95. -/
def Val.list : Val K → List String
  | .strs l => l
  | _ => []

/-- The number. py/qsonic/scripts/qsonic_fit.py:60-95. -/
def Val.number : Val K → Fl K
  | .num x => x
  | _ => .nan

/-- `x <= y` of numbers: false if one is NaN. py/qsonic/io.py:714-728. -/
def flLe [LE K] [DecidableLE K] : Fl K → Fl K → Bool
  | .nan, _ => false
  | _, .nan => false
  | .ninf, _ => true
  | _, .pinf => true
  | .fin x, .fin y => decide (x ≤ y)
  | _, _ => false

/-- The comparison in `args_logic_fnc_qsonic_fit`. -/
instance [LE K] [DecidableLE K] : LE (Fl K) := ⟨fun x y => flLe x y = true⟩

instance [LE K] [DecidableLE K] : DecidableLE (Fl K) := fun x y => inferInstanceAs (Decidable (flLe x y = true))

/-- The options of the namespace that `args_logic_fnc_qsonic_fit` uses (py/qsonic/scripts/qsonic_fit.py:60-95). -/
def fitArgs (ns : List (Word × Val K)) : FitArgs (Fl K) where
  arms := (get ns "--arms").list
  trueContinuum := (get ns "--true-continuum").isTrue
  continuumModel := ((get ns "--continuum-model").text?).getD ""
  mockAnalysis := (get ns "--mock-analysis").isTrue
  fiducialMeanflux := (get ns "--fiducial-meanflux").text?
  fiducialVarlss := (get ns "--fiducial-varlss").text?
  inputContinuumDir := (get ns "--input-continuum-dir").text?
  wave1 := (get ns "--wave1").number
  wave2 := (get ns "--wave2").number
  forestW1 := (get ns "--forest-w1").number
  forestW2 := (get ns "--forest-w2").number
  tileFormat := (get ns "--tile-format").isTrue
  saveByHpx := (get ns "--save-by-hpx").isTrue
  exposures := ((get ns "--exposures").text?).getD ""

/-- py/qsonic/scripts/qsonic_fit.py:453-454 with py/qsonic/mpi_utils.py:13-45: `mpi_parse` of `qsonic-fit` on a rank. The
namespace and, apart from it, the options that `args_logic_fnc_qsonic_fit` may change. -/
def fitCommand [Field K] [LinearOrder K] {V W : Type} (c : Codec (Option (List (Word × Val K) × FitArgs (Fl K))) V)
    (cv : Conv K) (setOrder : List String → List String) (words : List Word) (rank : Nat) :
    Prog V W (List (Word × Val K) × FitArgs (Fl K)) :=
  mpiParse c (((parseArgs cv fitParser words).map (fun ns => Except.ok (ns, fitArgs ns))).getD (.error (.systemExit 2)))
    (fun a => .ok ((argsLogic setOrder a.2).2.2, a.1, (argsLogic setOrder a.2).1)) rank

end Verif.Model.Cli
