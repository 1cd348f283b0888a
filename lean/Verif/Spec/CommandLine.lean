import Verif.Model.CommandLine

/-!
# Specification: what a command line means

Only the data of the model (words, options, values) is used here.
-/

namespace Verif.Spec
open Verif.Np Verif.Model.Cli

variable {K : Type}

/-- The word is the full name of the option, or its letter. -/
def Called (o : Opt K) (t : Word) : Prop := t = o.name ∨ ∃ c, o.short = some c ∧ t = ['-', c]

/-- A list of options as programs have it: different names of the form `--x...`, different letters. -/
structure TableOk (T : List (Opt K)) : Prop where
  form : ∀ o ∈ T, ['-', '-'] <+: o.name ∧ 3 ≤ o.name.length ∧ '=' ∉ o.name
  letter : ∀ o ∈ T, o.short ≠ some '-' ∧ o.short ≠ some '='
  names : (T.map (fun o => o.name)).Nodup
  letters : (T.filterMap (fun o => o.short)).Nodup

/-- The word is the beginning of the name of this option and of no other, and not itself a name. -/
def Abbreviates (T : List (Opt K)) (p : Word) (o : Opt K) : Prop :=
  o ∈ T ∧ ['-', '-'] <+: p ∧ p <+: o.name ∧ p ≠ o.name ∧ ∀ o' ∈ T, p <+: o'.name → o' = o

/-- The word gives the option, with a value in the same word or without. -/
inductive Gives (T : List (Opt K)) (t : Word) (o : Opt K) : Option Word → Prop
  | full : o ∈ T → Called o t → Gives T t o none
  | assigned (n v : Word) : o ∈ T → Called o n → t = n ++ '=' :: v → Gives T t o (some v)
  | short : Abbreviates T t o → t ≠ ['-', '-'] → Gives T t o none
  | shortAssigned (p v : Word) : Abbreviates T p o → t = p ++ '=' :: v → Gives T t o (some v)
  | joined (c : Char) (v : Word) : o ∈ T → o.short = some c → v ≠ [] → v.head? ≠ some '=' → t = '-' :: c :: v →
      Gives T t o (some v)

/-- The word begins like a name of the option, up to an equal sign. -/
def Resembles (t : Word) (o : Opt K) : Prop :=
  (∃ p, ['-', '-'] <+: p ∧ p <+: o.name ∧ (t = p ∨ ∃ v, t = p ++ '=' :: v)) ∨
  ∃ c v, o.short = some c ∧ t = '-' :: c :: v

/-- A negative number without exponent. -/
def NegativeNumber (t : Word) : Prop :=
  (∃ a, a ≠ [] ∧ (∀ c ∈ a, c.isDigit = true) ∧ t = '-' :: a) ∨
  ∃ a b, b ≠ [] ∧ (∀ c ∈ a, c.isDigit = true) ∧ (∀ c ∈ b, c.isDigit = true) ∧ t = '-' :: (a ++ '.' :: b)

/-- The word can be a value: it does not begin with a dash, or is a dash, or is like no option and is a negative number
or has a space. -/
def IsValue (T : List (Opt K)) (t : Word) : Prop :=
  t.head? ≠ some '-' ∨ t = ['-'] ∨ ((∀ o ∈ T, ¬ Resembles t o) ∧ (NegativeNumber t ∨ ' ' ∈ t))

/-- The number of values is right, and a list of values goes as far as there are values. -/
def Fits (T : List (Opt K)) (n : NArgs) (vs rest : List Word) : Prop :=
  match n with
  | .zero => vs = []
  | .one => ∃ v, vs = [v]
  | .plus => vs ≠ [] ∧ ∀ w, rest.head? = some w → ¬ IsValue T w
  | .star => ∀ w, rest.head? = some w → ¬ IsValue T w

/-- The command line is a sequence of options with their values. -/
inductive Reads (T : List (Opt K)) : List Word → List (Opt K × List Word) → Prop
  | done : Reads T [] []
  | one (t v : Word) (ts : List Word) (o : Opt K) (bs : List (Opt K × List Word)) :
      Gives T t o (some v) → o.nargs ≠ .zero → Reads T ts bs → Reads T (t :: ts) ((o, [v]) :: bs)
  | many (t : Word) (vs ts : List Word) (o : Opt K) (bs : List (Opt K × List Word)) :
      Gives T t o none → (∀ v ∈ vs, IsValue T v) → Fits T o.nargs vs ts → Reads T ts bs →
      Reads T (t :: (vs ++ ts)) ((o, vs) :: bs)

/-- The word is one of the choices, if there are choices. -/
def Allowed (o : Opt K) (w : Word) : Prop := o.choices = [] ∨ String.ofList w ∈ o.choices

/-- A number that is not outside of the range from 0 to 1. -/
def InUnit [Field K] [LinearOrder K] : Fl K → Prop
  | .fin x => 0 ≤ x ∧ x ≤ 1
  | .nan => True
  | _ => False

/-- The words are accepted as values of the option and mean this value. -/
def Accepts [Field K] [LinearOrder K] (cv : Conv K) (o : Opt K) (ws : List Word) (x : Val K) : Prop :=
  match o.nargs with
  | .zero => o.help = false ∧ x = .flag true
  | .one => ∃ w, ws = [w] ∧ Allowed o w ∧ match o.kind with
    | .str => x = .str (String.ofList w)
    | .int => ∃ i, cv.int (String.ofList w) = some i ∧ x = .int i
    | .float => ∃ y, cv.float (String.ofList w) = some y ∧ x = .num y
    | .ratio => ∃ y, cv.float (String.ofList w) = some y ∧ InUnit y ∧ x = .num y
  | _ => (∀ w ∈ ws, Allowed o w) ∧ x = .strs (ws.map String.ofList)

/-- The values that a sequence of options gives: all are accepted, those that are required are there, the last one counts,
and an option that is not given has its default. -/
structure Means [Field K] [LinearOrder K] (cv : Conv K) (T : List (Opt K)) (bs : List (Opt K × List Word))
    (ns : List (Word × Val K)) : Prop where
  accepted : ∀ o ws, (o, ws) ∈ bs → ∃ x, Accepts cv o ws x
  required : ∀ o ∈ T, o.required = true → ∃ ws, (o, ws) ∈ bs
  names : ns.map Prod.fst = (T.filter (fun o => !o.help)).map (fun o => o.name)
  value : ∀ o ∈ T, o.help = false → ∃ x, (o.name, x) ∈ ns ∧
    ((∀ ws, (o, ws) ∉ bs) ∧ x = o.default ∨
      ∃ l ws l', bs = l ++ (o, ws) :: l' ∧ (∀ ws', (o, ws') ∉ l') ∧ Accepts cv o ws x)

/-- The file or directory is given. -/
def IsFile (x : Val K) : Prop := ∃ s, s ≠ "" ∧ x = .str s

/-- Both are numbers, and the first is not larger than the second. -/
def NotLarger [LE K] : Val K → Val K → Prop
  | .num (.fin x), .num (.fin y) => x ≤ y
  | .num .ninf, .num (.fin _) => True
  | .num .ninf, .num .ninf => True
  | .num .ninf, .num .pinf => True
  | .num (.fin _), .num .pinf => True
  | .num .pinf, .num .pinf => True
  | _, _ => False

/-- The options do not contradict each other. -/
structure Consistent [LE K] (v : String → Val K) : Prop where
  true_continuum : (v "--true-continuum" = .flag true ∨ v "--continuum-model" = .str "true") →
    v "--mock-analysis" = .flag true ∧ IsFile (v "--fiducial-meanflux") ∧ IsFile (v "--fiducial-varlss") ∧
      ¬ IsFile (v "--input-continuum-dir")
  wave : ¬ NotLarger (v "--wave2") (v "--wave1")
  forest : ¬ NotLarger (v "--forest-w2") (v "--forest-w1")
  tile : v "--tile-format" = .flag true →
    v "--mock-analysis" ≠ .flag true ∧ v "--save-by-hpx" ≠ .flag true ∧ v "--exposures" = .str "disable"

/-- The options that the program works with: those of the command line, each arm once, and the model of the continuum that
is asked for in one way or another. -/
structure WorksWith (v : String → Val K) (a : Verif.Model.FitArgs (Fl K)) : Prop where
  arms : a.arms.Nodup ∧ ∀ l, v "--arms" = .strs l → ∀ x, x ∈ a.arms ↔ x ∈ l
  trueContinuum : a.trueContinuum = true ↔ (v "--true-continuum" = .flag true ∨ v "--continuum-model" = .str "true")
  model : (IsFile (v "--input-continuum-dir") → a.continuumModel = "input") ∧
    (¬ IsFile (v "--input-continuum-dir") → a.trueContinuum = true → a.continuumModel = "true") ∧
    (¬ IsFile (v "--input-continuum-dir") → a.trueContinuum = false →
      ∀ s, v "--continuum-model" = .str s → a.continuumModel = s)
  mock : a.mockAnalysis = true ↔ v "--mock-analysis" = .flag true
  tile : a.tileFormat = true ↔ v "--tile-format" = .flag true
  hpx : a.saveByHpx = true ↔ v "--save-by-hpx" = .flag true
  exposures : ∀ s, v "--exposures" = .str s → a.exposures = s
  files : (∀ s, v "--fiducial-meanflux" = .str s → a.fiducialMeanflux = some s) ∧
    (∀ s, v "--fiducial-varlss" = .str s → a.fiducialVarlss = some s) ∧
    (∀ s, v "--input-continuum-dir" = .str s → a.inputContinuumDir = some s)
  wave : ∀ x y, v "--wave1" = .num x → v "--wave2" = .num y → a.wave1 = x ∧ a.wave2 = y
  forest : ∀ x y, v "--forest-w1" = .num x → v "--forest-w2" = .num y → a.forestW1 = x ∧ a.forestW2 = y

end Verif.Spec
