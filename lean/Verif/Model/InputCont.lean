import Verif.Np.Unique
import Mathlib.Algebra.Field.Defs
import Mathlib.Data.Prod.Lex
import Mathlib.Logic.Function.Basic

/-!
# Model of the reading of input continua (`py/qsonic/continuum_models/input_continuum_model.py:13-170`)

`ang2pix` of the healpix number is a parameter: a spectrum has its number. A spectrum is an object that is
changed in place: the heap maps the position in `spectra_list` to its `cont_params`.
-/

namespace Verif.Model
open Verif Verif.Np

variable {Val K : Type} [LinearOrder Val] [Zero K] [DecidableEq K]

/-- What is used of a spectrum: `targetid` and `ang2pix(nside, RA, DEC)`.
py/qsonic/continuum_models/input_continuum_model.py:128-170. -/
structure ContSpec (Val : Type) where
  targetid : Val
  pix : Val

/-- A file `input-continuum-{nside}-{pixnum}.fits`. py/qsonic/continuum_models/input_continuum_model.py:76-126. -/
structure ContFile (Val K : Type) where
  ids : List Val
  wave1 : K
  dwave : K
  continua : List (List K)

/-- `cont_params`: `valid`, and `input_w1`, `input_dwave`, `input_data`.
py/qsonic/continuum_models/input_continuum_model.py:13-26, 128-170. -/
structure ContState (K : Type) where
  valid : Bool
  data : Option (K × K × List K)
  deriving DecidableEq

/-- py/qsonic/continuum_models/input_continuum_model.py:106-126 `_read_continua_one_file`; `none` is a file that
cannot be read. -/
def readContinuaOneFile (file : Option (ContFile Val K)) (targetids : List Val) :
    Except Err (K × K × List Val × List (List K)) :=
  match file with
  | none => .ok (0, 0, [], [])
  | some f =>
    if f.ids.length ≠ f.continua.length then .error .exception
    else
      match fancy f.continua (intersectIdx₁ f.ids targetids) with
      | .error e => .error e
      | .ok c => .ok (f.wave1, f.dwave, intersectVals f.ids targetids, c)

/-- py/qsonic/continuum_models/input_continuum_model.py:16-25: one spectrum. -/
def appendOne (specs : List (ContSpec Val)) (w1 dw : K) (common : List Val) (continua : List (List K))
    (st : Nat → ContState K) (i : Nat) : Nat → ContState K :=
  match specs[i]? with
  | none => st
  | some s =>
    match common.findIdx? (fun t => decide (t = s.targetid)) with
    | none => st
    | some j => Function.update st i ⟨true, some (w1, dw, continua[j]?.getD [])⟩

/-- py/qsonic/continuum_models/input_continuum_model.py:158-170: one pass of the loop, for the group of the
spectra of a pixel. -/
def readContinuaGroup (files : Val → Option (ContFile Val K)) (specs : List (ContSpec Val))
    (st : Nat → ContState K) (g : List (Nat × ContSpec Val)) : Except Err (Nat → ContState K) :=
  match g with
  | [] => .error .indexError
  | (_, s) :: _ =>
    match readContinuaOneFile (files s.pix) (g.map (fun x => x.2.targetid)) with
    | .error e => .error e
    | .ok (w1, dw, common, continua) =>
      .ok (if w1 = 0 then st else (g.map Prod.fst).foldl (appendOne specs w1 dw common continua) st)

/-- The groups one after the other. py/qsonic/continuum_models/input_continuum_model.py:159-170. -/
def readContinuaGroups (files : Val → Option (ContFile Val K)) (specs : List (ContSpec Val))
    (st : Nat → ContState K) : List (List (Nat × ContSpec Val)) → Except Err (Nat → ContState K)
  | [] => .ok st
  | g :: gs =>
    match readContinuaGroup files specs st g with
    | .error e => .error e
    | .ok st' => readContinuaGroups files specs st' gs

/-- py/qsonic/continuum_models/input_continuum_model.py:142-170 `_read_continua`, from the state that
`init_spectra` (207-227) sets. `np.hstack` of an empty list raises `ValueError`. The catalog and the array of the
spectra are sorted and split alike. -/
def readContinua (argsort : List (Lex (Val × Val)) → List Nat) (files : Val → Option (ContFile Val K))
    (specs : List (ContSpec Val)) : Except Err (Nat → ContState K) :=
  match specs with
  | [] => .error .valueError
  | _ :: _ =>
    let keys := specs.map (fun s => toLex (s.pix, s.targetid))
    let sorted := (argsort keys).filterMap (fun i => (specs[i]?).map (fun s => (i, s)))
    readContinuaGroups files specs (fun _ => ⟨false, none⟩) (splitByKey (fun x => x.2.pix) sorted)

end Verif.Model
