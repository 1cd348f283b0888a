import Verif.Model.Io

/-!
# Specification vocabulary for the readers
-/

namespace Verif.Spec
open Verif.Model

variable {Val Wv Im Re Co : Type}

/-- The file is complete: all arms are there, with an image row for every FIBERMAP row, and the
resolution is there for all arms or for none. -/
structure FileOk (file : SpecFile Val Wv Im Re) (arms : List String) : Prop where
  images : ∀ arm ∈ arms, ∃ h, file.arms arm = some h ∧ h.flux.length = file.fibermap.length ∧
    h.ivar.length = file.fibermap.length ∧ h.mask.length = file.fibermap.length ∧
    ∀ r, h.reso = some r → r.length = file.fibermap.length
  reso : (∀ arm ∈ arms, ∀ h, file.arms arm = some h → h.reso = none) ∨
    (∀ arm ∈ arms, ∀ h, file.arms arm = some h → ∃ r, h.reso = some r)

/-- The wavelength, flux, ivar and mask of `s` are those of the `i`-th row of the file, for each of
the arms asked for. -/
def HasFileRow (file : SpecFile Val Wv Im Re) (arms : List String) (i : Nat)
    (s : RawSpectrum Val Wv Im Re Co) : Prop :=
  s.arms.map (·.arm) = arms ∧ ∀ a ∈ s.arms, ∃ h, file.arms a.arm = some h ∧ a.wave = h.wave ∧
    h.flux[i]? = some a.flux ∧ h.ivar[i]? = some a.ivar ∧ h.mask[i]? = some a.mask

/-- The resolution matrices of `s` are those of the `i`-th row of the file, if it has any and they
are not to be skipped. -/
def HasFileReso (file : SpecFile Val Wv Im Re) (skipResomat : Bool) (i : Nat)
    (s : RawSpectrum Val Wv Im Re Co) : Prop :=
  ∀ a ∈ s.arms, ∀ h, file.arms a.arm = some h →
    a.reso = if skipResomat then none else h.reso.bind (·[i]?)

/-- The target of the `i`-th row of the file. -/
def fileTarget (file : SpecFile Val Wv Im Re) (i : Nat) : Option Val :=
  (file.fibermap[i]?).map (fun r => r "TARGETID")

/-- The target has a row in the file (no file: no row). -/
def inFile [DecidableEq Val] (file : Option (SpecFile Val Wv Im Re)) (t : Val) : Bool :=
  match file with
  | none => false
  | some f => decide (t ∈ f.fibermap.map (fun r => r "TARGETID"))

/-- Rows ordered by survey and, within a survey, strictly by target. -/
def SurveyThenTarget [LT Val] (rows : List (Row Val)) : Prop :=
  rows.Pairwise (fun r s => r "SURVEY" < s "SURVEY" ∨
    r "SURVEY" = s "SURVEY" ∧ r "TARGETID" < s "TARGETID")

/-- Rows ordered by petal and, within a petal, strictly by target. -/
def PetalThenTarget [LT Val] (rows : List (Row Val)) : Prop :=
  rows.Pairwise (fun r s => r "PETAL_LOC" < s "PETAL_LOC" ∨
    r "PETAL_LOC" = s "PETAL_LOC" ∧ r "TARGETID" < s "TARGETID")

/-- All rows have the same value in a column. -/
def Same (col : String) (rows : List (Row Val)) : Prop :=
  ∀ r ∈ rows, ∀ s ∈ rows, r col = s col

end Verif.Spec
