import Mathlib.Order.Defs.LinearOrder
import Mathlib.Logic.Function.Basic

/-!
# Specification vocabulary for catalogs

Independent of the model: rows are functions from column names to values.
-/

namespace Verif.Spec

/-- At least one of the alternative names is a column. -/
def HasOne (cols : List String) (alts : List String) : Prop := ∃ c ∈ alts, c ∈ cols

/-- The columns a catalog must have. -/
structure HasColumns (cols : List String) (isMock isTile : Bool) : Prop where
  targetid : "TARGETID" ∈ cols
  z : "Z" ∈ cols
  ra : HasOne cols ["TARGET_RA", "RA"]
  dec : HasOne cols ["TARGET_DEC", "DEC"]
  survey : isMock = false → "SURVEY" ∈ cols
  lastnight : isMock = false → HasOne cols ["COADD_LASTNIGHT", "LAST_NIGHT", "LASTNIGHT"]
  tileid : isTile = true → "TILEID" ∈ cols
  petal : isTile = true → "PETAL_LOC" ∈ cols

/-- No target occurs twice (in tile mode: no target twice on a tile). -/
def NoDuplicates {Val : Type} (rows : List (String → Val)) (isTile : Bool) : Prop :=
  match isTile with
  | false => (rows.map (fun r => r "TARGETID")).Nodup
  | true => (rows.map (fun r => (r "TARGETID", r "TILEID"))).Nodup

/-- A row seen under the standard column names: the standard name has priority over its
alternatives. -/
def standardNames {Val : Type} (cols : List String) (r : String → Val) : String → Val := fun c =>
  if c = "RA" then
    if "RA" ∈ cols then r "RA" else if "TARGET_RA" ∈ cols then r "TARGET_RA" else r "RA"
  else if c = "DEC" then
    if "DEC" ∈ cols then r "DEC" else if "TARGET_DEC" ∈ cols then r "TARGET_DEC" else r "DEC"
  else if c = "LASTNIGHT" then
    if "LASTNIGHT" ∈ cols then r "LASTNIGHT"
    else if "COADD_LASTNIGHT" ∈ cols then r "COADD_LASTNIGHT"
    else if "LAST_NIGHT" ∈ cols then r "LAST_NIGHT" else r "LASTNIGHT"
  else r c

/-- A row with its healpix pixel: that of the file if there is such a column, otherwise computed
from the coordinates. -/
def withPixel {Val : Type} (cols : List String) (pix : Val → Val → Val) (r : String → Val) :
    String → Val :=
  if "HPXPIXEL" ∈ cols then r else Function.update r "HPXPIXEL" (pix (r "RA") (r "DEC"))

/-- The row passes the redshift cut and, if surveys are chosen and known, the survey cut. -/
def Passes {Val : Type} [LinearOrder Val] (cols : List String) (keepSurveys : Option (List Val))
    (zmin zmax : Val) (r : String → Val) : Prop :=
  zmin ≤ r "Z" ∧ r "Z" ≤ zmax ∧
    ∀ ks, keepSurveys = some ks → "SURVEY" ∈ cols → r "SURVEY" ∈ ks

end Verif.Spec
