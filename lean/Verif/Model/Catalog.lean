import Verif.Np.Unique
import Verif.Model.MpiCalls

/-!
# Model of `py/qsonic/catalog.py`

A catalog (numpy record array) is the list of its column names (`dtype.names`) and its rows;
a row is a function from column names to values. Values are an arbitrary linearly ordered type
`Val` (numbers and strings alike: only comparisons are used).
Simplification: reading a value of a column that does not exist is possible in the model but no
function below does it without checking the column first, as stated at each place.
-/

namespace Verif.Model
open Verif.Np

/-- A catalog row: value per column name. py/qsonic/catalog.py:280-310. -/
abbrev Row (Val : Type) := String → Val

/-- A catalog: column names in order, and rows. py/qsonic/catalog.py:280-310. -/
structure Catalog (Val : Type) where
  cols : List String
  rows : List (Row Val)

variable {Val : Type} [LinearOrder Val]

/-- py/qsonic/catalog.py:17-20 `_required_columns`. -/
def requiredColumns : List (List String) :=
  [["TARGETID"], ["Z"], ["TARGET_RA", "RA"], ["TARGET_DEC", "DEC"]]

/-- py/qsonic/catalog.py:22-25 `_required_data_columns`. -/
def requiredDataColumns : List (List String) :=
  [["SURVEY"], ["COADD_LASTNIGHT", "LAST_NIGHT", "LASTNIGHT"]]

/-- py/qsonic/catalog.py:27 `_required_tile_columns`. -/
def requiredTileColumns : List (List String) := [["TILEID"], ["PETAL_LOC"]]

/-- py/qsonic/catalog.py:29-32 `_optional_columns`. -/
def optionalColumns : List String :=
  ["HPXPIXEL", "PROGRAM", "VMIN_CIV_450", "VMAX_CIV_450", "VMIN_CIV_2000", "VMAX_CIV_2000"]

/-- py/qsonic/catalog.py:34-38 `_all_columns`. -/
def allColumns : List String :=
  (requiredColumns ++ requiredDataColumns ++ requiredTileColumns).flatten ++ optionalColumns

/-- py/qsonic/catalog.py:203-223 `_check_required_columns`. -/
def checkRequiredColumns : List (List String) → List String → Except Err Unit
  | [], _ => .ok ()
  | reqset :: rest, colnames =>
    if reqset.any (· ∈ colnames) then checkRequiredColumns rest colnames
    else .error .exception

/-- py/qsonic/catalog.py:265-272: the renaming map `colname_map`. -/
def colnameMap (colnames : List String) : List (String × String) :=
  (if "TARGET_RA" ∈ colnames ∧ "RA" ∉ colnames then [("TARGET_RA", "RA")] else []) ++
  (if "TARGET_DEC" ∈ colnames ∧ "DEC" ∉ colnames then [("TARGET_DEC", "DEC")] else []) ++
  (if "LASTNIGHT" ∉ colnames ∧ "COADD_LASTNIGHT" ∈ colnames then
      [("COADD_LASTNIGHT", "LASTNIGHT")]
    else if "LASTNIGHT" ∉ colnames ∧ "LAST_NIGHT" ∈ colnames then
      [("LAST_NIGHT", "LASTNIGHT")]
    else [])

/-- New name of a column under a renaming map. py/qsonic/catalog.py:263-275. -/
def renameCol (m : List (String × String)) (c : String) : String := (m.lookup c).getD c

/-- Row after renaming: the value of column `c` is that of the (first) column renamed to `c`.
py/qsonic/catalog.py:263-275. -/
def renameRow (m : List (String × String)) (cols : List String) (r : Row Val) : Row Val :=
  fun c => match cols.find? (fun old => renameCol m old = c) with
    | some old => r old
    | none => r c

/-- `numpy.lib.recfunctions.rename_fields(catalog, colname_map)`. py/qsonic/catalog.py:275. -/
def renameFields (m : List (String × String)) (cat : Catalog Val) : Catalog Val :=
  { cols := cat.cols.map (renameCol m), rows := cat.rows.map (renameRow m cat.cols) }

/-- py/qsonic/catalog.py:226-277 `_validate_adjust_column_names`. `np.unique(a).size` is the
number of distinct values. In line 260 the pairs of TARGETID and TILEID are compared. -/
def validateAdjustColumnNames (cat : Catalog Val) (isMock isTile : Bool) :
    Except Err (Catalog Val) := do
  checkRequiredColumns requiredColumns cat.cols
  if !isMock then checkRequiredColumns requiredDataColumns cat.cols
  if isTile then checkRequiredColumns requiredTileColumns cat.cols
  let nqso := cat.rows.length
  if !isTile && nqso != (cat.rows.map (· "TARGETID")).dedup.length then
    throw .exception
  if isTile && nqso != (cat.rows.map (fun r => (r "TARGETID", r "TILEID"))).dedup.length then
    throw .exception
  let m := colnameMap cat.cols
  if m.isEmpty then pure cat else pure (renameFields m cat)

/-- py/qsonic/catalog.py:280-310 `_read`, the selection of columns. `file` is the outcome of
opening the FITS file and choosing the HDU (an external parameter). -/
def readCatalogFile (file : Except Err (Catalog Val)) : Except Err (Catalog Val) := do
  let cat ← file
  pure { cat with cols := cat.cols.filter (· ∈ allColumns) }

/-- py/qsonic/catalog.py:313-336 `_add_healpix`; `ang2pix nside ra dec` is healpy's function. -/
def addHealpix (ang2pix : Nat → Val → Val → Val) (nSide : Nat) (cat : Catalog Val)
    (keepColumns : List String) : Catalog Val :=
  if "HPXPIXEL" ∈ keepColumns then cat
  else { cols := cat.cols ++ ["HPXPIXEL"]
         rows := cat.rows.map fun r =>
           Function.update r "HPXPIXEL" (ang2pix nSide (r "RA") (r "DEC")) }

/-- Comparison of two rows field by field. py/qsonic/catalog.py:391. -/
def rowLe : List String → Row Val → Row Val → Bool
  | [], _, _ => true
  | c :: cs, r, s => if r c < s c then true else if s c < r c then false else rowLe cs r s

/-- `catalog.sort(order=order)`: sorts by the given fields; numpy breaks ties with the remaining
fields in the order of the dtype. Unknown fields raise `ValueError`. py/qsonic/catalog.py:391. -/
def sortCatalog (order : List String) (cat : Catalog Val) : Except Err (Catalog Val) :=
  if order.all (· ∈ cat.cols) then
    let fields := order ++ cat.cols.filter (· ∉ order)
    .ok { cat with rows := cat.rows.insertionSort (fun r s => rowLe fields r s = true) }
  else .error .valueError

/-- py/qsonic/catalog.py:372-383: the fields to sort by. -/
def sortOrder (cols : List String) (keepSurveys : Option (List Val)) (isTile : Bool) :
    List String :=
  if isTile then ["TILEID", "PETAL_LOC", "TARGETID"]
  else match keepSurveys with
    | some ks =>
      if "SURVEY" ∈ cols ∧ 1 < ks.length then ["HPXPIXEL", "SURVEY", "TARGETID"]
      else ["HPXPIXEL", "TARGETID"]
    | none => ["HPXPIXEL", "TARGETID"]

/-- py/qsonic/catalog.py:367-385: redshift and survey selection of `_prime_catalog`. -/
def selectRows (cols : List String) (keepSurveys : Option (List Val)) (zmin zmax : Val)
    (rows : List (Row Val)) : List (Row Val) :=
  let rows := rows.filter (fun r => decide (zmin ≤ r "Z") && decide (r "Z" ≤ zmax))
  match keepSurveys with
  | some ks => if "SURVEY" ∈ cols then rows.filter (fun r => decide (r "SURVEY" ∈ ks)) else rows
  | none => rows

/-- py/qsonic/catalog.py:339-393 `_prime_catalog`. -/
def primeCatalog (ang2pix : Nat → Val → Val → Val) (cat : Catalog Val) (nSide : Nat)
    (keepSurveys : Option (List Val)) (zmin zmax : Val) (isTile : Bool) :
    Except Err (Catalog Val) :=
  let colnames := cat.cols
  let rows := selectRows colnames keepSurveys zmin zmax cat.rows
  -- lines 387-388
  if rows.isEmpty then .error .exception
  else sortCatalog (sortOrder colnames keepSurveys isTile)
    (addHealpix ang2pix nSide { cat with rows := rows } colnames)

/-- py/qsonic/catalog.py:41-82 `read_quasar_catalog`. -/
def readQuasarCatalog (ang2pix : Nat → Val → Val → Val) (file : Except Err (Catalog Val))
    (isMock isTile : Bool) (keepSurveys : Option (List Val)) (zmin zmax : Val) :
    Except Err (Catalog Val) := do
  let nSide := if isMock then 16 else 64
  let cat ← readCatalogFile file
  let cat ← validateAdjustColumnNames cat isMock isTile
  primeCatalog ang2pix cat nSide keepSurveys zmin zmax isTile

/-- py/qsonic/catalog.py:185-196: the queues computed on the root. -/
def makeQueues (cat : Catalog Val) (isTile : Bool) (mpiSize : Nat) :
    Except Err (List (List (List (Row Val)))) :=
  let splitKey := if isTile then "TILEID" else "HPXPIXEL"
  balanceLoad (splitByKey (· splitKey) cat.rows) mpiSize

/-- py/qsonic/catalog.py:133-200 `mpi_get_local_queue`. The values exchanged are the status
(`cs`) and a local queue (`cq`). `read` is the outcome of `read_quasar_catalog` on the root. -/
def mpiGetLocalQueue {V W : Type} (cs : Codec Bool V) (cq : Codec (List (List (Row Val))) V)
    (read : Except Err (Catalog Val)) (isTile : Bool) (mpiSize rank : Nat) :
    Prog V W (List (List (Row Val))) :=
  let after (cat : Option (Catalog Val)) (status : Bool) :
      Prog V W (List (List (Row Val))) :=
    .bcast (cs.enc status) fun v =>                                -- line 181
      if cs.dec v = false then .raise .qsonic                      -- lines 182-183
      else
        match cat with
        | some cat =>                                              -- lines 185-196
          match makeQueues cat isTile mpiSize with
          | .error e => .raise e
          | .ok q => .scatter (some (q.map cq.enc)) fun v => .ret (cq.dec v)
        | none => .scatter none fun v => .ret (cq.dec v)           -- lines 197-200
  if rank = 0 then
    match read with
    | .ok cat => after (some cat) true
    | .error e => if e.isException then after none false else .raise e
  else after none false

end Verif.Model
