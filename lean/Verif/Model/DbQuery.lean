import Verif.Model.Dbutil
import Verif.Model.ProcessFvc

/-!
# Model of the queries in `py/desimeter/dbutil.py` (lines 3-44) and of `bin/import_spotmatch_pinholes`

The answer of the database is a parameter: names of columns and rows. The conversion `int` of texts is a parameter, `none` is `ValueError`.
The SQL text, the cursor and prints are left out. A table and a dictionary of columns are the same thing. Identifiers of pinholes are
integers (in the code those of `tmp.csv` are floats with integer values). Left out: the reading of files, and the columns of an output
table without rows.
-/

namespace Verif.Model.DbQuery
open Verif.Py Verif.Model.ProcessFvc

variable {α σ : Type}

/-- `[r[i] for r in res]` (line 16). -/
def column (rows : List (List α)) (i : ℕ) : Except PyErr (List α) :=
  rows.mapM fun r => match r[i]? with
    | some v => .ok v
    | none => .error .indexError

/-- `dbquery` (lines 3-18) for the names in the description of the cursor and the rows fetched. -/
def dbquery (names : List PyStr) (rows : List (List α)) : Except PyErr (Dict PyStr (List α)) :=
  names.zipIdx.foldlM (fun d p => do return d.set p.1 (← column rows p.2)) []

/-- Line 30. -/
def pattern : PyStr := "positioner_moves_p".toList

/-- Lines 30-39 for one table. -/
def petalId? (int : PyStr → Option ℤ) (table : PyStr) : Option ℤ :=
  if pyIn pattern table then
    match int (replace pattern [] table) with
    | some i => if i < 20 then some i else none
    | none => none
  else none

/-- `get_petal_ids` (lines 20-40) for the names of tables fetched. -/
def petalIds (int : PyStr → Option ℤ) (tables : List PyStr) : List ℤ := tables.filterMap (petalId? int)

/-- `bin/check_moving` lines 50-53: the locations of the petals. -/
def petalLocs (int : PyStr → Option ℤ) (tables : List PyStr) : Except PyErr (List ℤ) :=
  (petalIds int tables).mapM Dbutil.getPetalLoc

/-- A row of the metrology in `bin/import_spotmatch_pinholes`: `Petal ID`, `Device Loc ID`, `DOTID`, and the other columns. -/
structure Spot (σ : Type) where
  petal : ℤ
  dev : ℤ
  dot : ℤ
  rest : σ

/-- A row of `tmp.csv`. -/
structure Pin where
  fid : ℤ
  pin : ℤ
  x : ℝ
  y : ℝ

/-- Lines 15-17. -/
def spotIdentifier (s : Spot σ) : ℤ := (s.petal * 1000 + s.dev) * 100 + s.dot

/-- Lines 30-34. -/
def dotid (pin : ℤ) : ℤ :=
  let d := 0
  let d := if pin = 259 then 1 else d
  let d := if pin = 515 then 2 else d
  let d := if pin = 771 then 3 else d
  if pin = 1027 then 4 else d

/-- Line 35. -/
def pinIdentifier (p : Pin) : ℤ := p.fid * 100 + dotid p.pin

/-- Line 38. -/
def dico (spots : List (Spot σ)) : Dict ℤ ℕ := spots.zipIdx.foldl (fun d p => d.set (spotIdentifier p.1) p.2) []

/-- Lines 40-46: pairs of the indices. -/
def indices (spots : List (Spot σ)) (pins : List Pin) : List (ℕ × ℕ) :=
  pins.zipIdx.filterMap fun p => ((dico spots).get? (pinIdentifier p.1)).map fun j => (j, p.2)

/-- Lines 50-52: rows with the columns `XPIX` and `YPIX`. -/
def rowsOf (spots : List (Spot σ)) (pins : List Pin) (ii : List (ℕ × ℕ)) : Except PyErr (List (Spot σ × ℝ × ℝ)) :=
  ii.mapM fun p => match spots[p.1]?, pins[p.2]? with
    | some s, some q => .ok (s, q.x, q.y)
    | _, _ => .error .indexError

/-- `bin/import_spotmatch_pinholes`; `columns` are those of the metrology. -/
def importPinholes (columns : List PyStr) (spots : List (Spot σ)) (pins : List Pin) : Except PyErr (List (Spot σ × ℝ × ℝ)) :=
  if columns.contains "Petal ID".toList && columns.contains "Device Loc ID".toList && columns.contains "DOTID".toList then
    rowsOf spots pins (indices spots pins)
  else .error .keyError

/-- First line of `data/fp-metrology.csv`. -/
def metrologyColumns : List PyStr :=
  (["PETAL_ID", "PETAL_LOC", "DEVICE_LOC", "DEVICE_TYPE", "PINHOLE_ID", "X_PTL", "Y_PTL", "Z_PTL", "X_MNT", "Y_MNT", "Z_MNT",
    "PTL_SOURCE", "PROJ_DISTANCE", "PROVENANCE", "NOTES", "X_FP", "Y_FP", "Z_FP", "LOCATION", "DEVICE_ID", "BUS_ID", "CAN_ID"]).map
    String.toList

end Verif.Model.DbQuery
