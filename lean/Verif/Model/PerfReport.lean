import Verif.Model.Int2ptl
import Verif.Py.Str
import Mathlib.Data.Finset.Sort

/-!
# Errors, radii, numbers of images and the report (`bin/analyze_pos_performance`, lines 594-701, 989-1030, 1168-1173, 1338-1364)

The columns of the table are lists with one entry for each row, as in `Model/Int2ptl.lean`.  Texts for numbers are their decimal digits.
The text of the report beside the rows with the largest errors is left out.
-/

namespace Verif.Model.PerfReport
open Verif.Py Verif.Model.Pos2ptl Verif.Model.Xy2qs Verif.Model.Int2ptl

/-- The columns used by `calc_errors`: the measured and the requested point (`PTL_X`, `PTL_Y`), the internally tracked angles and the
calibration. -/
structure Pt where
  meas : ℝ × ℝ
  req : ℝ × ℝ
  t : ℝ
  p : ℝ
  cal : Cal

/-- The columns added for one row. -/
structure Out where
  flatMeas : ℝ × ℝ
  flatTracked : ℝ × ℝ
  flatReq : ℝ × ℝ
  errTracked : ℝ
  errReq : ℝ
  ptlMeas : ℝ × ℝ
  ptlTracked : ℝ × ℝ
  radTracked : ℝ
  radReq : ℝ

/-- The columns for one row computed from the three points (lines 636-641, 653-668, 697-700). -/
noncomputable def finish (cal : Cal) (m t r : ℝ × ℝ) : Out where
  flatMeas := m
  flatTracked := t
  flatReq := r
  errTracked := hypot (m.1 - t.1) (m.2 - t.2)
  errReq := hypot (m.1 - r.1) (m.2 - r.2)
  ptlMeas := flat2ptl m.1 m.2
  ptlTracked := flat2ptl t.1 t.2
  radTracked := hypot (t.1 - cal.x) (t.2 - cal.y)
  radReq := hypot (r.1 - cal.x) (r.2 - cal.y)

/-- `calc_errors`, `calc_alt_coords` and `calc_radii` as called by `analyze_one_pos` (lines 594-701, 726-730). -/
noncomputable def calcErrors (rows : List Pt) : Except PyErr (List Out) := do
  let m ← bcast2 ptl2flat (rows.map (·.meas.1)) (rows.map (·.meas.2))
  let (tx, ty) ← int2ptl (rows.map (·.t)) (rows.map (·.p)) (rows.map (·.cal.r1)) (rows.map (·.cal.r2)) (rows.map (·.cal.tOff))
    (rows.map (·.cal.pOff)) (rows.map (·.cal.x)) (rows.map (·.cal.y))
  let t ← bcast2 ptl2flat tx ty
  let r ← bcast2 ptl2flat (rows.map (·.req.1)) (rows.map (·.req.2))
  return (rows.zip (m.zip (t.zip r))).map fun x => finish x.1.cal x.2.1 x.2.2.1 x.2.2.2

/-- One row of the table used for the number of images: exposure and iteration. -/
abbrev Shot := ℤ × ℤ

/-- `detect_num_fvc_images` (lines 671-685) for rows in the order of the sort: the iteration minus that of the row before; `-1` for the first
row and where the iteration is zero. -/
def numImages (rows : List Shot) : Except PyErr (List ℤ) :=
  if rows.isEmpty then .error .valueError
  else .ok (((-1) :: List.zipWith (fun a b => b.2 - a.2) rows rows.tail).zipWith (fun n r => if r.2 = 0 then -1 else n) rows)

/-- `choose_subplot_dims` (lines 1168-1173). -/
def dims (n : ℕ) : Except PyErr (ℕ × ℕ) :=
  let rows := (n + 2) / 3
  if rows = 0 then .error .zeroDivision else .ok (rows, (n + rows - 1) / rows)

/-- `str` of a number. -/
def str (n : ℕ) : PyStr := Nat.toDigits 10 n

/-- `str.join`. -/
def joinStr (sep : PyStr) (l : List PyStr) : PyStr := sep.intercalate l

/-- `get_submoves_str` (lines 1011-1029), for the sorted submoves of the table. -/
def submovesStr (submoves : List ℕ) (forFilename : Bool) : Except PyErr PyStr :=
  match submoves with
  | [] => .ok (if forFilename then [] else "Submove: ".toList)
  | s :: rest =>
    let sep := if forFilename then ['-'] else [',', ' ']
    let plural := if submoves.length > 1 then ['s'] else []
    let val := if submoves.length > 1 then str s else joinStr sep ((s :: rest).map str)
    .ok (if forFilename then val else "Submove".toList ++ plural ++ [':', ' '] ++ val)

/-- `get_unique_condensed_list_str` (lines 989-1009) for exposures: the separator is `-` for names of files and `,` otherwise. -/
def condensed (vals : List ℕ) (forFilename : Bool) : PyStr :=
  let vals := vals.toFinset.sort (· ≤ ·)
  let sep := if forFilename then ['-'] else [',']
  let full := joinStr sep (vals.map str)
  let alt := joinStr sep [str (vals.headD 0), "(".toList ++ str (vals.length - 2) ++ "-more)".toList, str (vals.getLastD 0)]
  if vals.length > 2 ∧ alt.length < full.length then alt else full

/-- The rows with the largest errors (lines 1342-1352): the rows that count, sorted by the error, the first `n`. -/
def top {ρ : Type} (order : List (ρ × ℝ) → List (ρ × ℝ)) (keep : ρ → Bool) (n : ℕ) (rows : List (ρ × ℝ)) : List (ρ × ℝ) :=
  (order (rows.filter fun r => keep r.1)).take n

end Verif.Model.PerfReport
