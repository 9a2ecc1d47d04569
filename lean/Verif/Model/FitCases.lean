import Verif.Py.Real
import Verif.Py.Str

/-!
# py/desimeter/posparams/fithandler.py: row filters and analysis windows

`_apply_filters` (257-270) with its filter functions (232-256), `_define_cases` (279-341) and
`_row_idx_for_time` (478-491).

`Table.sort` of astropy is not a stable sort, so each sort is a parameter: any function that
returns a sorted permutation.  Only the columns used here are modelled.
-/

namespace Verif.Model.FitCases
open Verif.Py

/-- A cell of the column CTRL_ENABLED as read. -/
inductive Cell where
  | str (s : PyStr)
  | int (i : ℤ)
  | bool (b : Bool)
  deriving DecidableEq

/-- One row of the table of measured moves. -/
structure Row where
  /-- identifies the row (the columns not modelled) -/
  tag : ℕ
  /-- CTRL_ENABLED after the type cast -/
  enabled : Bool
  /-- TOTAL_MOVE_SEQUENCES -/
  moveSeq : ℤ
  /-- TOTAL_CRUISE_MOVES_T -/
  cruiseT : ℤ
  /-- TOTAL_CRUISE_MOVES_P -/
  cruiseP : ℤ
  /-- DATE_SEC -/
  dateSec : ℝ
  /-- CTRL_ENABLED as read -/
  ctrl : Cell := .bool true
  /-- POS_ID -/
  posId : PyStr := []
  /-- LOG_NOTE -/
  note : PyStr := []
  /-- RECENT_REHOME -/
  rehome : ℤ := 1
  /-- PETAL_ID -/
  petalId : ℤ := 0
  /-- PETAL_LOC -/
  petalLoc : ℤ := 0
  /-- DEVICE_LOC -/
  deviceLoc : ℤ := 0

/-- lines 531-539, `_np_diff_with_prepend`. -/
def npDiff (prepend : ℤ) (l : List ℤ) : List ℤ := List.zipWith (fun a b => b - a) (prepend :: l) l

/-- A filter function: it may reorder the table, and says which rows are bad. -/
abbrev Filter := List Row → Except PyErr (List Row × List Bool)

/-- lines 234-236. -/
def ctrlNotEnabled : Filter := fun t => .ok (t, t.map fun r => !r.enabled)

/-- lines 238-244. -/
def noMovePerformed (sortSeq : List Row → List Row) : Filter := fun t =>
  match sortSeq t with
  | [] => .error .indexError
  | r :: l => .ok (r :: l, (npDiff (r.moveSeq - 1) ((r :: l).map Row.moveSeq)).map fun d => decide (d = 0))

/-- lines 246-255.  Both dummies come from TOTAL_MOVE_SEQUENCES. -/
def noCruisePerformed (sortSeq : List Row → List Row) : Filter := fun t =>
  match sortSeq t with
  | [] => .error .indexError
  | r :: l => .ok (r :: l, List.zipWith (fun a b => decide (a + b = 0))
      (npDiff (r.moveSeq - 1) ((r :: l).map Row.cruiseT)) (npDiff (r.moveSeq - 1) ((r :: l).map Row.cruiseP)))

/-- `table.remove_rows(mask)`. -/
def removeRows (t : List Row) (bad : List Bool) : List Row := ((t.zip bad).filter fun p => !p.2).map Prod.fst

/-- lines 264-268: the loop over the filters. -/
def applyAll : List Filter → List Row → Except PyErr (List Row)
  | [], t => .ok t
  | f :: fs, t =>
    match f t with
    | .error e => .error e
    | .ok (t', bad) =>
      let t'' := removeRows t' bad
      if t''.length = 0 then .ok t'' else applyAll fs t''

/-- lines 257-270, `_apply_filters` with the default filters. -/
def applyFilters (sortSeq : List Row → List Row) (t : List Row) : Except PyErr (List Row) :=
  applyAll [ctrlNotEnabled, noMovePerformed sortSeq] t

/-! ## Analysis windows -/

/-- lines 478-491, `_row_idx_for_time`, on the column DATE_SEC. -/
noncomputable def rowIdx (dates : List ℝ) (t : ℝ) : Except PyErr ℕ :=
  match dates.head?, dates.getLast? with
  | some a, some b =>
    if t < a then .ok 0
    else if t > b then .ok (dates.length - 1)
    else
      match dates.findIdx? (fun d => d ≥ t) with
      | some i => .ok i
      | none => .error .indexError
  | _, _ => .error .indexError

/-- An analysis window: first and last row. -/
structure Case where
  start : ℕ
  final : ℤ
  deriving DecidableEq

/-- lines 302-317: only one datum date.  The value of `istart` is not used (line 314). -/
def singleDatum (n : ℕ) (w : ℤ) : Except PyErr (List Case) :=
  if w = 0 then .error .valueError
  else if w < 0 then .ok []
  else .ok ((List.range ((n + w.toNat - 1) / w.toNat)).map fun (k : ℕ) =>
    { start := 0, final := min ((n : ℤ) - 1) (k * w + w - 1) })

/-- lines 325-327: `sum(w for w in widths[i:J+1])`. -/
def backSum (widths : List ℤ) (i j : ℕ) : ℤ := ((widths.take (j + 1)).drop i).sum

/-- lines 328-331: the `while` loop, from `i` downwards. -/
def expandBack (widths : List ℤ) (w : ℤ) (j : ℕ) : ℕ → ℕ
  | 0 => 0
  | i + 1 => if backSum widths (i + 1) j > w then i + 1 else expandBack widths w j i

/-- lines 324-338: one pass of the loop over the final indices. -/
def caseStep (starts : List ℕ) (widths : List ℤ) (w : ℤ) (cases : List Case) (p : ℕ × ℕ) : List Case :=
  let i := expandBack widths w p.2 p.2
  if ¬ (backSum widths i p.2 > w) ∧ (p.2 : ℤ) < (widths.length : ℤ) - 1 then cases
  else
    let c : Case := { start := starts.getD i 0, final := p.1 }
    if c ∈ cases then cases else cases ++ [c]

/-- lines 318-341 on the two lists of indices. -/
def manyDatum (starts finals : List ℕ) (w : ℤ) : List Case :=
  finals.zipIdx.foldl (caseStep starts (List.zipWith (fun s f : ℕ => (f : ℤ) - s) starts finals) w) []

/-- lines 279-341, `_define_cases`, on the sorted column DATE_SEC. -/
noncomputable def defineCases (dates datum : List ℝ) (w : ℤ) : Except PyErr (List Case) :=
  if datum.length = 1 then singleDatum dates.length w
  else do
    let idxs ← datum.mapM (rowIdx dates)
    return manyDatum idxs.dropLast idxs.tail w

end Verif.Model.FitCases
