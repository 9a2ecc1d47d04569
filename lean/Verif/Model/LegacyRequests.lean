import Verif.Model.PerfMoves
import Verif.Model.Int2ptl
import Verif.Model.Ptl2fp

/-!
# Model of `bin/analyze_pos_performance_legacy`, what was requested (lines 155-165, 286-344, 408-499 and 604-623)

The table is the list of its rows, given in the order of `sequential_copy`. `float` and `int` are parameters; NaN is not modelled. The numbers
of a row are read before the loop, row by row; when several rows cannot be read the script may raise the exception of another one of them.
The functions of `pos2ptl` get scalars, here lists of one number, and `float` takes the number out again. The rest of the script is as
`bin/analyze_pos_performance` (`Model/PerfRead.lean` to `Model/PerfReport.lean`) and is not modelled again.
-/

namespace Verif.Model.LegacyReq
open Verif.Py
open Verif.Model.PerfRead (tokens nullStr)
open Verif.Model.PerfMoves (Num item stripC absCoords parseVal)

/-- A row: MOVE_CMD, SUBMOVE, POS_T, POS_P, PETAL_LOC and the calibration. -/
structure Row where
  cmd : PyStr
  sub : ℤ
  posT : ℝ
  posP : ℝ
  petal : ℕ
  cal : Int2ptl.Cal

/-- `all_move_coords` (lines 102-104). -/
def allCoords : List PyStr := absCoords ++ ["dQdS".toList, "obsdXdY".toList, "poslocdXdY".toList, "dTdP".toList]

/-- Line 427. -/
def request (cmd : PyStr) : PyStr := (split [';'] cmd).headD []

/-- Line 428. -/
def coordOf (cmd : PyStr) : PyStr := (split ['='] (request cmd)).headD []

/-- `float(l[i])`. -/
def num (float : PyStr → Except PyErr ℝ) (l : List PyStr) (i : ℕ) : Except PyErr ℝ := do
  let s ← item l i
  float s

/-- Lines 432-435, for a row with a move. -/
def values (float : PyStr → Except PyErr ℝ) (cmd : PyStr) : Except PyErr (ℝ × ℝ) := do
  let v ← item (split ['='] (request cmd)) 1
  let l := split [','] (stripC ']' (stripC '[' v))
  let a ← num float l 0
  let b ← num float l 1
  return (a, b)

/-- A command: the coordinates and the two numbers. -/
structure Cmd where
  coord : PyStr
  a : ℝ
  b : ℝ

/-- Lines 427-435: the command of a row, `none` if it is not a move. -/
def command (float : PyStr → Except PyErr ℝ) (r : Row) : Except PyErr (Option Cmd) :=
  if allCoords.contains (coordOf r.cmd) then do
    let v ← values float r.cmd
    return some ⟨coordOf r.cmd, v.1, v.2⟩
  else return none

/-- `fp2ptl(ptl_loc, x_fp, y_fp)` followed by `ptl2flat` (lines 455-461). -/
noncomputable def fromFp (d : Ptl2fp.Dict) (r2z : ℝ → ℝ) (petal : ℕ) (xy : ℝ × ℝ) : Except PyErr (ℝ × ℝ) := do
  let p ← Ptl2fp.fp2ptl d petal (Ptl2fp.withZ r2z xy.1 xy.2)
  return Xy2qs.ptl2flat (p 0) (p 1)

/-- Lines 481-482 for `u`: `float` of the array of one element. -/
noncomputable def toFlat (u : List ℝ) (offset : ℝ) : Except PyErr ℝ := do
  let f ← Pos2ptl.loc2flat u [offset]
  match f with
  | [v] => .ok v
  | _ => .error .typeError

/-- Lines 462-482: from coordinates of the positioner. -/
noncomputable def fromLoc (c : Int2ptl.Cal) (q : List ℝ × List ℝ) : Except PyErr (ℝ × ℝ) := do
  let x ← toFlat q.1 c.x
  let y ← toFlat q.2 c.y
  return (x, y)

/-- Lines 451-486: where a request is, in flat coordinates. -/
noncomputable def place (d : Ptl2fp.Dict) (r2z : ℝ → ℝ) (r : Row) (q : Cmd) : Except PyErr (ℝ × ℝ) :=
  if q.coord = "ptlXY".toList then .ok (Xy2qs.ptl2flat q.a q.b)
  else if q.coord = "QS".toList then fromFp d r2z r.petal (Xy2qs.qs2xy q.a q.b)
  else if q.coord = "obsXY".toList then fromFp d r2z r.petal (q.a, q.b)
  else if q.coord = "poslocXY".toList then fromLoc r.cal ([q.a], [q.b])
  else if q.coord = "posintTP".toList then do
    let l ← Pos2ptl.int2loc [q.a] [q.b] [r.cal.r1] [r.cal.r2] [r.cal.tOff] [r.cal.pOff]
    fromLoc r.cal l
  else if q.coord = "poslocTP".toList then do
    let t ← Pos2ptl.int2ext [q.a] [r.cal.tOff]
    let p ← Pos2ptl.int2ext [q.b] [r.cal.pOff]
    let l ← Pos2ptl.ext2loc t p [r.cal.r1] [r.cal.r2]
    fromLoc r.cal l
  else .error .assertionError

/-- Lines 440-446: a row without a move counts as a move to the tracked angles. -/
def effective (r : Row) (q : Option Cmd) : Cmd := q.getD ⟨"posintTP".toList, r.posT, r.posP⟩

/-- Lines 439-492: the loop; `last` is the position at `last_known_request_idx`. That index is -1 before the first request, and the last
entry of the lists is `None` until then. -/
noncomputable def loop (d : Ptl2fp.Dict) (r2z : ℝ → ℝ) : Option (ℝ × ℝ) → List (Row × Option Cmd) → Except PyErr (List (Option (ℝ × ℝ)))
  | _, [] => .ok []
  | last, (r, q) :: rest =>
    if r.sub = 0 ∧ absCoords.contains (effective r q).coord = true then do
      let p ← place d r2z r (effective r q)
      let tail ← loop d r2z (some p) rest
      return some p :: tail
    else if r.sub ≠ 0 then do
      let tail ← loop d r2z last rest
      return last :: tail
    else .error .assertionError

/-- Lines 493-496. -/
def allKnown (l : List (Option (ℝ × ℝ))) : Except PyErr (List (ℝ × ℝ)) :=
  l.mapM fun p => match p with
    | some p => .ok p
    | none => .error .assertionError

/-- `identify_requests` (lines 408-499): FLAT_X_REQUESTED and FLAT_Y_REQUESTED of the rows. -/
noncomputable def requests (float : PyStr → Except PyErr ℝ) (d : Ptl2fp.Dict) (r2z : ℝ → ℝ) (rows : List Row) : Except PyErr (List (ℝ × ℝ)) := do
  let cs ← rows.mapM (command float)
  let l ← loop d r2z none (rows.zip cs)
  allKnown l

/-- `calc_alt_coords` (lines 604-623) for one row: PTL_X, PTL_Y. -/
noncomputable def ptlOf (p : ℝ × ℝ) : ℝ × ℝ := Xy2qs.flat2ptl p.1 p.2

/-- `calc_alt_coords` for one row: LOC_X, LOC_Y. -/
noncomputable def locOf (c : Int2ptl.Cal) (p : ℝ × ℝ) : ℝ × ℝ := (p.1 - c.x, p.2 - c.y)

/-! ### Notes -/

/-- The variables of the loop over the tokens. -/
structure NoteSt where
  seq : Option ℤ
  move : Option ℤ
  sub : ℤ

/-- Lines 322-328: one token. -/
def noteStep (n : Num) (s : NoteSt) (token : PyStr) : Except PyErr NoteSt := do
  let s ← if "sequence_move_idx".toList.isPrefixOf token then do
      let v ← parseVal n token
      pure { s with seq := some v }
    else pure s
  let s ← if "move".toList.isPrefixOf token then do
      let v ← parseVal n token
      pure { s with move := some v }
    else pure s
  if "submove".toList.isPrefixOf token then do
    let v ← parseVal n token
    pure { s with sub := v }
  else pure s

/-- Lines 319-334: SEQUENCE_MOVE_IDX, MOVE and SUBMOVE of a row whose submove is `sub` before the note is read. -/
def noteOf (n : Num) (cmd note : PyStr) (sub : ℤ) : Except PyErr NoteSt := do
  let s ← (tokens note).foldlM (noteStep n) ⟨none, none, sub⟩
  if nullStr (some cmd) = false ∧ s.seq = none ∧ pyIn "sequence".toList note = true then
    return { s with seq := s.move.map (· - 1) }
  else return s

end Verif.Model.LegacyReq
