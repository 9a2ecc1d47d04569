import Verif.Model.PerfRead
import Mathlib.Analysis.SpecialFunctions.Trigonometric.Basic

/-!
# Model of `bin/analyze_pos_performance`, identification of moves (lines 119-153, 171-187, 371-592 and 715-728)

Tables are lists of rows, given here after the sort of `sequential_copy`; where a function sorts again, the sort is the parameter `order`.
The functions `int` and `float` of Python are parameters (`Num`); `float` gives `none` for NaN. Messages are left out.
-/

namespace Verif.Model.PerfMoves
open Verif.Py
open Verif.Model.Selection (strip isSpace)
open Verif.Model.PerfRead (tokens flagString)

/-! ### Tags -/

/-- `TAGS` (lines 120-124). -/
def tags : List PyStr := ["TRACKED".toList, "REQUESTED".toList, "ACCEPTED".toList, "MEASURED".toList]

/-- `sep.join(l)`. -/
def join (sep : Char) : List PyStr → PyStr
  | [] => []
  | [a] => a
  | a :: b :: l => a ++ sep :: join sep (b :: l)

/-- `l[-1]` of the pieces of a split, which are never empty. -/
def lastPiece (sep : Char) (s : PyStr) : PyStr := (split [sep] s).getLastD []

/-- `add_tag` (lines 127-130). -/
def addTag (tag s : PyStr) : Except PyErr PyStr := if tags.contains tag then .ok (s ++ '_' :: tag) else .error .assertionError

/-- `is_tagged` (lines 132-135). -/
def isTagged (s : PyStr) : Bool := tags.contains (lastPiece '_' s)

/-- `strip_tag` (lines 137-142). -/
def stripTag (s : PyStr) : Except PyErr PyStr :=
  if tags.contains (lastPiece '_' s) then .ok (join '_' (split ['_'] s).dropLast) else .error .assertionError

/-- `get_tag` (lines 144-148). -/
def getTag (s : PyStr) : Except PyErr PyStr := if tags.contains (lastPiece '_' s) then .ok (lastPiece '_' s) else .error .assertionError

/-! ### Notes -/

/-- `int` and `float` on texts. -/
structure Num where
  int : PyStr → Except PyErr ℤ
  float : PyStr → Except PyErr (Option ℝ)

/-- `s.strip(c)` for one character. -/
def stripC (c : Char) (s : PyStr) : PyStr := ((s.dropWhile (· == c)).reverse.dropWhile (· == c)).reverse

/-- `s.split()`. -/
def words (s : PyStr) : List PyStr := (s.splitOnP isSpace).filter fun w => !w.isEmpty

/-- `split_note_token` (lines 177-181). -/
def splitNote (s : PyStr) : List PyStr :=
  if pyIn ['|', '|'] s then split ['|', '|'] s
  else if pyIn ['|'] s then split ['|'] s
  else if pyIn [','] s then split [','] s
  else words s

/-- `l[i]`. -/
def item (l : List PyStr) (i : ℕ) : Except PyErr PyStr :=
  match l[i]? with
  | some s => .ok s
  | none => .error .indexError

/-- `parse_val` (lines 183-187); the list of pieces is never empty. -/
def parseVal (n : Num) (token : PyStr) : Except PyErr ℤ := do
  let s ← item (split [' '] token) 1
  n.int s

/-- A row. -/
structure Row (ρ : Type) where
  posid : PyStr
  expid : ℤ
  cmd : PyStr
  note : PyStr
  xy : ℝ × ℝ
  petalLoc : ℤ
  flags : ℤ
  rest : ρ

/-- The requested coordinates; `none` is NaN. -/
structure Req where
  t : Option ℝ
  p : Option ℝ
  x : Option ℝ
  y : Option ℝ
  z : Option ℝ

/-- The variables of the loop over the tokens. -/
structure TokSt where
  seq : Option ℤ
  move : Option ℤ
  sub : ℤ
  req : Req

/-- `abs_move_coords` (line 113). -/
def absCoords : List PyStr := ["QS".toList, "obsXY".toList, "poslocXY".toList, "ptlXY".toList, "posintTP".toList, "poslocTP".toList]

/-- Line 405. -/
def coordOf (cmd : PyStr) : PyStr := (split ['='] cmd).headD []

/-- Lines 421-422. -/
def reqPieces (token : PyStr) : List PyStr := splitNote (stripC ')' (stripC '(' (lastPiece '=' token)))

/-- `float(l[i])`. -/
def num (n : Num) (l : List PyStr) (i : ℕ) : Except PyErr (Option ℝ) := do
  let s ← item l i
  n.float s

/-- Lines 427-430: the displacement in the command. -/
def delta (n : Num) (cmd : PyStr) : Except PyErr (Option ℝ × Option ℝ) := do
  let v ← item (split ['='] cmd) 1
  let l := split [','] (stripC ']' (stripC '[' ((split [';'] v).headD [])))
  let dx ← num n l 0
  let dy ← num n l 1
  return (dx, dy)

/-- Lines 431-436: rotation for commands in the coordinates of the observer. -/
noncomputable def turn (coord : PyStr) (petalLoc : ℤ) (d : ℝ × ℝ) : ℝ × ℝ :=
  if coord = "obsdXdY".toList then
    let a := -((petalLoc : ℝ) - 3) * (Real.pi / 180 * 36)
    (Real.cos a * d.1 - Real.sin a * d.2, Real.sin a * d.1 + Real.cos a * d.2)
  else d

/-- Lines 437-441. -/
noncomputable def corrected (coord : PyStr) (petalLoc : ℤ) (prev : ℝ × ℝ) : Option ℝ × Option ℝ → Option ℝ × Option ℝ
  | (some dx, some dy) =>
    let d := turn coord petalLoc (dx, dy)
    (some (prev.1 + d.1), some (prev.2 + d.2))
  | (some dx, none) => if coord = "obsdXdY".toList then (none, none) else (some (prev.1 + dx), none)
  | (none, some dy) => if coord = "obsdXdY".toList then (none, none) else (none, some (prev.2 + dy))
  | (none, none) => (none, none)

/-- Lines 419-443 for the key `req_posintTP`. -/
def stepTP (n : Num) (s : TokSt) (token : PyStr) : Except PyErr TokSt :=
  if "req_posintTP".toList.isPrefixOf token then do
    let a ← num n (reqPieces token) 0
    let b ← num n (reqPieces token) 1
    return { s with req := { s.req with t := a, p := b } }
  else return s

/-- Lines 419-443 for the key `req_ptlXYZ`. -/
noncomputable def stepXYZ {ρ : Type} (n : Num) (r : Row ρ) (prev : ℝ × ℝ) (s : TokSt) (token : PyStr) : Except PyErr TokSt :=
  if "req_ptlXYZ".toList.isPrefixOf token then do
    let a ← num n (reqPieces token) 0
    let b ← num n (reqPieces token) 1
    let c ← num n (reqPieces token) 2
    if pyIn "dXdY".toList (coordOf r.cmd) && decide (s.sub > 0) then do
      let d ← delta n r.cmd
      let q := corrected (coordOf r.cmd) r.petalLoc prev d
      return { s with req := { s.req with x := q.1, y := q.2, z := c } }
    else return { s with req := { s.req with x := a, y := b, z := c } }
  else return s

/-- Lines 413-414. -/
def stepSeq (n : Num) (s : TokSt) (token : PyStr) : Except PyErr TokSt :=
  if "sequence_move_idx".toList.isPrefixOf token then do
    let v ← parseVal n token
    return { s with seq := some v }
  else return s

/-- Lines 415-416. -/
def stepMove (n : Num) (s : TokSt) (token : PyStr) : Except PyErr TokSt :=
  if "move".toList.isPrefixOf token && !pyIn "move_to_range".toList token then do
    let v ← parseVal n token
    return { s with move := some v }
  else return s

/-- Lines 417-418. -/
def stepSub (n : Num) (s : TokSt) (token : PyStr) : Except PyErr TokSt :=
  if "submove".toList.isPrefixOf token then do
    let v ← parseVal n token
    return { s with sub := v }
  else return s

/-- Lines 412-443: one token. -/
noncomputable def step {ρ : Type} (n : Num) (r : Row ρ) (prev : ℝ × ℝ) (s : TokSt) (token : PyStr) : Except PyErr TokSt := do
  let s ← stepSeq n s token
  let s ← stepMove n s token
  let s ← stepSub n s token
  let s ← stepTP n s token
  stepXYZ n r prev s token

/-- A row with the new columns. -/
structure Out (ρ : Type) where
  row : Row ρ
  counter : ℤ
  seq : Option ℤ
  move : Option ℤ
  sub : ℤ
  req : Req

/-- Line 406: the submove before the note is read. -/
def startSub (cmd : PyStr) (sub : ℤ) : ℤ := if absCoords.contains (coordOf cmd) then 0 else sub + 1

/-- Lines 400-403: move counter and submove are reset for the first row and when the exposure changes. -/
def carry (st : Option (ℤ × ℤ × ℤ)) (expid : ℤ) : ℤ × ℤ :=
  match st with
  | some (e, c, s) => if expid ≠ e then (-1, -1) else (c, s)
  | none => (-1, -1)

/-- The loop of lines 398-450; `prev` is the measured position of the row before, `st` the last exposure, move counter and submove,
`none` for the first row. -/
noncomputable def loop {ρ : Type} (n : Num) : ℝ × ℝ → Option (ℤ × ℤ × ℤ) → List (Row ρ) → Except PyErr (List (Out ρ))
  | _, _, [] => .ok []
  | prev, st, r :: rest => do
    let s ← (tokens r.note).foldlM (step n r prev) ⟨none, none, startSub r.cmd (carry st r.expid).2, ⟨none, none, none, none, none⟩⟩
    let tail ← loop n r.xy (some (r.expid, (carry st r.expid).1 + 1, s.sub)) rest
    return ⟨r, (carry st r.expid).1 + 1, s.seq, s.move, s.sub, s.req⟩ :: tail

/-- `identify_moves` (lines 371-457); the row before the first is the last (index -1). -/
noncomputable def identify {ρ : Type} (n : Num) (rows : List (Row ρ)) : Except PyErr (List (Out ρ)) :=
  match rows.getLast? with
  | none => .error .indexError
  | some z => loop n z.xy none rows

/-! ### Removals -/

/-- `remove_orphan_submoves` (lines 459-482). -/
def removeOrphans {ρ : Type} (t : List (Out ρ)) : List (Out ρ) :=
  t.filter fun o => !(decide (o.sub > 0) && !(t.any fun q => decide (q.row.posid = o.row.posid) && decide (q.move = o.move) &&
    decide (q.row.expid = o.row.expid) && decide (q.sub = 0)))

/-- `remove_insufficient_request_info_rows` (lines 484-501). -/
def removeInsufficient {ρ : Type} (t : List (Out ρ)) : List (Out ρ) :=
  t.filter fun o => !(o.req.t.isNone || o.req.p.isNone || o.req.x.isNone || o.req.y.isNone || o.req.z.isNone)

/-- Lines 720-722. -/
noncomputable def prepare {ρ : Type} (n : Num) (sort : List (Row ρ) → List (Row ρ)) (order : List (Out ρ) → List (Out ρ)) (rows : List (Row ρ)) :
    Except PyErr (List (Out ρ)) := do
  let t ← identify n (sort rows)
  return removeInsufficient (order (removeOrphans (order t)))

/-! ### Further columns -/

/-- Lines 556-557. -/
def avoidNames (s : PyStr) : List PyStr := splitNote (((stripC ']' (stripC '[' s)).filter (· ≠ '\'')).filter (· ≠ ' '))

/-- `identify_avoidances` (lines 550-558), the count for one row. -/
def avoidances (note : PyStr) : Except PyErr ℕ :=
  (tokens note).foldlM (fun c token => do
    if (split [':', ' '] token).headD [] = "collision avoidance".toList then do
      let s ← item (split [':', ' '] token) 1
      return c + (avoidNames s).length
    else return c) 0

/-- `FROZEN` (lines 559-560). -/
def frozen {ρ : Type} (r : Row ρ) : Bool := pyIn "FROZEN".toList (flagString r.flags)

/-- `identify_accepted` (lines 565-573). -/
def accepted {ρ : Type} (r : Row ρ) : Bool := !frozen r && !pyIn "REJECTED".toList (flagString r.flags)

/-- `identify_sequences` (lines 575-592), for one row. -/
def sequenceName (note : PyStr) : Except PyErr PyStr :=
  (tokens note).foldlM (fun q token => do
    if (split [':', ' '] token).headD [] = "sequence".toList then item (split [':', ' '] token) 1
    else return q) []

end Verif.Model.PerfMoves
