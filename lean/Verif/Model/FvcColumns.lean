import Verif.Model.Match
import Verif.Model.Xy2qs
import Verif.Model.Spotmatch

/-!
# Columns of the output of fvc_proc: processfvc.py lines 166-200 and 248-390

Tables are lists or functions on `Fin n`. A missing column is `false` in the record `Columns`; a number that is NaN is `none`.
Parameters: the KD tree, the sort, the transforms, the turbulence correction (see C54, C72). `Table.rename_column` raises KeyError if
the new name exists; `KDTree` raises ValueError for coordinates that are not numbers.
-/

namespace Verif.Model.FvcColumns
open Verif.Py Verif.Model.Match

/-- The columns of a table of expected positions. -/
structure Columns where
  x : Bool
  y : Bool
  xexp : Bool
  yexp : Bool
  q : Bool
  s : Bool
  loc : Bool
  petal : Bool
  device : Bool
  pinhole : Bool

structure ExpRow (δ : Type) where
  x : Option ℝ
  y : Option ℝ
  xexp : Option ℝ
  yexp : Option ℝ
  q : Option ℝ
  s : Option ℝ
  loc : ℤ
  petal : ℤ
  device : ℤ
  pinhole : ℤ
  /-- DEVICE_ID, DEVICE_TYPE -/
  info : δ

variable {δ : Type}

/-- Lines 171-174. -/
def renameExp (c : Columns) (rows : List (ExpRow δ)) : Except PyErr (Columns × List (ExpRow δ)) :=
  if !c.x && c.xexp then
    if !c.yexp || c.y then .error .keyError
    else .ok ({ c with x := true, y := true, xexp := false, yexp := false },
      rows.map fun r => { r with x := r.xexp, y := r.yexp })
  else .ok (c, rows)

/-- Lines 180-186 for one row. -/
noncomputable def fromQS (r : ExpRow δ) : ExpRow δ :=
  match r.q, r.s with
  | some q, some s => { r with x := some (Xy2qs.qs2xy q s).1, y := some (Xy2qs.qs2xy q s).2 }
  | _, _ => { r with x := some (-99999), y := some (-99999) }

/-- Lines 177-188. -/
noncomputable def addXY (c : Columns) (rows : List (ExpRow δ)) : Except PyErr (Columns × List (ExpRow δ)) :=
  if !c.x then
    if c.q then
      if !c.s then .error .keyError
      else .ok ({ c with x := true, y := true }, rows.map fromQS)
    else .ok (c, rows)
  else .ok (c, rows)

/-- Lines 193-195. -/
def addLocation (c : Columns) (rows : List (ExpRow δ)) : Except PyErr (Columns × List (ExpRow δ)) :=
  if !c.loc then
    if !c.petal || !c.device then .error .keyError
    else .ok ({ c with loc := true }, rows.map fun r => { r with loc := r.petal * 1000 + r.device })
  else .ok (c, rows)

/-- Lines 197-200. -/
def dropPinholes (c : Columns) (rows : List (ExpRow δ)) : List (ExpRow δ) :=
  if c.pinhole then rows.filter fun r => r.pinhole = 0 else rows

/-- `get_expected_pos` (lines 166-202); `table` is the table of `--expected-positions`. -/
noncomputable def getExpected (metrology : Columns × List (ExpRow δ)) (table : Option (Columns × List (ExpRow δ))) :
    Except PyErr (Columns × List (ExpRow δ)) := do
  let t ← (match table with
    | some t => renameExp t.1 t.2 >>= fun t => addXY t.1 t.2
    | none => Except.ok metrology : Except PyErr (Columns × List (ExpRow δ)))
  let t ← addLocation t.1 t.2
  return (t.1, dropPinholes t.1 t.2)

/-- An expected position as it is used by the matching. -/
structure Expected (δ : Type) where
  loc : ℤ
  xy : ℝ × ℝ
  info : δ

/-- `expected_pos["X_FP"]`, `expected_pos["Y_FP"]` and the tree built from them. -/
def usable (t : Columns × List (ExpRow δ)) : Except PyErr (List (Expected δ)) :=
  if !t.1.x || !t.1.y then .error .keyError
  else t.2.mapM fun r =>
    match r.x, r.y with
    | some x, some y => .ok ⟨r.loc, (x, y), r.info⟩
    | _, _ => .error .valueError

/-- The columns of the spots that are used here. A column that is missing when it is needed is filled with zeros, see `fvc_proc`. -/
structure Spot (δ : Type) where
  loc : ℤ
  xy : ℝ × ℝ
  expected : ℝ × ℝ
  metro : ℝ × ℝ
  info : δ

variable {n m : ℕ}

/-- The spots that are not matched yet (line 277). -/
def unmatched (spots : Fin n → Spot δ) : List (Fin n) := (List.finRange n).filter fun i => (spots i).loc = -1

/-- The expected position of a spot (lines 319-324). -/
noncomputable def partner (argsort : List (WithTop ℝ) → List ℕ) (nearest : 0 < m → ℝ × ℝ → Fin m) (maxd : ℝ) (spots : Fin n → Spot δ)
    (e : Fin m → Expected δ) (i : Fin n) : Option (Fin m) :=
  let sel := unmatched spots
  let r := matchSame argsort nearest (fun k : Fin sel.length => (spots (sel.get k)).xy) (fun j => (e j).xy) true
  (List.finRange sel.length).findSome? fun k =>
    if sel.get k = i then
      match r.1 k with
      | some j => if h : j < m then (if r.2 k < maxd then some ⟨j, h⟩ else none) else none
      | none => none
    else none

/-- Lines 316-338: the columns are filled for the matched spots. -/
noncomputable def matchExpected (argsort : List (WithTop ℝ) → List ℕ) (nearest : 0 < m → ℝ × ℝ → Fin m) (maxd : ℝ) (spots : Fin n → Spot δ)
    (e : Fin m → Expected δ) (i : Fin n) : Spot δ :=
  match partner argsort nearest maxd spots e i with
  | some j => { spots i with loc := (e j).loc, expected := (e j).xy, info := (e j).info }
  | none => spots i

/-- `loc2i` (line 293). -/
def loc2i (locs : Fin n → ℤ) (l : ℤ) : Option (Fin n) := ((List.finRange n).filter fun i => locs i = l).getLast?

/-- Lines 295-302 and 304-312: the values of a table are written to the spots of the same location. -/
def joinLast (locs : Fin n → ℤ) (table : List (ℤ × (ℝ × ℝ))) (column : Fin n → ℝ × ℝ) : Fin n → ℝ × ℝ :=
  table.foldl (fun c t =>
    match loc2i locs t.1 with
    | some i => Function.update c i t.2
    | none => c) column

/-- Lines 283-312: the spots come from `spotmatch` (C62), `tx` is the transform. -/
def spotmatchColumns (tx : ℝ × ℝ → ℝ × ℝ) (spots : Fin n → ℤ × (ℝ × ℝ) × δ) (expected metrology : List (ℤ × (ℝ × ℝ))) (i : Fin n) : Spot δ :=
  let locs := fun i => (spots i).1
  ⟨(spots i).1, tx (spots i).2.1, joinLast locs expected (fun _ => (0, 0)) i, joinLast locs metrology (fun _ => (0, 0)) i, (spots i).2.2⟩

/-- The spots that are corrected (line 346). -/
noncomputable def corrected (spots : Fin n → Spot δ) : List (Fin n) :=
  (List.finRange n).filter fun i => 0 ≤ (spots i).loc ∧ (spots i).expected.1 ≠ 0 ∧ (spots i).expected.2 ≠ 0

/-- Lines 346-358; `corr` is `correct` or `correct_with_pol` of measured and expected positions. -/
noncomputable def turbulence (corr : List ((ℝ × ℝ) × (ℝ × ℝ)) → Except PyErr (List (ℝ × ℝ))) (spots : Fin n → Spot δ) :
    Except PyErr (Fin n → Spot δ) := do
  let sel := corrected spots
  let new ← corr (sel.map fun i => ((spots i).xy, (spots i).expected))
  if new.length ≠ sel.length then .error .valueError
  else return (sel.zip new).foldl (fun s p => Function.update s p.1 { s p.1 with xy := p.2 }) spots

/-- Lines 360-365. -/
noncomputable def override (s : Spot δ) : Spot δ :=
  { s with expected := (if s.metro.1 ≠ 0 then s.metro.1 else s.expected.1, if s.metro.2 ≠ 0 then s.metro.2 else s.expected.2) }

/-- Lines 340-365. -/
noncomputable def finish (given turb : Bool) (corr : List ((ℝ × ℝ) × (ℝ × ℝ)) → Except PyErr (List (ℝ × ℝ))) (spots : Fin n → Spot δ) :
    Except PyErr (Fin n → Spot δ) :=
  if given && turb then (turbulence corr spots).map fun s i => override (s i)
  else .ok fun i => override (spots i)

/-- RA and DEC (lines 376-386). -/
noncomputable def radec (fp2radec : ℝ × ℝ → ℝ × ℝ) (s : Spot δ) : ℝ × ℝ :=
  if s.xy.1 ≠ 0 ∧ s.xy.2 ≠ 0 then fp2radec s.xy else (0, 0)

/-- Lines 274-365 without `--use-spotmatch`. -/
noncomputable def normal (argsort : List (WithTop ℝ) → List ℕ) (nearest : (e : List (Expected δ)) → 0 < e.length → ℝ × ℝ → Fin e.length)
    (maxd : ℝ) (metrology : Columns × List (ExpRow δ)) (table : Option (Columns × List (ExpRow δ))) (turb : Bool)
    (corr : List ((ℝ × ℝ) × (ℝ × ℝ)) → Except PyErr (List (ℝ × ℝ))) (spots : Fin n → Spot δ) : Except PyErr (Fin n → Spot δ) := do
  let t ← getExpected metrology table
  let e ← usable t
  finish table.isSome turb corr (matchExpected argsort (nearest e) maxd spots e.get)

/-! ### The metrology of the centres of fiducials (lines 253-268) -/

/-- Replaces the first row of the location and drops the others. -/
def replaceFirst (loc : ℤ) (new : Spotmatch.Met → Spotmatch.Met) : List Spotmatch.Met → List Spotmatch.Met
  | [] => []
  | r :: t => if r.loc = loc then new r :: t.filter (fun r => r.loc ≠ loc) else r :: replaceFirst loc new t

/-- One turn of the loop. -/
noncomputable def atCentre (met : List Spotmatch.Met) (loc : ℤ) : List Spotmatch.Met :=
  let c := Spotmatch.centre met loc
  replaceFirst loc (fun r => { r with fp := c, pinhole := 99 }) met

/-- Lines 253-268. -/
noncomputable def centres (met : List Spotmatch.Met) : List Spotmatch.Met := (Spotmatch.fidLocations met).foldl atCentre met

end Verif.Model.FvcColumns
