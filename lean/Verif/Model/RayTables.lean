import Verif.Model.RayTrace
import Verif.Model.Selection
import Mathlib.Algebra.Order.Floor.Ring

/-!
# The ray tracer: its tables

Model of py/desimeter/transform/tan2fp/raytrace/RT185v2.py lines 232-457 and 1017-1360: reading of the
optics, ray and media tables, and the refractive index of a glass.

A file is the list of its records as `csv.reader` gives them, `none` if it cannot be opened.
`num` is `float(text)`: a number, or `none` for `ValueError` (texts like `nan` and `inf`, which
`float` accepts, are left out).  Letters are ASCII.  The row 0 of the arrays, which stands for no
surface, ray or glass, is left out.  `quit()` is `sysExit 0`.  Lengths of file names are not
checked (the names are literals).
-/

namespace Verif.RayTrace

open Verif.Py
open Verif.Model.Selection (strip)

/-! ## Texts -/


/-- RT185v2.py:254-272 `suckInt`: the first number in a text. -/
def suckInt (s : PyStr) : ℕ := toInt ((s.dropWhile fun c => !isDig c).takeWhile isDig)

/-- RT185v2.py:274-294 `getActionType`. -/
def getActionType (s : PyStr) : Int :=
  match s with
  | [] => 0
  | c :: t =>
    let c0 := c.toUpper
    let c2 := ((t.getD 1 ' ')).toUpper
    if c0 = 'M' then 1
    else if c0 = 'R' then 2
    else if c0 = 'I' then 3
    else if c0 = 'C' then
      if c2 = 'I' then 4
      else if c2 = 'O' then 5
      else 0
    else 0

/-- RT185v2.py:296-355 `getOpticsAttribute`: the number of the column of `Oarray` for a header, -1
for none.  `OZ0`, `OSAGFILE`, `OSAGMULT` and `OSAGSTEP` are not defined: `NameError`. -/
def getOpticsAttribute (header : PyStr) : Except PyErr Int :=
  let guidenum := suckInt header
  let h := header ++ "      ".toList
  let c0 := h.getD 0 ' '
  let c0up := c0.toUpper
  let c1up := (h.getD 1 ' ').toUpper
  let c3up := (h.getD 3 ' ').toUpper
  if c0 = 'D' then .ok 2
  else if c0 = 'd' then .ok 3
  else if (c0up = 'T' ∧ c1up = 'Y') ∨ (c0up = 'L' ∧ c1up = 'E') ∨ (c0up = 'M' ∧ c1up = 'I') then .ok 1
  else if c0up = 'I' ∨ c0up = 'G' then .ok 0
  else if c0up = 'X' then .ok 6
  else if c0up = 'Y' then .ok 7
  else if c0up = 'Z' ∧ ¬ c1up = 'E' then .ok 8
  else if c0up = 'P' then .ok 10
  else if c0up = 'T' ∧ c1up = 'I' then .ok 9
  else if c0up = 'R' then .ok 11
  else if c0up = 'C' then .ok 4
  else if c0up = 'A' ∧ c1up = 'S' then .ok 5
  else if c0up = 'A' ∧ guidenum < 15 then .ok (12 - 1 + guidenum)
  else if c0up = 'Z' ∧ c1up = 'E' ∧ guidenum < 36 then .error .nameError
  else if c0up = 'S' ∧ c3up = 'F' then .error .nameError
  else if c0up = 'S' ∧ c3up = 'M' then .error .nameError
  else if c0up = 'S' ∧ c3up = 'S' then .error .nameError
  else if c0up = 'N' ∧ c1up = 'S' then .ok 30
  else if c0up = 'W' ∧ c1up = 'S' then .ok 31
  else .ok (-1)

/-- RT185v2.py:357-403 `getRayStartAttribute`. -/
def getRayStartAttribute (header : PyStr) : Int :=
  match header.map Char.toUpper with
  | [] => -1
  | c0 :: t =>
    let c1 := t.getD 0 ' '
    if c0 = '@' then 6
    else if c0 = 'X' then
      if c1 = 'G' then 7
      else if c1 = '0' then 0
      else -1
    else if c0 = 'Y' then
      if c1 = 'G' then 8
      else if c1 = '0' then 1
      else -1
    else if c0 = 'Z' then
      if c1 = '0' then 2 else -1
    else if c0 = 'U' then
      if c1 = '0' then 3 else -1
    else if c0 = 'V' then
      if c1 = '0' then 4 else -1
    else if c0 = 'W' then
      if c1 = '0' then 5 else -1
    else -1

/-! ## Any table -/

/-- RT185v2.py:1019-1025 `isEmpty`. -/
def isEmpty (row : List PyStr) : Bool := row.all List.isEmpty

/-- The loops of RT185v2.py:1085-1089: number of fields up to the last one that is not empty. -/
def nfields (data : List (List PyStr)) : ℕ :=
  data.foldl (fun n row =>
    row.zipIdx.foldl (fun n cj => if cj.1.length > 0 then max n (cj.2 + 1) else n) n) 0

/-- RT185v2.py:1096-1099: a row truncated or extended to `n` fields. -/
def pad (n : ℕ) (row : List PyStr) : List PyStr :=
  row.take n ++ List.replicate (n - row.length) []

/-- RT185v2.py:1060-1101 `unpackCSV` of a file that could be opened. -/
def unpack (raw : List (List PyStr)) : List (List PyStr) :=
  if raw.length < 3 then raw
  else
    let data := raw.map fun row => row.map strip
    let data := data.take 1 ++ (data.drop 1).filter fun row => !isEmpty row
    let n := nfields data
    if n < 1 then data else data.map (pad n)

/-- RT185v2.py:1064-1068: a file that cannot be opened ends the program. -/
def openCSV (file : Option (List (List PyStr))) : Except PyErr (List (List PyStr)) :=
  match file with
  | none => .error (.sysExit 0)
  | some raw => .ok (unpack raw)

/-- A cell with a number (RT185v2.py:1163-1169, 1335-1341); empty and unreadable cells count as
-0.0. -/
def cellNumber (num : PyStr → Option ℝ) (s : PyStr) : ℝ :=
  if s.length > 0 then (num s).getD 0 else 0

/-! ## Optics -/

/-- A row of `Oarray`: numbers in the columns, the action type and the name of the glass. -/
structure ORow where
  num : ℕ → ℝ
  action : Int
  glass : PyStr

/-- One field (RT185v2.py:1145-1171): `cells` is its column. -/
def setField (num : PyStr → Option ℝ) (rows : List ORow) (f : PyStr × List PyStr) :
    Except PyErr (List ORow) :=
  match getOpticsAttribute f.1 with
  | .error e => .error e
  | .ok a =>
    if a = 0 then .ok (List.zipWith (fun o c => { o with glass := c }) rows f.2)
    else if a = 1 then
      .ok (List.zipWith (fun o c => { o with action := getActionType c }) rows f.2)
    else if 0 ≤ a ∧ a < 32 then
      .ok (List.zipWith (fun o c =>
        { o with num := Function.update o.num a.toNat (cellNumber num c) }) rows f.2)
    else .ok rows

/-- `int(x)`. -/
noncomputable def trunc (x : ℝ) : Int := if 0 ≤ x then ⌊x⌋ else ⌈x⌉

/-- A row of the arrays as a surface, with `OhasPoly` (RT185v2.py:1174-1185). -/
noncomputable def ORow.surf (o : ORow) : Surf :=
  { action := o.action, odiam := o.num 2, idiam := o.num 3, curve := o.num 4, asph := o.num 5,
    vertex := ⟨o.num 6, o.num 7, o.num 8⟩, tilt := o.num 9, pitch := o.num 10, roll := o.num 11,
    hasPoly := (List.range 14).any fun i => decide (o.num (12 + i) ≠ 0),
    poly := (List.range 14).map fun i => o.num (12 + i),
    legs := trunc (o.num 30), legWidth := o.num 31, glass := o.glass }

/-- Number of rows used of `n` rows of data (RT185v2.py:1127-1131, 1219-1224). -/
def guided (n guide : ℕ) : ℕ := if guide > 0 then min n guide else n

/-- Column `i` of the rows. -/
def column (rows : List (List PyStr)) (i : ℕ) : List PyStr := rows.map fun r => r.getD i []

/-- RT185v2.py:1108-1189 `getOpticsCSV`.  With fewer than three rows or two columns the message
names a variable that does not exist. -/
noncomputable def getOptics (num : PyStr → Option ℝ) (file : Option (List (List PyStr))) :
    Except PyErr (List Surf) := do
  let data ← openCSV file
  match data with
  | [] => .error .indexError
  | title :: rest =>
    if data.length < 3 ∨ title.length < 2 then .error .nameError
    else
      let n := guided (data.length - 2) (suckInt (title.getD 0 []))
      let headers := rest.getD 0 []
      let rows := (rest.drop 1).take n
      let start : List ORow := List.replicate n ⟨fun _ => 0, 0, []⟩
      let out ← ((List.range title.length).map fun i => (headers.getD i [], column rows i)).foldlM
        (setField num) start
      .ok (out.map ORow.surf)

/-! ## Rays -/

/-- A row of `Raystarts` with its entry of `RwaveNames`. -/
structure RRow where
  num : ℕ → ℝ
  wave : PyStr

/-- One field (RT185v2.py:1240-1252); `getFloatValue` reads a number. -/
def setRayField (num : PyStr → Option ℝ) (rows : List RRow) (f : PyStr × List PyStr) : List RRow :=
  let a := getRayStartAttribute f.1
  let rows := if a = 6 then List.zipWith (fun o c => { o with wave := c }) rows f.2 else rows
  if 0 ≤ a ∧ a ≤ 8 then
    List.zipWith (fun o c =>
      { o with num := Function.update o.num a.toNat ((num c).getD 0) }) rows f.2
  else rows

/-- A ray of the table: its first row of `Rarray` and the name of its wavelength. -/
structure Start where
  ray : Ray
  wave : PyStr

/-- RT185v2.py:1258-1268: the start of a ray. -/
noncomputable def RRow.start (o : RRow) : Except PyErr Start := do
  let w ← fixup (o.num 3) (o.num 4) (o.num 5)
  return ⟨⟨⟨o.num 0, o.num 1, o.num 2⟩, ⟨o.num 3, o.num 4, w⟩⟩, o.wave⟩

/-- RT185v2.py:1199-1278 `getRaysCSV`. -/
noncomputable def getRays (num : PyStr → Option ℝ) (file : Option (List (List PyStr)))
    (maxrays : ℕ) : Except PyErr (List Start) := do
  let data ← openCSV file
  match data with
  | [] => .error .indexError
  | title :: rest =>
    if data.length < 3 ∨ title.length < 2 then .error .nameError
    else
      let n := guided (min (data.length - 2) maxrays) (suckInt (title.getD 0 []))
      if n < 1 then .error (.sysExit 0)
      else
        let headers := rest.getD 0 []
        let rows := (rest.drop 1).take n
        let start : List RRow := List.replicate n ⟨fun _ => 0, " ".toList⟩
        let out := ((List.range title.length).map fun i =>
          (headers.getD i [], column rows i)).foldl (setRayField num) start
        out.mapM RRow.start

/-! ## Media -/

/-- `MglassNames`, `MwaveNames` and `Marray`. -/
structure Media where
  glasses : List PyStr
  waves : List PyStr
  index : List (List ℝ)

/-- The name that stands at index 0 of the lists of names (RT185v2.py:1313, 1322). -/
def dummy : PyStr := "base=1".toList

/-- RT185v2.py:1281-1358 `getMediaCSV`; `glasses` are those of the optics table, `waves` the
wavelengths of the rays. -/
noncomputable def getMedia (num : PyStr → Option ℝ) (file : Option (List (List PyStr)))
    (glasses waves : List PyStr) : Except PyErr Media := do
  let data ← openCSV file
  match data with
  | [] => .error .indexError
  | title :: rest =>
    if data.length < 3 ∨ title.length < 2 then .error (.sysExit 0)
    else
      let n := min (data.length - 2) (suckInt (title.getD 0 []))
      if n < 1 then .error (.sysExit 0)
      else
        let rows := (rest.drop 1).take n
        let m : Media := ⟨column rows 0, (rest.getD 0 []).drop 1,
          rows.map fun r => (r.drop 1).map (cellNumber num)⟩
        if glasses.any fun g => decide (g.length > 0) && !(dummy :: m.glasses).contains g then
          .error (.sysExit 0)
        else if waves.any fun w => !(dummy :: m.waves).contains w then .error (.sysExit 0)
        else .ok m

/-- RT185v2.py:432-457 `findRefraction` (with 408-430) for a ray of wavelength `wave`. -/
def findRefraction (num : PyStr → Option ℝ) (m : Media) (wave glass : PyStr) : Except PyErr ℝ :=
  if glass.length < 1 then .ok 1
  else
    match num glass with
    | some x => .ok x
    | none =>
      if m.glasses.length < 1 then .error (.sysExit 0)
      else
        match m.glasses.findIdx? (· == glass) with
        | none => .error (.sysExit 0)
        | some row =>
          match m.waves.findIdx? (· == wave) with
          | none => .error (.sysExit 0)
          | some col => .ok ((m.index.getD row []).getD col 0)

end Verif.RayTrace
