import Verif.Model.ZhaoBurge
import Verif.Model.Json
import Verif.Py.Str

/-!
# Model of `py/desimeter/transform/dm2pm.py`

Desimeter to PlateMaker coordinates. Points are treated one at a time (the numpy code works on
arrays element by element); a point list for `fit` is a list of quadruples (all arrays have the same
length). Files hold JSON documents.
-/

namespace Verif.Model.Dm2pm
open Verif.Py Verif.Model.ZhaoBurge Verif.Model.Json

/-- Attributes of a `DM2PM` object. -/
structure State where
  polids : List ℕ
  fwd : List ℝ
  bwd : List ℝ

/-- `zbpolids` (dm2pm.py line 19). -/
def defaultIds : List ℕ := [0, 1, 2, 3, 4, 5, 6, 9, 20, 27, 28, 29, 30]

/-- `__init__` (lines 15-21). -/
noncomputable def fresh : State := ⟨defaultIds, List.replicate defaultIds.length 0, List.replicate defaultIds.length 0⟩

/-- `_reduce_xy` (lines 47-52); the docstring's flip of the x axis is not done. -/
noncomputable def reduceXY (p : ℝ × ℝ) : ℝ × ℝ := (p.1 / 420, p.2 / 420)

/-- `_expand_xy` (lines 54-59). -/
def expandXY (p : ℝ × ℝ) : ℝ × ℝ := (p.1 * 420, p.2 * 420)

/-- `tojson` (lines 61-68). -/
def toJson (s : State) : Doc :=
  [("method", .str "Zhao-Burge"), ("version", .str "1"), ("zbpolids", nums (s.polids.map (↑))),
   ("dm2pm_zbcoeffs", nums s.fwd), ("pm2dm_zbcoeffs", nums s.bwd)]

/-- An id as read: ids are compared with integers by `==`, so a number that is no natural number
equals none of the known ids; 33 stands for it. -/
noncomputable def idOf (x : ℝ) : ℕ := if (⌊x⌋₊ : ℝ) = x then ⌊x⌋₊ else 33

/-- `params['version'] == '1'` (line 78). -/
def isVersion1 : JVal → Bool
  | .str s => s = "1"
  | _ => false

/-- `fromjson` (lines 73-84). -/
noncomputable def fromJson (d : Doc) : Except PyErr State := do
  assertStr d "method" "Zhao-Burge"
  let v ← getKey d "version"
  if isVersion1 v then
    let ids ← getNums d "zbpolids"
    let fwd ← getNums d "dm2pm_zbcoeffs"
    let bwd ← getNums d "pm2dm_zbcoeffs"
    return ⟨ids.map idOf, fwd, bwd⟩
  else .error .runtimeError

/-- The part of a file name looked for (lines 31, 42). -/
def dotJson : PyStr := ['.', 'j', 's', 'o', 'n']

/-- Files by name. -/
abbrev Files := PyStr → Option Doc

/-- `read` (lines 23-34). -/
noncomputable def readFile (fs : Files) (name : PyStr) : Except PyErr State :=
  if dotJson <:+: name then
    match fs name with
    | none => .error .fileNotFound
    | some d => fromJson d
  else .error .runtimeError

/-- `write` (lines 36-45). -/
def writeFile (s : State) (fs : Files) (name : PyStr) : Except PyErr Files :=
  if dotJson <:+: name then .ok (Function.update fs name (some (toJson s))) else .error .runtimeError

/-- One matched pair: desimeter and PlateMaker coordinates in mm. -/
structure Pair where
  dm : ℝ × ℝ
  pm : ℝ × ℝ

/-- Arguments of the first call of `fitZhaoBurge` (line 91). -/
noncomputable def fwdPt (q : Pair) : FitPt :=
  ⟨(reduceXY q.dm).1, (reduceXY q.dm).2, (reduceXY q.pm).1, (reduceXY q.pm).2⟩

/-- Arguments of the second call (line 92). -/
noncomputable def bwdPt (q : Pair) : FitPt :=
  ⟨(reduceXY q.pm).1, (reduceXY q.pm).2, (reduceXY q.dm).1, (reduceXY q.dm).2⟩

/-- `fit` (lines 86-92): outcome and state of the object afterwards (also after an exception). -/
noncomputable def fit (s : State) (l : List Pair) : Except PyErr Unit × State :=
  match fitZhaoBurge s.polids (l.map fwdPt) with
  | .error e => (.error e, s)
  | .ok c =>
    let s1 : State := { s with fwd := List.ofFn c }
    match fitZhaoBurge s1.polids (l.map bwdPt) with
    | .error e => (.error e, s1)
    | .ok c' => (.ok (), { s1 with bwd := List.ofFn c' })

/-- `dm2pm` (lines 94-101). -/
noncomputable def dm2pm (s : State) (p : ℝ × ℝ) : Except PyErr (ℝ × ℝ) := do
  let r := reduceXY p
  let d ← getZhaoBurgeXY s.polids s.fwd r.1 r.2
  return expandXY (r.1 + d.1, r.2 + d.2)

/-- `pm2dm` (lines 103-110). -/
noncomputable def pm2dm (s : State) (p : ℝ × ℝ) : Except PyErr (ℝ × ℝ) := do
  let r := reduceXY p
  let d ← getZhaoBurgeXY s.polids s.bwd r.1 r.2
  return expandXY (r.1 + d.1, r.2 + d.2)

end Verif.Model.Dm2pm
