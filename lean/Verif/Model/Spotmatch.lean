import Verif.Py.Str
import Verif.Py.Dict
import Verif.Py.LinAlg
import Verif.Model.FindFiducials

/-!
# Model of `py/desimeter/spotmatch.py`

The C program `match_positions` is a parameter.  Input files are modelled by the records written
into them (the rounding to three decimals in the text is left out); the file the program writes is
a list of lines of words.  All files have fixed names in the temporary directory, so the output file
of an earlier call is state.
-/

namespace Verif.Model.Spotmatch
open Verif.Py
open Verif.Model.FindFiducials (Tx)

/-- A row of the metrology table. -/
structure Met where
  devType : PyStr
  loc : ℤ
  pinhole : ℤ
  fp : ℝ × ℝ
  devId : PyStr
  bus : PyStr
  devLoc : ℤ
  petalLoc : ℤ
  petalId : ℤ

/-- Which of the optional columns the metrology table has. -/
structure Cols where
  devId : Bool
  bus : Bool
  devLoc : Bool
  petalLoc : Bool
  petalId : Bool

/-- `(metrology["DEVICE_TYPE"]=="FIF")|(metrology["DEVICE_TYPE"]=="GIF")`. -/
def isFid (m : Met) : Bool := m.devType = "FIF".toList || m.devType = "GIF".toList

/-- `np.unique`. -/
def unique (l : List ℤ) : List ℤ := pySort id l.dedup

/-- Fiducial locations (lines 53-54, 109-110, 152-153). -/
def fidLocations (met : List Met) : List ℤ := unique ((met.filter isFid).map (·.loc))

/-- `np.mean` over the rows of a location (lines 112-114). -/
noncomputable def centre (met : List Met) (loc : ℤ) : ℝ × ℝ :=
  let r := met.filter fun m => m.loc = loc
  ((r.map (·.fp.1)).sum / r.length, (r.map (·.fp.2)).sum / r.length)

/-- `_compute_pixel_scale` (lines 18-38). -/
noncomputable def pixelScale (tx : Tx) : ℝ :=
  let eps := 0.1
  let f0 := tx.toFp (3000, 3000)
  let f1 := tx.toFp (3000 + eps, 3000)
  let f2 := tx.toFp (3000, 3000 + eps)
  let j00 := (f1.1 - f0.1) / eps
  let j01 := (f2.1 - f0.1) / eps
  let j10 := (f1.2 - f0.2) / eps
  let j11 := (f2.2 - f0.2) / eps
  Real.sqrt |j00 * j11 - j01 * j10|

/-- A line of the fiducial configuration file: location, offsets, pinhole, flag. -/
structure FidLine where
  loc : ℤ
  d : ℝ × ℝ
  pin : ℤ
  flag : ℕ

/-- `_write_spotmatch_fiducial_config_file` (lines 41-72). -/
noncomputable def fiducialConfig (met : List Met) : List FidLine :=
  (fidLocations met).flatMap fun loc =>
    let c := centre met loc
    ⟨loc, (0, 0), 0, 8⟩ ::
      ((met.filter fun m => m.loc = loc).filter fun m => m.pinhole ≤ 4).map fun m =>
        ⟨loc, (m.fp.1 - c.1, m.fp.2 - c.2), m.pinhole, 2⟩

/-- A line of the targets or device centres file. -/
structure PosLine where
  loc : ℤ
  pix : ℝ × ℝ
  flag : ℕ

/-- An expected spot. -/
structure Target where
  loc : ℤ
  fp : ℝ × ℝ

/-- `_write_spotmatch_targets_file` (lines 98-125). -/
noncomputable def targetsFile (met : List Met) (tx : Tx) (ts : List Target) : List PosLine :=
  (ts.map fun t => ⟨t.loc, tx.toPix t.fp, 4⟩) ++
    (fidLocations met).map fun loc => ⟨loc, tx.toPix (centre met loc), 8⟩

/-- The positioners of the metrology (lines 145-148, 293-297). -/
def positioners (met : List Met) : List Target :=
  (met.filter fun m => m.devType = "POS".toList).map fun m => ⟨m.loc, m.fp⟩

/-- `_write_spotmatch_device_centers_file` (lines 140-167); `default` is the transform read from the
data directory, used when `fvc2fp` is `None`. -/
noncomputable def deviceCentersFile (met : List Met) (default : Tx) (fvc2fp : Option Tx) : List PosLine :=
  targetsFile met (fvc2fp.getD default) (positioners met)

/-- `num={1:515,2:1027,3:259,4:771}` (line 229). -/
def refNumber : Dict ℤ ℕ := [(1, 515), (2, 1027), (3, 259), (4, 771)]

/-- `_write_spotmatch_reference_pos_file` (lines 220-234). -/
noncomputable def referenceFile (met : List Met) (default : Tx) (fvc2fp : Option Tx) : List PosLine :=
  (met.filter isFid).filterMap fun m =>
    (refNumber.get? m.pinhole).map fun k => ⟨m.loc, (fvc2fp.getD default).toPix m.fp, k⟩

/-- What the program is given (lines 321-343). -/
structure Input where
  verbose : ℤ
  scale : ℝ
  radius : ℝ
  fiducials : List FidLine
  targets : List PosLine
  measured : List (ℝ × ℝ × ℕ)
  references : List PosLine
  centers : List PosLine
  reach : Option ℝ

/-- What a run does: exit status, text output and, if it writes it, the file of centres. -/
structure Outcome where
  status : ℤ
  output : PyStr
  file : Option (List (List PyStr))

/-- The surroundings: is the program in the path, the program, the metrology, the default transform,
the conversions `int` and `float` of words (`none`: ValueError). -/
structure Env where
  inPath : Bool
  prog : Input → Outcome
  met : List Met
  cols : Cols
  default : Tx
  toInt : PyStr → Option ℤ
  toFloat : PyStr → Option ℝ

/-- A row of the result. -/
structure Row where
  loc : ℤ
  pix : ℝ × ℝ
  flag : ℝ
  err : ℝ
  smType : PyStr
  devType : PyStr
  devId : PyStr
  bus : PyStr
  devLoc : Option ℤ
  petalLoc : Option ℤ
  petalId : Option ℤ
  pinhole : ℤ

/-- `_write_spotmatch_measured_pos_file` (lines 191-196). -/
def measuredFile (x y : List ℝ) : Except PyErr (List (ℝ × ℝ × ℕ)) :=
  if x.length = y.length then
    .ok ((List.range x.length).map fun i => (x.getD i 0, y.getD i 0, i + 1))
  else .error .assertionError

/-- The message of an old version of the program (line 350). -/
def oldVersion : PyStr := "unexpected command-line argument [ -positioner_reach ]".toList

/-- Lines 346-358: run, again without the option for an old version.  The second component is what
the runs did to the file of centres. -/
def runProg (prog : Input → Outcome) (inp : Input) : Except PyErr Unit × Option (List (List PyStr)) :=
  let o := prog inp
  let o2 := if o.status ≠ 0 ∧ pyIn oldVersion o.output then
      let o' := prog { inp with reach := none }
      { o' with file := o'.file <|> o.file }
    else o
  if o2.status ≠ 0 then (.error .runtimeError, o2.file) else (.ok (), o2.file)

/-- One line of the file of centres (lines 370-378); `none`: not seven words. -/
def parseLine (env : Env) (w : List PyStr) : Except PyErr (Option Row) :=
  match w with
  | [a, b, c, d, e, f, t] =>
    match env.toInt a, env.toFloat b, env.toFloat c, env.toFloat d, env.toFloat e, env.toFloat f with
    | some loc, some x, some y, some _, some fl, some er =>
      .ok (some ⟨loc, (x, y), fl, er, t, "unknown".toList, "unknown".toList, "unknown".toList,
        if env.cols.devLoc then some (-1) else none, if env.cols.petalLoc then some (-1) else none,
        if env.cols.petalId then some (-1) else none, 0⟩)
    | _, _, _, _, _, _ => .error .valueError
  | _ => .ok none

/-- `locmap[loc]` (lines 397-399): the last row with that location. -/
def lookup (met : List Met) (loc : ℤ) : Except PyErr Met :=
  match (met.filter fun m => m.loc = loc).getLast? with
  | some m => .ok m
  | none => .error .keyError

/-- Assignment of a text into a column made by `np.repeat("unknown",nspots)`: seven characters. -/
def fit7 (s : PyStr) : PyStr := s.take 7

/-- Lines 398-406 for one row. -/
def addInfo (env : Env) (r : Row) : Except PyErr Row :=
  if 0 ≤ r.loc then
    match lookup env.met r.loc with
    | .error e => .error e
    | .ok m => .ok { r with
        devType := fit7 m.devType
        devLoc := if env.cols.devLoc then some m.devLoc else none
        devId := if env.cols.devId then fit7 m.devId else r.devId
        petalLoc := if env.cols.petalLoc then some m.petalLoc else none
        petalId := if env.cols.petalId then some m.petalId else none
        bus := if env.cols.bus then fit7 m.bus else r.bus }
  else .ok r

/-- The device types of the program that are treated specially (lines 410, 415). -/
def sFiducial : PyStr := "fiducial".toList
/-- See `sFiducial`. -/
def sPinhole : PyStr := "pinhole".toList

/-- Line 413. -/
def markFiducials (rows : List Row) : List Row :=
  rows.map fun r => if r.smType = sFiducial then { r with pinhole := 99 } else r

/-- Lines 415-416: number the pinholes of one location, in order from `k`. -/
def numberFrom (loc : ℤ) : ℤ → List Row → List Row
  | _, [] => []
  | k, r :: rs =>
    if r.loc = loc && r.smType = sPinhole then { r with pinhole := k } :: numberFrom loc (k + 1) rs
    else r :: numberFrom loc k rs

/-- Lines 408-416. -/
def pinholeIds (rows : List Row) : List Row :=
  let locs := unique ((rows.filter fun r => r.smType = sFiducial).map (·.loc))
  locs.foldl (fun rs loc => numberFrom loc 10 rs) (markFiducials rows)

/-- Lines 367-418: the table made from the file of centres. -/
def readCenters (env : Env) (lines : List (List PyStr)) : Except PyErr (List Row) := do
  let rows ← lines.mapM (parseLine env)
  let rows ← (rows.filterMap id).mapM (addInfo env)
  return pinholeIds rows

/-- What the program is given by `spotmatch` (lines 283-343). -/
noncomputable def inputOf (env : Env) (measured : List (ℝ × ℝ × ℕ)) (expected : Option (List Target)) (verbose : ℤ)
    (radius : ℝ) (fvc2fp : Option Tx) : Input :=
  let tx := fvc2fp.getD env.default
  { verbose := verbose, scale := pixelScale tx, radius := radius, fiducials := fiducialConfig env.met
    targets := targetsFile env.met tx (expected.getD (positioners env.met)), measured := measured
    references := referenceFile env.met env.default none
    centers := deviceCentersFile env.met env.default none
    reach := some (6.6 / pixelScale tx) }

/-- `spotmatch` (lines 238-418); `old` is the file of centres left by earlier calls.  Returns the
result and the file left behind.  The three expected arrays are given as one list. -/
noncomputable def spotmatch (env : Env) (x y : List ℝ) (expected : Option (List Target)) (verbose : ℤ) (radius : ℝ)
    (fvc2fp : Option Tx) (old : Option (List (List PyStr))) :
    Except PyErr (List Row) × Option (List (List PyStr)) :=
  if env.inPath = false then (.error .runtimeError, old)
  else match measuredFile x y with
    | .error e => (.error e, old)
    | .ok m =>
      let r := runProg env.prog (inputOf env m expected verbose radius fvc2fp)
      let file := r.2 <|> old
      match r.1 with
      | .error e => (.error e, file)
      | .ok _ =>
        match file with
        | none => (.error .fileNotFound, file)
        | some lines => (readCenters env lines, file)

end Verif.Model.Spotmatch
