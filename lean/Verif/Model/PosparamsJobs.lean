import Verif.Py.Dict
import Verif.Py.Real
import Verif.Model.ProcessFvc
import Verif.Model.Dbutil

/-!
# bin/fit_posparams, bin/get_posparams and the list of petals of py/desimeter/dbutil.py

Which files are fitted and what is printed (fit_posparams lines 73-127; the fit itself, `run_best_fits`, is a parameter), and the
latest calibration of every positioner (get_posparams lines 32-100). `isAlpha` and `isNum` are `str.isalpha` and `str.isnumeric` of one
character; `parseInt` is `int(s)`, `none` for a ValueError. A table of the database is a list of rows; the answer of `select
distinct` in any order and that of `order by time_recorded desc limit 1` are parameters. With several processes the lines
are printed in any order; here they are in the order of the files. The first line printed, the number of files, is left out.
-/

namespace Verif.Model.PosparamsJobs
open Verif.Py Verif.Model.ProcessFvc

/-- `os.path.splitext` of a name without directory. -/
def splitext (b : PyStr) : PyStr × PyStr :=
  match b.reverse.dropWhile (· ≠ '.') with
  | [] => (b, [])
  | _ :: stem => if stem.all (· = '.') then (b, []) else (stem.reverse, '.' :: (b.reverse.takeWhile (· ≠ '.')).reverse)

/-- Lines 86-92 of fit_posparams: the positioner of a file. -/
def posidOf (isAlpha isNum : Char → Bool) (path : PyStr) : Option PyStr :=
  let se := splitext (basename path)
  let posid := se.1.take 6
  if se.2 = ".csv".toList ∧ posid.length = 6 ∧ (match posid with
      | c :: t => isAlpha c && t.all isNum
      | [] => false) = true then some posid else none

/-- Lines 86-92: one file. -/
def addFile (isAlpha isNum : Char → Bool) (d : Dict PyStr PyStr) (f : PyStr) : Dict PyStr PyStr :=
  match posidOf isAlpha isNum f with
  | some p => d.set p f
  | none => d

/-- Lines 83-92. -/
def csvFiles (isAlpha isNum : Char → Bool) (files : List PyStr) : Dict PyStr PyStr :=
  files.foldl (addFile isAlpha isNum) []

/-- Line 117-118 for one file after the other: lines printed and the exception that ends the run. -/
def inTurn (fit : PyStr → PyStr → Except PyErr PyStr) : List (PyStr × PyStr) → List PyStr × Option PyErr
  | [] => ([], none)
  | j :: l =>
    match fit j.1 j.2 with
    | .error e => ([], some e)
    | .ok s => (s :: (inTurn fit l).1, (inTurn fit l).2)

/-- Lines 120-124: an exception in a process of the pool is stored in a result nobody asks for. -/
def inPool (fit : PyStr → PyStr → Except PyErr PyStr) (jobs : List (PyStr × PyStr)) : List PyStr :=
  jobs.filterMap fun j => match fit j.1 j.2 with
    | .ok s => some s
    | .error _ => none

/-- Lines 84-127. -/
def fitPosparams (isAlpha isNum : Char → Bool) (fit : PyStr → PyStr → Except PyErr PyStr) (nproc : Option ℤ) (files : List PyStr) :
    List PyStr × Option PyErr :=
  let jobs := csvFiles isAlpha isNum files
  if jobs = [] then (["No recognizable csv files found for analysis.".toList], some (.sysExit 0))
  else
    match nproc with
    | some n =>
      if n < 1 then ([], some .valueError)
      else if n = 1 then
        let r := inTurn fit jobs
        if r.2 = none then (r.1 ++ ["Complete.".toList], none) else r
      else (inPool fit jobs ++ ["Complete.".toList], none)
    | none => (inPool fit jobs ++ ["Complete.".toList], none)

/-! ## get_posparams -/

/-- Petals found in the names of the tables (get_posparams lines 45-60 with prefix `positioner_calibration_p`, dbutil.get_petal_ids lines
20-40 with `positioner_moves_p`). -/
def petalIds (pre : PyStr) (parseInt : PyStr → Option ℤ) (tables : List PyStr) : List ℤ :=
  tables.filterMap fun t =>
    if pyIn pre t then
      match parseInt (replace pre [] t) with
      | some i => if i < 20 then some i else none
      | none => none
    else none

/-- `petal_id2loc` (lines 32-43). -/
def petalId2loc : Dict ℤ ℤ :=
  [(2, 7), (3, 3), (4, 0), (5, 1), (6, 2), (7, 8), (8, 4), (9, 9), (10, 5), (11, 6), (1, 0)]

/-- A row of a table of calibrations. -/
structure Calib (π : Type) where
  posid : PyStr
  dev : ℤ
  time : ℤ
  rest : π

/-- The answers of the database. -/
structure Db (π : Type) where
  table : ℤ → List (Calib π)
  /-- `select distinct pos_id,device_loc` -/
  distinct : List (PyStr × ℤ) → List (PyStr × ℤ)
  /-- `order by time_recorded desc limit 1` -/
  latest : List (Calib π) → Option (Calib π)

/-- Lines 75-92 for one positioner: `data[0]` of an empty answer is an IndexError. -/
def one {π : Type} (db : Db π) (rows : List (Calib π)) (loc : ℤ) (p : PyStr × ℤ) : Except PyErr (Calib π × ℤ) :=
  match db.latest (rows.filter fun c => c.posid = p.1) with
  | some c => .ok (c, loc)
  | none => .error .indexError

/-- Lines 68-92 for one petal. -/
def petal {π : Type} (db : Db π) (i : ℤ) : Except PyErr (List (Calib π × ℤ)) :=
  let rows := db.table i
  match petalId2loc.get? i with
  | none => .error .keyError
  | some loc => (db.distinct (rows.map fun c => (c.posid, c.dev))).mapM (one db rows loc)

/-- Lines 68-100: the table written, if any, and how the script ends. -/
def getPosparams {π : Type} (db : Db π) (petals : List ℤ) : Option (List (Calib π × ℤ)) × PyErr :=
  match petals.mapM (petal db) with
  | .error e => (none, e)
  | .ok l => (some l.flatten, .sysExit 12)

end Verif.Model.PosparamsJobs
