import Verif.Model.FitCases
import Verif.Model.Selection

/-!
# py/desimeter/posparams/fithandler.py: `run_best_fits`

`_read` (166-219), `_process_cases` (343-476) and `run_best_fits` (50-164), with every file
written and every way to end.

Modelled as parameters: the three table sorts, the conversion to petal coordinates (which can only
fail), the fit itself (`fitter.fit_params`, a function of mode, rows and nominal values that may
raise and may modify the nominal values) and the choice of the best static values.  The
covariance columns are in `CovTable`.  Printing, the analysis date, and the reading of the CSV file (the table given is what
`Table.read` returns) are not modelled.  Dates are numbers (DATE_SEC); a date text that cannot be
parsed is not modelled.
-/

namespace Verif.Model.FitHandler
open Verif.Py Verif.Model.FitCases

/-- lines 557-559, `_str2bool`. -/
def str2bool : Cell → Bool
  | .str s => s ∈ ["True".toList, "true".toList, "TRUE".toList, "Yes".toList, "yes".toList, "YES".toList]
  | .int i => i = 1
  | .bool b => b

/-- A table: the names of its columns and its rows (fields of absent columns are arbitrary). -/
structure Tbl where
  cols : List PyStr
  rows : List Row

/-- Use of a column. -/
def need (t : Tbl) (c : PyStr) : Except PyErr Unit := if c ∈ t.cols then .ok () else .error .keyError

/-- lines 178-180. -/
def requiredKeys : List PyStr :=
  ["DATE".toList, "POS_P".toList, "POS_T".toList, "X_FP".toList, "Y_FP".toList, "CTRL_ENABLED".toList,
   "TOTAL_MOVE_SEQUENCES".toList, "POS_ID".toList, "PETAL_LOC".toList]

/-- lines 184-189 for one axis: a missing gear calibration column is filled with ones, on the
length of the position column. -/
def addGear (gear pos : PyStr) (t : Tbl) : Except PyErr Tbl :=
  if gear ∈ t.cols then .ok t
  else do
    need t pos
    return { t with cols := t.cols ++ [gear] }

/-- line 192. -/
def selectRows (sel : Option PyStr) (t : Tbl) : Except PyErr Tbl := do
  if sel.isSome then need t "LOG_NOTE".toList
  return { t with rows := Selection.posmoveSelection Row.note t.rows sel }

/-- lines 199-202. -/
def forceRehome (force : Bool) (t : Tbl) : Tbl :=
  if force then
    { cols := t.cols ++ ["RECENT_REHOME".toList], rows := t.rows.map fun r => { r with rehome := 1 } }
  else t

/-- `posid == _get_posid(table)` (lines 561-567): true only when all rows have this identifier. -/
def isPosid (posid : PyStr) (rows : List Row) : Bool := rows ≠ [] ∧ ∀ r ∈ rows, r.posId = posid

/-- lines 211-218, with the type cast of CTRL_ENABLED. -/
def checkTable (posid : PyStr) (t : Tbl) : Option (List Row) :=
  if t.rows ≠ [] ∧ (requiredKeys.all fun k => k ∈ t.cols) ∧ isPosid posid t.rows then
    some (t.rows.map fun r => { r with enabled := str2bool r.ctrl })
  else none

/-- lines 166-219, `_read`. -/
def readTable (sortDate : List Row → List Row) (posid : PyStr) (sel : Option PyStr) (force : Bool) (t : Tbl) :
    Except PyErr (Option (List Row)) := do
  let t ← addGear "GEAR_CALIB_T".toList "POS_T".toList t
  let t ← addGear "GEAR_CALIB_P".toList "POS_P".toList t
  let t ← selectRows sel t
  need t "EXPOSURE_ID".toList
  let t := forceRehome force t
  need t "RECENT_REHOME".toList
  if t.rows.all fun r => ¬ (r.rehome > 0) then .error .runtimeError
  else do
    need t "DATE".toList
    return checkTable posid { t with rows := sortDate t.rows }

/-! ## Fitting the windows -/

inductive Mode where
  | static | dynamic
  deriving DecidableEq

/-- What one fit returns: flags, error, and the names of the EPSILON parameters. -/
structure FitOut where
  flags : ℕ
  error : ℝ
  eps : List PyStr

/-- `fitter.fit_params` on the rows of a window, with the nominal values, which it may modify. -/
abbrev Fit (N : Type) := Mode → List Row → N → Except PyErr (FitOut × N)

/-- One line of the output of `_process_cases`. -/
structure OutRow where
  start : ℝ
  final : ℝ
  numPoints : ℤ
  fit : FitOut

structure OutTbl where
  rows : List OutRow
  /-- names of the EPSILON columns, suffix included -/
  eps : List PyStr
  /-- the EPSILON keys registered in the dictionary `output_keys` of the module, in order -/
  known : List PyStr

/-- lines 360-419 for one window.  State: nominal values, lines so far, and number of values in each
EPSILON column. -/
def oneCase {N : Type} (fit : Fit N) (mode : Mode) (table : List Row)
    (s : N × List OutRow × List (PyStr × ℕ)) (c : Case) : Except PyErr (N × List OutRow × List (PyStr × ℕ)) :=
  let sub := (table.drop c.start).take (c.final + 1 - c.start).toNat
  match sub.head?, sub.getLast? with
  | some a, some b =>
    match fit mode sub s.1 with
    | .error e => .error e
    | .ok (o, nom) =>
      let new := (o.eps.filter fun k => k ∉ s.2.2.map Prod.fst).map fun k => (k, 0)
      .ok (nom, s.2.1 ++ [⟨a.dateSec, b.dateSec, c.final - c.start + 1, o⟩],
        (s.2.2 ++ new).map fun p => (p.1, p.2 + 1))
  | _, _ => .error .indexError

/-- lines 359-430 for all the windows. -/
def allCases {N : Type} (fit : Fit N) (mode : Mode) (table : List Row) :
    List Case → N × List OutRow × List (PyStr × ℕ) → Except PyErr (N × List OutRow × List (PyStr × ℕ))
  | [], s => .ok s
  | c :: cs, s =>
    match oneCase fit mode table s c with
    | .error e => .error e
    | .ok s' => allCases fit mode table cs s'

/-- lines 545-548. -/
def suffix : Mode → PyStr
  | .static => "_STATIC".toList
  | .dynamic => "_DYNAMIC".toList

/-- lines 468-474: for each key, rename every column whose name contains it. -/
def renameStep (sfx : PyStr) (names : List PyStr) (key : PyStr) : List PyStr :=
  names.map fun n => if pyIn key n then (key ++ sfx).intercalate (split key n) else n

def rename (sfx : PyStr) (keys names : List PyStr) : List PyStr := keys.foldl (renameStep sfx) names

/-- lines 343-476, `_process_cases`.  `known` are the EPSILON keys already in the dictionary
`output_keys`, which is a module variable (lines 403-404).  A column of the wrong length ends the
program (lines 432-442). -/
def processCases {N : Type} (fit : Fit N) (mode : Mode) (known : List PyStr) (nom : N) (table : List Row)
    (cases : List Case) : Except PyErr OutTbl :=
  match allCases fit mode table cases (nom, [], []) with
  | .error e => .error e
  | .ok (_, rows, cols) =>
    let known' := known ++ (cols.map Prod.fst).filter fun k => k ∉ known
    if cols.all fun p => p.2 = rows.length then
      .ok ⟨rows, rename (suffix mode) known' (cols.map Prod.fst), known'⟩
    else .error (.sysExit 12)

/-! ## The handler -/

/-- Content of a result file. -/
inductive Content where
  /-- lines 40-48: only the flags -/
  | failed (flag : ℕ)
  /-- line 161: the merged table, one pair of fits per line -/
  | merged (rows : List (OutRow × OutRow))

structure File where
  path : PyStr
  content : Content

/-- Runs with the list of files written so far. -/
abbrev Run (α : Type) := List File → Except PyErr α × List File

def Run.pure {α : Type} (a : α) : Run α := fun w => (.ok a, w)

def Run.bind {α β : Type} (x : Run α) (f : α → Run β) : Run β := fun w =>
  match x w with
  | (.ok a, w') => f a w'
  | (.error e, w') => (.error e, w')

instance : Monad Run where
  pure := Run.pure
  bind := Run.bind

/-- A step without output. -/
def lift {α : Type} (x : Except PyErr α) : Run α := fun w => (x, w)

/-- `table.write(path, overwrite=True)`. -/
def write (path : PyStr) (c : Content) : Run Unit := fun w => (.ok (), w ++ [⟨path, c⟩])

/-- lines 41-42 and 159-160. -/
def resultPath (savedir posid : PyStr) : PyStr := savedir ++ "/".toList ++ posid ++ "_paramfits.csv".toList

/-- movemask.py:6-10. -/
def FAILED_FIT : ℕ := 4
def INVALID_TABLE : ℕ := 8
def INVALID_AFTER_FILTER : ℕ := 16

/-- How a run that returns ends. -/
inductive Outcome where
  | invalidTable | tooFewRows | tooFewRehomed | initFailed | fitFailed | done (windows : ℕ)
  deriving DecidableEq

/-- `static_out["FLAGS"]`, lines 101 and 129: an empty table has no column. -/
def flagsOf (o : OutTbl) : Except PyErr (List ℕ) :=
  if o.rows = [] then .error .keyError else .ok (o.rows.map fun r => r.fit.flags)

/-- `np.any((flags & FAILED_FIT) > 0)`. -/
def anyFailed (flags : List ℕ) : Bool := flags.any fun f => f &&& FAILED_FIT > 0

/-- lines 103-104 and 131-132. -/
def orAll (flags : List ℕ) : ℕ := flags.foldl (fun a f => a ||| f) 0

/-- lines 138-141 and 145: the EPSILON columns must be found again under their names. -/
def findEps (o : OutTbl) : Except PyErr Unit :=
  if o.eps.all fun k => (("".toList).intercalate (split "_STATIC".toList k)) ++ "_STATIC".toList ∈ o.eps then .ok ()
  else .error .keyError

/-- line 152, `join` on the identical columns. -/
noncomputable def joinRows (s d : List OutRow) : List (OutRow × OutRow) :=
  open Classical in
  s.flatMap fun a => (d.filter fun b => a.start = b.start ∧ a.final = b.final ∧ a.numPoints = b.numPoints ∧
    a.fit.flags = b.fit.flags).map fun b => (a, b)

/-- lines 153-156. -/
def passthru (rows : List Row) : Except PyErr Unit :=
  match rows with
  | [] => .error .assertionError
  | r :: l => if l.all fun x => x.petalId = r.petalId ∧ x.petalLoc = r.petalLoc ∧ x.deviceLoc = r.deviceLoc
      then .ok () else .error .assertionError

/-- `np.arange(a, b, step)`. -/
noncomputable def arange (a b step : ℝ) : Except PyErr (List ℝ) :=
  if step = 0 then .error .zeroDivision
  else .ok ((List.range ⌈(b - a) / step⌉.toNat).map fun (k : ℕ) => a + k * step)

/-- The parts of the program that are parameters of the model. -/
structure Env (N : Type) where
  sortDate : List Row → List Row
  sortSeq : List Row → List Row
  sortSec : List Row → List Row
  toPetal : List Row → Except PyErr Unit
  fit : Fit N
  defaults : N
  /-- EPSILON keys left in `output_keys` by earlier calls in the same process -/
  known : List PyStr
  best : OutTbl → N

/-- lines 78-80: the datum dates. -/
noncomputable def datumDates (periodDays : ℝ) (table : List Row) : Except PyErr (List ℝ) :=
  let secs := table.map fun r => r.dateSec
  match secs.min?, secs.max? with
  | some a, some b => arange a b (periodDays * 24 * 60 * 60)
  | _, _ => .error .valueError

structure Args where
  posid : PyStr
  periodDays : ℝ
  dataWindow : ℤ
  savedir : PyStr
  minWindow : ℤ
  sel : Option PyStr
  force : Bool

/-- lines 123-163: the static pass with these nominal values, the dynamic pass, the merged file. -/
noncomputable def passes {N : Type} (env : Env N) (a : Args) (table : List Row) (cases : List Case)
    (known : List PyStr) (nom : N) : Run Outcome := do
  let st ← lift (processCases env.fit .static known nom table cases)
  let flags ← lift (flagsOf st)
  if anyFailed flags then do
    write (resultPath a.savedir a.posid) (.failed (orAll flags))
    return .fitFailed
  else do
    lift (findEps st)
    let dy ← lift (processCases env.fit .dynamic st.known (env.best st) table cases)
    lift (passthru table)
    write (resultPath a.savedir a.posid) (.merged (joinRows st.rows dy.rows))
    return .done cases.length

/-- lines 84-163: after the filters and the definition of the windows. -/
noncomputable def fits {N : Type} (env : Env N) (a : Args) (table : List Row) (datum : List ℝ) (cases : List Case) :
    Run Outcome :=
  if ¬ (table.all fun r => r.rehome ≠ 0) then
    let tmp := table.filter fun r => r.rehome > 0
    if tmp.length < 10 then do
      write (resultPath a.savedir a.posid) (.failed INVALID_AFTER_FILTER)
      return .tooFewRehomed
    else do
      let tmp := env.sortSec tmp
      let tcases ← lift (defineCases (tmp.map fun r => r.dateSec) datum a.dataWindow)
      let st ← lift (processCases env.fit .static env.known env.defaults tmp tcases)
      let flags ← lift (flagsOf st)
      if anyFailed flags then do
        write (resultPath a.savedir a.posid) (.failed (orAll flags))
        return .initFailed
      else passes env a table cases st.known (env.best st)
  else passes env a table cases env.known env.defaults

/-- lines 50-164, `run_best_fits` on the table read. -/
noncomputable def runBestFits {N : Type} (env : Env N) (a : Args) (t : Tbl) : Run Outcome := do
  let r ← lift (readTable env.sortDate a.posid a.sel a.force t)
  match r with
  | none => do
    write (resultPath a.savedir a.posid) (.failed INVALID_TABLE)
    return .invalidTable
  | some rows => do
    lift (env.toPetal rows)
    let table ← lift (applyFilters env.sortSeq rows)
    if table = [] ∨ (table.length : ℤ) < a.minWindow then do
      write (resultPath a.savedir a.posid) (.failed INVALID_AFTER_FILTER)
      return .tooFewRows
    else do
      let datum ← lift (datumDates a.periodDays table)
      let table := env.sortSec table
      let cases ← lift (defineCases (table.map fun r => r.dateSec) datum a.dataWindow)
      fits env a table datum cases

end Verif.Model.FitHandler
