import Verif.Model.BinErrors
import Verif.Model.PlotPosmoves
import Mathlib.Data.List.Lex
import Mathlib.Data.Char
import Mathlib.Data.Finset.Sort

/-!
# Model of `bin/plot_posparams` (lines 58-136)

Which tables of `fit_posparams` are used, the counts of positioners within error thresholds (`Model/BinErrors.lean`) and the plots of single positioners. `files` is the list made in lines
58-62; reading a file, the two texts made of a date (lines 88-89) and `table.sort` (line 87; any order of rows with the same positioner and date) are parameters. The columns POS_ID, DATA_END_DATE_SEC,
ANALYSIS_DATE_STATIC, FIT_ERROR_STATIC, FIT_ERROR_DYNAMIC and NUM_POINTS of a used table have no missing numbers; any other column is `other`, with `none` for a missing
number. Left out: the directory made, the messages, the length in days of the windows in the title, the figures, and `realpath` of the names of images.
-/

namespace Verif.Model.PlotPosparams
open Verif.Py Verif.Model.BinErrors
open Verif.Model.ProcessFvc (basename)
open Verif.Model.PosparamsJobs (splitext)
open Verif.Model.PlotPosmoves (join)

/-- A row of a table of fits. -/
structure Row where
  posid : PyStr
  date : ℝ
  analysis : PyStr
  errStatic : ℝ
  errDynamic : ℝ
  points : ℝ
  other : PyStr → Option ℝ

/-- A table: names of its columns, and rows. -/
structure Table where
  names : List PyStr
  rows : List Row

/-- The options. -/
structure Args where
  outdir : PyStr
  nproc : Option ℤ
  test : Bool
  skipBest : Bool
  skipPass : Bool
  bins : Bins
  dynamic : Bool

/-- Lines 71-73, with `param_subplot_defs` of plotter.py lines 289-331. -/
def required : List PyStr :=
  ["POS_ID".toList, "DATA_END_DATE_SEC".toList, "ANALYSIS_DATE_STATIC".toList,
   "FIT_ERROR_STATIC".toList, "FIT_ERROR_DYNAMIC".toList, "NUM_POINTS".toList, "LENGTH_R1_STATIC".toList, "LENGTH_R2_STATIC".toList,
   "OFFSET_X_STATIC".toList, "OFFSET_Y_STATIC".toList, "OFFSET_T_STATIC".toList, "OFFSET_P_STATIC".toList,
   "SCALE_T_DYNAMIC".toList, "SCALE_P_DYNAMIC".toList]

/-- `fitter.static_keys` (fitter.py line 59). -/
def staticKeys : List PyStr :=
  ["LENGTH_R1".toList, "LENGTH_R2".toList, "OFFSET_T".toList, "OFFSET_P".toList, "OFFSET_X".toList, "OFFSET_Y".toList]

/-- Line 76. -/
def isCsv (path : PyStr) : Bool := pyIn "csv".toList (splitext (basename path)).2

/-- Lines 78-79: nothing is missing. -/
def complete (t : Table) : Bool := required.all fun k => decide (k ∈ t.names)

/-- Lines 75-83. -/
def load (read : PyStr → Except PyErr Table) : List PyStr → Except PyErr (List Table)
  | [] => .ok []
  | f :: fs =>
    if isCsv f then do
      let t ← read f
      let ts ← load read fs
      return if complete t then t :: ts else ts
    else load read fs

/-- Line 86, `vstack`: all columns and all rows. -/
def stack (ts : List Table) : Except PyErr Table :=
  if ts = [] then .error .valueError else .ok ⟨(ts.map Table.names).flatten, (ts.map Table.rows).flatten⟩

/-- The row as `bin_errors` sees it (plotter.py line 174). -/
def errRow (dynamic : Bool) (r : Row) : BinErrors.Row PyStr := ⟨r.posid, r.date, if dynamic then r.errDynamic else r.errStatic⟩

/-- Result of lines 91-115: the start of the names of the files, the bins and greatest, least and mean number of points (line 100). -/
structure PassFail where
  pre : PyStr
  binned : Binned PyStr
  points : ℝ × ℝ × ℝ

/-- Lines 91-115, for a table that begins with row `r`. -/
noncomputable def passFail (int? : PyStr → Option ℤ) (a : Args) (stamp : PyStr) (names : List PyStr) (r : Row) (rs : List Row) : Except PyErr PassFail := do
  let b ← binErrors int? ((r :: rs).map (errRow a.dynamic)) a.bins
  let n := rs.map Row.points
  if "DATA_START_DATE_SEC".toList ∈ names then
    return ⟨join a.outdir (stamp ++ "_passfail_".toList ++ if a.dynamic then "dynamic".toList else "static".toList), b,
      greatest r.points n, least r.points n, (r.points + n.sum) / (n.length + 1)⟩
  else .error .keyError

/-- A plot to make (lines 124-130). -/
structure Job where
  posid : PyStr
  rows : List Row
  path : PyStr
  statics : List (PyStr × Option ℝ)

/-- Line 126. -/
def statics (names : List PyStr) (r : Row) : Except PyErr (List (PyStr × Option ℝ)) :=
  staticKeys.mapM fun k =>
    if k ++ "_DYNAMIC".toList ∈ names then .ok (k, r.other (k ++ "_DYNAMIC".toList)) else .error .keyError

/-- Lines 124-130 for one positioner. -/
def job (outdir : PyStr) (t : Table) (p : PyStr) : Except PyErr Job :=
  match t.rows.filter fun r => r.posid = p with
  | [] => .error .indexError
  | r :: rs => do
    let s ← statics t.names r
    return ⟨p, r :: rs, join outdir (p ++ "_paramfits".toList ++ ".png".toList), s⟩

/-- Line 118. -/
def posids (rows : List Row) : List PyStr := (rows.map Row.posid).toFinset.sort (· ≤ ·)

/-- Lines 117-136. -/
def jobs (a : Args) (t : Table) : Except PyErr (List Job) :=
  let ps := posids t.rows
  let ps := if a.test then ps.take 1 else ps
  match a.nproc with
  | some n => if n < 1 then .error .valueError else ps.mapM (job a.outdir t)
  | none => ps.mapM (job a.outdir t)

/-- What the script makes. -/
structure Out where
  passFail : Option PassFail
  jobs : List Job

/-- Lines 88-136, for the sorted rows. -/
noncomputable def finish (int? : PyStr → Option ℤ) (stamp : PyStr → Except PyErr PyStr) (a : Args) (names : List PyStr) : List Row → Except PyErr Out
  | [] => .error .valueError
  | r :: rs => do
    let s ← stamp ((rs.map Row.analysis).foldl min r.analysis)
    let pf ← (if a.skipPass then .ok none else (passFail int? a s names r rs).map some)
    let js ← (if a.skipBest then .ok [] else jobs a ⟨names, r :: rs⟩)
    return ⟨pf, js⟩

/-- Lines 68-136. -/
noncomputable def script (int? : PyStr → Option ℤ) (read : PyStr → Except PyErr Table) (stamp : PyStr → Except PyErr PyStr) (sort : List Row → List Row) (a : Args) (files : List PyStr) :
    Except PyErr Out := do
  let ts ← load read files
  let t ← stack ts
  finish int? stamp a t.names (sort t.rows)

end Verif.Model.PlotPosparams
