import Verif.Model.Selection
import Verif.Model.Bitmask
import Verif.Py.Real

/-!
# Model of `bin/analyze_pos_performance`, reading of the data (lines 163-372 and 1268-1276)

A row has the columns the script looks at; a masked entry is `none`. `ρ` stands for the other columns. Scales are never masked. The sort
of lines 363-369 (`order`) is a parameter: numpy may put rows of equal keys in any order. The result is given for a positioner, since the
script goes through a set of them. Left out: messages, the removal of columns (`--sparse_output`), and columns read with another type.
-/

namespace Verif.Model.PerfRead
open Verif.Py
open Verif.Model.Selection (strip)

/-- A row of the table. -/
structure Row (ρ : Type) where
  date : PyStr
  posid : PyStr
  scaleT : ℝ
  scaleP : ℝ
  cmd : Option PyStr
  x : Option ℝ
  y : Option ℝ
  expid : Option ℤ
  iter : Option ℤ
  flags : ℤ
  note : Option PyStr
  rest : ρ

/-- `--scale_filter`. -/
inductive Scale where
  | incl
  | excl
  | tOrP
  | tAndP
  | tOnly
  | pOnly

/-- The options used. -/
structure Opts where
  dateMin : PyStr
  dateMax : PyStr
  scale : Scale
  special : Bool

/-- `py/desimeter/posflags_mask.py`, `POSITIONER_FLAGS_BITS`. -/
def flagDefs : List (PyStr × ℕ) :=
  [("MATCHED".toList, 0), ("PINHOLE".toList, 1), ("POSITIONER".toList, 2), ("FIDUCIAL".toList, 3), ("FVCERROR".toList, 4),
   ("BADPOSFID".toList, 5), ("MOVED".toList, 6), ("GIF".toList, 7), ("ETC".toList, 8), ("FITTEDPINHOLE".toList, 9),
   ("MATCHEDCENTER".toList, 10), ("AMBIGUOUS".toList, 11), ("FVCPROC".toList, 12), ("ASSIGNED".toList, 14), ("CONVERGED".toList, 15),
   ("NOTCTLENABLED".toList, 16), ("BROKENFIBER".toList, 17), ("COMERROR".toList, 18), ("OVERLAP".toList, 19), ("FROZEN".toList, 20),
   ("UNREACHABLE".toList, 21), ("BOUNDARYVIOLATION".toList, 22), ("MULTIPLEREQUESTS".toList, 23), ("NONFUNCTIONAL".toList, 24),
   ("REJECTED".toList, 25), ("EXPERTLIMIT".toList, 26), ("BADNEIGHBOR".toList, 27), ("MISSINGSPOT".toList, 28), ("BADPERFORMANCE".toList, 29)]

/-- `flags_to_ignore` (line 269). -/
def ignored : List PyStr := ["PINHOLE".toList, "POSITIONER".toList, "FIDUCIAL".toList, "GIF".toList]

/-- `FLAG_STRINGS` (lines 281-285); the text of the list, without brackets and quotes, with ` || ` for the commas, is the names joined. -/
def flagString (flags : ℤ) : PyStr :=
  " || ".toList.intercalate ((Bitmask.names (Bitmask.init flagDefs) flags).filter fun n => !ignored.contains n)

/-- `remove_excluded_dates` (lines 189-200): dates are compared as text. -/
def inDates (o : Opts) {ρ : Type} (r : Row ρ) : Bool := !decide (r.date < o.dateMin) && !decide (o.dateMax < r.date)

/-- `remove_excluded_calibs` (lines 202-228). -/
noncomputable def scaleOk (s : Scale) {ρ : Type} (r : Row ρ) : Bool :=
  match s with
  | .incl => true
  | .excl => decide (r.scaleT = 1) && decide (r.scaleP = 1)
  | .tOrP => decide (r.scaleT ≠ 1) || decide (r.scaleP ≠ 1)
  | .tAndP => decide (r.scaleT ≠ 1) && decide (r.scaleP ≠ 1)
  | .tOnly => decide (r.scaleT ≠ 1) && decide (r.scaleP = 1)
  | .pOnly => decide (r.scaleT = 1) && decide (r.scaleP ≠ 1)

/-- `special_null_cases` (line 165). -/
def nullTexts : List PyStr := ["None".toList, "none".toList, "(null)".toList, "null".toList, "--".toList]

/-- `nulls` (lines 163-169) for a text. -/
def nullStr (v : Option PyStr) : Bool :=
  match v with
  | none => true
  | some s => s.isEmpty || nullTexts.contains s

/-- `nulls` for a number: zero counts as null. -/
noncomputable def nullReal (v : Option ℝ) : Bool :=
  match v with
  | none => true
  | some x => decide (x = 0)

/-- `nulls` for an integer. -/
def nullInt (v : Option ℤ) : Bool :=
  match v with
  | none => true
  | some n => decide (n = 0)

/-- `remove_nonmoving_rows` (lines 230-245): for the iteration zero is allowed. -/
noncomputable def moving {ρ : Type} (r : Row ρ) : Bool :=
  !(nullStr r.cmd || nullReal r.x || nullReal r.y || nullInt r.expid || (nullInt r.iter && decide (r.iter ≠ some 0)))

/-- `remove_unmatched_rows` (lines 288-297): a search in the text of the flags. -/
def matched {ρ : Type} (r : Row ρ) : Bool := pyIn "MATCHED".toList (flagString r.flags)

/-- `unmask_columns` (lines 257-267). -/
def noteText {ρ : Type} (r : Row ρ) : PyStr := r.note.getD []

/-- `tokenize_note` (lines 171-175). -/
def tokens (note : PyStr) : List PyStr := (split [';'] note).map strip

/-- `special_move_keywords` (line 45). -/
def specialKeywords : List PyStr :=
  ["MOTORTEST".toList, "move_to_range".toList, "disambiguate_theta".toList, "homing".toList, "limit seek".toList]

/-- Lines 344-348. -/
def isSpecial {ρ : Type} (r : Row ρ) : Bool := (tokens (noteText r)).any fun t => specialKeywords.any fun k => pyIn k t

/-- A file: whether the path contains `csv`, whether all required columns are there, and the rows. -/
structure File (ρ : Type) where
  csv : Bool
  columns : Bool
  rows : List (Row ρ)

/-- `read` (lines 299-361) for one positioner. -/
noncomputable def readPos {ρ : Type} (order : List (Row ρ) → List (Row ρ)) (o : Opts) (f : File ρ) (p : PyStr) : Option (List (Row ρ)) :=
  if !f.csv then none
  else if !f.columns then none
  else if f.rows = [] then none
  else
    let t := ((f.rows.filter fun r => inDates o r).filter fun r => scaleOk o.scale r).filter fun r => moving r
    if t = [] then none
    else
      let t := (order t).filter fun r => matched r
      let posids := t.map Row.posid
      let t := if o.special then t else t.filter fun r => !isSpecial r
      let this := t.filter fun r => decide (r.posid = p)
      if p ∈ posids ∧ this ≠ [] then some this else none

/-- Lines 1271-1276: the tables of several files are stacked. -/
def stack {α : Type} (d t : Option (List α)) : Option (List α) :=
  match t, d with
  | none, d => d
  | some t, some t' => some (t' ++ t)
  | some t, none => some t

/-- Lines 1268-1276 for one positioner. -/
noncomputable def gather {ρ : Type} (order : List (Row ρ) → List (Row ρ)) (o : Opts) (files : List (File ρ)) (p : PyStr) : Option (List (Row ρ)) :=
  files.foldl (fun d f => stack d (readPos order o f p)) none

end Verif.Model.PerfRead
