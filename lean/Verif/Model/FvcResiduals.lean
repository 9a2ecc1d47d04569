import Verif.Py.Real
import Verif.Py.Str
import Mathlib.Data.List.Dedup

/-!
# The residuals of the spots of an image (`bin/plot_fvc_residuals`)

Modelled: the selection of the matched spots and the exit code 12 (lines 32 to 51), the number of
fiducials (53, 54), the positioners of the metrology with and without a spot (99 to 108), the
positioners to highlight (125 to 130), the large residuals and what is printed of them (167 to 184),
the two rms (194 to 199).

The variable `ii`, which holds the rows of the selected spots, is used again for the rows of the
coordinates file (line 128); the model keeps this.  All values are numbers; the table has the column
DEVICE_ID.  The text of a number in a line is not modelled: a line holds the values.

Not modelled: the reading of the files, the figure, the rows of the coordinates file without a spot (111 to 123), the positions
of the positioners to highlight (148 to 162), the block after `if False` (207).
-/

namespace Verif.Model.FvcResiduals

open Verif.Py

/-- A row of the table of spots (bin/plot_fvc_residuals, lines 32 to 54 and 172 to 184). -/
structure Spot where
  location : ℤ
  pinhole : ℤ
  deviceId : PyStr
  pos : ℝ × ℝ
  expected : ℝ × ℝ
  metro : ℝ × ℝ

/-- The reference position: expected (lines 39 and 40) or from the metrology (49 and 50). -/
def reference (expected : Bool) (s : Spot) : ℝ × ℝ := if expected then s.expected else s.metro

/-- The selection of lines 33 and 43. -/
noncomputable def chosen (expected : Bool) (s : Spot) : Bool :=
  @decide (s.location > 0 ∧ (reference expected s).1 ≠ 0) (Classical.dec _)

/-- `np.where(...)[0]`. -/
def whereOf {α : Type} (p : α → Bool) (l : List α) : List ℕ :=
  (l.zipIdx.filter fun q => p q.1).map Prod.snd

/-- `dx` and `dy` (lines 145 and 146) of a selected spot. -/
def resid (expected : Bool) (s : Spot) : ℝ × ℝ :=
  ((reference expected s).1 - s.pos.1, (reference expected s).2 - s.pos.2)

/-- The number of fiducials which are on (lines 53 and 54). -/
noncomputable def fiducials (table : List Spot) : ℕ :=
  ((table.filter fun s => @decide (s.location ≥ 0 ∧ s.expected.1 ≠ 0 ∧ s.pinhole > 0) (Classical.dec _)).map
    Spot.location).dedup.length

/-- A row of the metrology (lines 99 to 108). -/
structure MetroRow where
  petal : ℤ
  location : ℤ
  deviceType : PyStr
  deviceId : PyStr

/-- The positioners of the metrology with a spot (lines 99 to 103), without the petal 5. -/
def matched (metro : List MetroRow) (table : List Spot) : List MetroRow :=
  (metro.filter fun m => decide (m.petal ≠ 5)).filter fun m =>
    decide (m.location ∈ table.map Spot.location) && decide (m.deviceType = "POS".toList)

/-- The positioners of the metrology without a spot (lines 104, 105). -/
def unmatched (metro : List MetroRow) (table : List Spot) : List MetroRow :=
  (metro.filter fun m => decide (m.petal ≠ 5)).filter fun m =>
    !decide (m.location ∈ table.map Spot.location) && decide (m.deviceType = "POS".toList)

/-- The rows for which `ii` stands at line 173: the ones of the selected spots, unless the expected
positions are compared and a coordinates file and positioners are given: then the rows of the
coordinates file with the last of the positioners (`args.posids.split(",")`, never empty; lines 125 to 128).  `coord` holds the column POS_ID. -/
noncomputable def rowsOf (expected : Bool) (table : List Spot) (coord : Option (List PyStr)) (posids : Option (List PyStr)) : List ℕ :=
  let ii := whereOf (chosen expected) table
  match expected, coord, posids with
  | true, some c, some ids => ids.foldl (fun _ p => whereOf (fun q => decide (q = p)) c) ii
  | _, _, _ => ii

/-- A line which is printed for a large resid (lines 173 to 184). -/
structure Line where
  deviceId : PyStr
  pos : ℝ × ℝ
  res : ℝ × ℝ

/-- The residual is large (line 167). -/
noncomputable def large (d : ℝ × ℝ) : Bool := @decide (|d.1| > 0.1 ∨ |d.2| > 0.1) (Classical.dec _)

/-- `a[i]`, an `IndexError` beyond the end. -/
def item {α : Type} (l : List α) (i : ℕ) : Except PyErr α :=
  match l[i]? with
  | some a => .ok a
  | none => .error .indexError

/-- One turn of the loop of lines 172 to 184. -/
def line (table : List Spot) (ii : List ℕ) (q : (ℝ × ℝ) × ℕ) : Except PyErr Line := do
  let i ← item ii q.2
  let s ← item table i
  .ok ⟨s.deviceId, s.pos, q.1⟩

/-- What is printed of the large residuals (lines 167 to 184): a number when there are more than 100,
else a line for each. -/
inductive Large where
  | many (n : ℕ)
  | lines (l : List Line)

noncomputable def report (table : List Spot) (ii : List ℕ) (d : List (ℝ × ℝ)) : Except PyErr Large :=
  let jj := d.zipIdx.filter fun q => large q.1
  if jj.length > 100 then .ok (.many jj.length)
  else do
    let l ← jj.mapM (line table ii)
    .ok (.lines l)

/-- The length of a resid (line 194). -/
noncomputable def len (d : ℝ × ℝ) : ℝ := Real.sqrt (d.1 ^ 2 + d.2 ^ 2)

/-- The rms of the residuals shorter than a limit (lines 196 and 198), NaN when there is none. -/
noncomputable def rms (d : List (ℝ × ℝ)) (limit : ℝ) : Option ℝ :=
  let l := (d.map len).filter fun x => @decide (x < limit) (Classical.dec _)
  if l = [] then none else some (Real.sqrt ((l.map (· ^ 2)).sum / l.length))

/-- What the script prints. -/
structure Printed where
  fiducials : ℕ
  large : Large
  rms1 : Option ℝ
  rms2 : Option ℝ

/-- The script (lines 30 to 199). -/
noncomputable def run (expected : Bool) (table : List Spot) (coord : Option (List PyStr)) (posids : Option (List PyStr)) :
    Except PyErr Printed :=
  let sel := table.filter (chosen expected)
  if sel = [] then .error (.sysExit 12)
  else do
    let d := sel.map (resid expected)
    let l ← report table (rowsOf expected table coord posids) d
    .ok ⟨fiducials table, l, rms d 0.2, rms d 6⟩

end Verif.Model.FvcResiduals
