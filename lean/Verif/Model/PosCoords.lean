import Verif.Model.Int2ptl
import Verif.Model.Ptl2fp
import Verif.Model.Dbutil

/-!
# Model of `bin/get_poscoords`

The data base is a list of rows per table; a query without `order by` returns the rows in that order.  The columns used are
kept; renaming of columns, plots and the output format are not modelled.  Missing values of the calibration are not modelled.
-/

namespace Verif.Model.PosCoords
open Verif.Py Verif.Model.Int2ptl Verif.Model.Dbutil

/-- A row of `positioner_moves_p{}`. -/
structure Move (ι : Type) where
  pos : ι
  time : ℚ
  exp : Option ℤ
  iter : Option ℤ
  t : ℝ
  p : ℝ

/-- A row of `positioner_calibration_p{}`. -/
structure CalRow where
  time : ℚ
  cal : Cal

/-- The tables by petal id; the calibration rows of a positioner in the order `order by time_recorded` (line 80). -/
structure Db (ι : Type) where
  moves : ℤ → List (Move ι)
  calib : ℤ → ι → List CalRow

variable {ι : Type}

/-- Lines 48-59: the rows of the exposure, or those with the latest time. -/
def query (moves : List (Move ι)) (expid : Option ℤ) (iter : ℤ) : Except PyErr (List (Move ι)) :=
  match expid with
  | some e => .ok (moves.filter fun m => m.exp = some e ∧ m.iter = some iter)
  | none =>
    match (moves.map Move.time).max? with
    | none => .error .indexError
    | some t => .ok (moves.filter fun m => m.time = t)

/-- Line 96: `np.where(tstamp_calib<t)[0][-1]`, and the row (line 99). -/
def calibAt (cal : List CalRow) (t : ℚ) : Except PyErr Cal :=
  match (cal.filter fun c => c.time < t).getLast? with
  | some c => .ok c.cal
  | none => .error .indexError

/-- Lines 90-99: the loop over the times of *all* rows writes one and the same row. -/
noncomputable def joined (cal : List CalRow) (times : List ℚ) : Except PyErr Cal :=
  times.foldlM (fun _ t => calibAt cal t) ⟨0, 0, 0, 0, 0, 0⟩

/-- A row of the table before the expected positions are computed. -/
structure Row (ι : Type) where
  loc : ℤ
  move : Move ι
  cal : Cal

/-- Lines 47-119 for one petal. -/
noncomputable def petalTable (db : Db ι) (expid : Option ℤ) (iter : ℤ) (petal : ℤ) : Except PyErr (List (Row ι)) := do
  let loc ← getPetalLoc petal
  let moves ← query (db.moves petal) expid iter
  moves.mapM fun m => do
    let c ← joined (db.calib petal m.pos) (moves.map Move.time)
    return ⟨loc, m, c⟩

/-- A row of the output. -/
structure Out (ι : Type) where
  row : Row ι
  ptl : ℝ × ℝ
  fp : ℝ × ℝ

/-- Lines 134-140 for one row. -/
noncomputable def expect (al : Model.Ptl2fp.Dict) (r2z : ℝ → ℝ) (r : Row ι) : Except PyErr (Out ι) := do
  let (x, y) ← int2ptl [r.move.t] [r.move.p] [r.cal.r1] [r.cal.r2] [r.cal.tOff] [r.cal.pOff] [r.cal.x] [r.cal.y]
  let x ← getIdx x 0
  let y ← getIdx y 0
  let q ← Model.Ptl2fp.ptl2fp al r.loc.toNat (Model.Ptl2fp.withZ r2z x y)
  return ⟨r, (x, y), (q 0, q 1)⟩

/-- The script; without any row `otable` is None (line 129: `len(None)`). -/
noncomputable def run (db : Db ι) (al : Model.Ptl2fp.Dict) (r2z : ℝ → ℝ) (petals : List ℤ) (expid : Option ℤ) (iter : ℤ) :
    Except PyErr (List (Out ι)) := do
  let tables ← petals.mapM (petalTable db expid iter)
  if tables.flatten.length = 0 then .error .typeError
  else tables.flatten.mapM (expect al r2z)

end Verif.Model.PosCoords
