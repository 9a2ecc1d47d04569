import Verif.Model.Int2ptl
import Verif.Model.Ptl2fp
import Verif.Model.PosparamsJobs

/-!
# Model of `bin/plot_posmoves` (lines 35-176)

The rows are those left by `posmove_selection` (`Model/Selection.lean`). The table has the columns of the calibration together or not at all (line
52 looks for LENGTH_R1 only), likewise PTL_X and PTL_Y, and X_FP and Y_FP; numbers are never masked. Left out: the figure itself, the circle (`Model/Circles.lean`) and
messages. The directory given with `--outdir` is created when missing, which has no influence on the name of the image.
-/

namespace Verif.Model.PlotPosmoves
open Verif.Py Verif.Model.Pos2ptl
open Verif.Model.Int2ptl (Cal int2ptl)
open Verif.Model.ProcessFvc (basename)
open Verif.Model.PosparamsJobs (splitext)

/-- A row. -/
structure Row where
  posid : PyStr
  t : ℝ
  p : ℝ
  petal : ℕ
  cal : Cal
  ptl : ℝ × ℝ
  fp : ℝ × ℝ
  z : ℝ

/-- Which columns there are: LENGTH_R1, PTL_X, X_FP, `z_FP` and `Z_FP`. -/
structure Names where
  calib : Bool
  ptl : Bool
  fp : Bool
  zLow : Bool
  zUp : Bool

/-- The options. -/
structure Args where
  infile : PyStr
  save : Bool
  outfile : Option PyStr
  outdir : Option PyStr
  noDb : Bool

/-- `float` of the two arrays of one element. -/
def single : List ℝ × List ℝ → Except PyErr (ℝ × ℝ)
  | ([x], [y]) => .ok (x, y)
  | _ => .error .valueError

/-- Lines 53-60: the positions expected with the calibration of each row. -/
noncomputable def expected (names : Names) (noDb : Bool) (rows : List Row) : Except PyErr (Option (List (ℝ × ℝ))) :=
  if !noDb && names.calib then do
    let l ← rows.mapM fun r => do
      let q ← int2ptl [r.t] [r.p] [r.cal.r1] [r.cal.r2] [r.cal.tOff] [r.cal.pOff] [r.cal.x] [r.cal.y]
      single q
    return some l
  else return none

/-- Lines 78-81: the third coordinate of a row, `none` when not given. -/
def zOf (names : Names) (r : Row) : Except PyErr (Option ℝ) :=
  if names.zLow then (if names.zUp then .ok (some r.z) else .error .keyError) else .ok none

/-- `fp2ptl` (py/desimeter/transform/ptl2fp.py lines 88-113) with an optional z. -/
noncomputable def toPtl (d : Ptl2fp.Dict) (r2z : ℝ → ℝ) (petal : ℕ) (xy : ℝ × ℝ) (z : Option ℝ) : Except PyErr (ℝ × ℝ) := do
  let u ← Ptl2fp.fp2ptl d petal (match z with
    | some z => ![xy.1, xy.2, z]
    | none => Ptl2fp.withZ r2z xy.1 xy.2)
  return (u 0, u 1)

/-- Lines 76-82: the rows of one petal get their place. -/
noncomputable def petalStep (d : Ptl2fp.Dict) (r2z : ℝ → ℝ) (names : Names) (rows : List Row) (out : List (ℝ × ℝ)) (ploc : ℕ) :
    Except PyErr (List (ℝ × ℝ)) :=
  (rows.zip out).mapM fun ro =>
    if ro.1.petal = ploc then do
      let z ← zOf names ro.1
      toPtl d r2z ploc ro.1.fp z
    else .ok ro.2

/-- Lines 65-86: the measured positions. -/
noncomputable def measured (d : Ptl2fp.Dict) (r2z : ℝ → ℝ) (names : Names) (rows : List Row) : Except PyErr (List (ℝ × ℝ)) :=
  if names.ptl then .ok (rows.map Row.ptl)
  else if names.fp then (rows.map Row.petal).dedup.foldlM (petalStep d r2z names rows) (rows.map fun _ => (0, 0))
  else .error (.sysExit 12)

/-- Lines 91-107: the positions expected with the parameters of a fit; `param` is the table given. -/
noncomputable def fitted (param : Option (List (PyStr × Cal))) (posid : PyStr) (rows : List Row) : Except PyErr (Option (List (ℝ × ℝ))) :=
  match param with
  | none => .ok none
  | some tab =>
    match tab.find? fun e => decide (e.1 = posid) with
    | none => .error (.sysExit 12)
    | some (_, c) => do
      let q ← int2ptl (rows.map Row.t) (rows.map Row.p) [c.r1] [c.r2] [c.tOff] [c.pOff] [c.x] [c.y]
      return some (q.1.zip q.2)

/-- `os.path.splitext(path)[0]`. -/
def stem (path : PyStr) : PyStr := path.take (path.length - (basename path).length) ++ (splitext (basename path)).1

/-- `os.path.join(a, b)` for `b` a name. -/
def join (a b : PyStr) : PyStr :=
  match a.getLast? with
  | none => b
  | some c => if c = '/' then a ++ b else a ++ '/' :: b

/-- Lines 159-176: the image, `none` if it is only shown. -/
def image (a : Args) : Option PyStr :=
  if a.save then some (match a.outfile, a.outdir with
    | some f, _ => f
    | none, some d => join d ((splitext (basename a.infile)).1 ++ ".png".toList)
    | none, none => stem a.infile ++ ".png".toList)
  else none

/-- What is drawn. -/
structure Plot where
  expected : Option (List (ℝ × ℝ))
  measured : List (ℝ × ℝ)
  fitted : Option (List (ℝ × ℝ))
  image : Option PyStr

/-- The script. -/
noncomputable def run (d : Ptl2fp.Dict) (r2z : ℝ → ℝ) (a : Args) (names : Names) (rows : List Row) (param : Option (List (PyStr × Cal))) :
    Except PyErr Plot :=
  if a.save && a.outfile.isSome && a.outdir.isSome then .error (.sysExit 12)
  else match rows with
    | [] => .error (.sysExit 0)
    | r :: _ => do
      let e ← expected names a.noDb rows
      let m ← measured d r2z names rows
      let f ← fitted param r.posid rows
      return ⟨e, m, f, image a⟩

end Verif.Model.PlotPosmoves
