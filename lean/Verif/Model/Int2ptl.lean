import Verif.Model.Pos2ptl
import Verif.Model.Xy2qs

/-!
# Model of the composites `int2ptl` and `ptl2int` in `py/desimeter/transform/pos2ptl.py`

As in `Model/Pos2ptl.lean`, scalars are one-element lists.
-/

namespace Verif.Model.Int2ptl
open Verif.Py Verif.Model.Pos2ptl Verif.Model.Xy2qs

/-- The calibration of one positioner: arm lengths, angle offsets, position of the axis (LENGTH_R1, LENGTH_R2, OFFSET_T,
OFFSET_P, OFFSET_X, OFFSET_Y). -/
structure Cal where
  r1 : ℝ
  r2 : ℝ
  tOff : ℝ
  pOff : ℝ
  x : ℝ
  y : ℝ

/-- `int2ptl` (pos2ptl.py lines 335-345). -/
noncomputable def int2ptl (t p r1 r2 tOff pOff xOff yOff : List ℝ) : Except PyErr (List ℝ × List ℝ) := do
  let (xl, yl) ← int2loc t p r1 r2 tOff pOff
  let xf ← loc2flat xl xOff
  let yf ← loc2flat yl yOff
  let q ← bcast2 flat2ptl xf yf
  return (q.map Prod.fst, q.map Prod.snd)

/-- `ptl2int` (pos2ptl.py lines 347-358). -/
noncomputable def ptl2int (x y r1 r2 tOff pOff xOff yOff : List ℝ) (tGuess : Option (List ℝ)) (tol : List ℝ) :
    Except PyErr (List ℝ × List ℝ × List Bool) := do
  let q ← bcast2 ptl2flat x y
  let xl ← flat2loc (q.map Prod.fst) xOff
  let yl ← flat2loc (q.map Prod.snd) yOff
  loc2int xl yl r1 r2 tOff pOff tGuess tol

end Verif.Model.Int2ptl
