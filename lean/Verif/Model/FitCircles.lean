import Verif.Py.Dict
import Verif.Model.Circles
import Verif.Model.Match
import Verif.Model.Xy2qs

/-!
# Model of `bin/desi_fit_circles`

A file is a list of rows; every cell is a number (no masked cells). `scipy.optimize.leastsq` inside `fit_circle` is a parameter.
Printed lines and plots are left out.
-/

namespace Verif.Model.FitCircles
open Verif.Py
open Verif.Model.MatchPositioners (median)
open Verif.Model.Circles (meanL fitCircle)
open Verif.Model.Match (dist2)

/-- A row of an input file: `LOCATION`, `PINHOLE_ID`, `X_FP,Y_FP`, `X_FP_EXP,Y_FP_EXP`. -/
structure Row where
  loc : ℤ
  pin : ℤ
  meas : ℝ × ℝ
  exp : ℝ × ℝ

/-- `location_and_pinhole` (line 35). -/
def key (r : Row) : ℤ := r.loc * 10 + r.pin

/-- `location_and_pinhole[selection]` (lines 34-35, 37, 45). -/
def selected (t : List Row) : List ℤ := (t.filter fun r => 0 < r.loc).map key

/-- Rows with `location_and_pinhole==loc` (lines 40, 46): of all rows, selected or not. -/
def rowsOf (t : List Row) (k : ℤ) : List Row := t.filter fun r => key r = k

/-- `float(t["X_FP_EXP"][location_and_pinhole==loc][0])` (lines 40-41, 54-55); only used for keys that occur. -/
noncomputable def firstExp (t : List Row) (k : ℤ) : ℝ × ℝ :=
  match rowsOf t k with
  | r :: _ => r.exp
  | [] => (0, 0)

/-- The dictionaries `x,y` and `xexp,yexp` together: they always have the same keys. -/
abbrev Acc := Dict ℤ (List (ℝ × ℝ) × (ℝ × ℝ))

/-- Lines 36-43, for the first file. -/
noncomputable def start (t : List Row) (d : Acc) : Acc := (selected t).foldl (fun d k => d.set k ([], firstExp t k)) d

/-- Lines 46-58, for one key. -/
noncomputable def addOne (t : List Row) (d : Acc) (k : ℤ) : Acc :=
  match rowsOf t k with
  | [r] =>
    match d.get? k with
    | some (l, e) => d.set k (l ++ [r.meas], e)
    | none => d.set k ([r.meas], firstExp t k)
  | _ => d

/-- Lines 45-58, for one file. -/
noncomputable def addFile (d : Acc) (t : List Row) : Acc := (selected t).foldl (addOne t) d

/-- Lines 25-58. -/
noncomputable def collect (files : List (List Row)) : Acc :=
  match files with
  | [] => []
  | t :: rest => rest.foldl addFile (addFile (start t []) t)

/-- `np.std`. -/
noncomputable def std (l : List ℝ) : ℝ := Real.sqrt (meanL (l.map fun v => (v - meanL l) ^ 2))

/-- Lines 101-115: what becomes of the result of `fit_circle`; `ValueError` is caught. -/
noncomputable def judge (f : Except PyErr ((ℝ × ℝ) × ℝ)) : Except PyErr (Option (ℝ × ℝ)) :=
  match f with
  | .ok (c, r) => if r < 0.1 then .ok none else .ok (some (Xy2qs.uv2xy c.1 c.2))
  | .error .valueError => .ok none
  | .error e => .error e

/-- Lines 89-115 for a positioner: points left after dropping `x == 0`. Without points `np.std` is NaN, which is not below 1, and
`leastsq` raises `TypeError` (less residuals than parameters). `none`: the script goes on to the next location. -/
noncomputable def positioner (opt : List (ℝ × ℝ) → ℝ × ℝ → ℝ × ℝ) (pts : List (ℝ × ℝ)) : Except PyErr (Option (ℝ × ℝ)) :=
  if pts = [] then .error .typeError
  else if std (pts.map Prod.fst) < 1 then .ok none
  else judge (fitCircle opt (pts.map fun p => Xy2qs.xy2uv p.1 p.2))

/-- Lines 97-98 for a pinhole of a fiducial. Without points the medians are NaN, and the test `dr<3.` of line 136 fails. -/
noncomputable def pinhole (pts : List (ℝ × ℝ)) : Option (ℝ × ℝ) :=
  if pts = [] then none else some (median (pts.map Prod.fst), median (pts.map Prod.snd))

/-- Lines 80-128 for one location. -/
noncomputable def centre (opt : List (ℝ × ℝ) → ℝ × ℝ → ℝ × ℝ) (pin : ℤ) (meas : List (ℝ × ℝ)) : Except PyErr (Option (ℝ × ℝ)) :=
  if meas.length < 6 then .ok none
  else
    let pts := meas.filter fun p => p.1 ≠ 0
    if pin = 0 then positioner opt pts else .ok (pinhole pts)

/-- A row of the output file. -/
structure Out where
  loc : ℤ
  pin : ℤ
  metro : ℝ × ℝ
  xy : ℝ × ℝ

/-- Lines 60-62, 72-75 and 125-136 for one location: `xfp_metro` stays zero for the locations passed over. -/
noncomputable def keep (k : ℤ) (e : ℝ × ℝ) (c : Option (ℝ × ℝ)) : Option Out :=
  match c with
  | none => none
  | some c => if e.1 ≠ 0 ∧ dist2 c e < 3 then some ⟨k / 10, k % 10, e, c⟩ else none

/-- Lines 79-136 for one location. -/
noncomputable def outRow (opt : List (ℝ × ℝ) → ℝ × ℝ → ℝ × ℝ) (e : ℤ × (List (ℝ × ℝ) × (ℝ × ℝ))) : Except PyErr (Option Out) := do
  let c ← centre opt (e.1 % 10) e.2.1
  return keep e.1 e.2.2 c

/-- The script: the rows written. -/
noncomputable def fitCircles (opt : List (ℝ × ℝ) → ℝ × ℝ → ℝ × ℝ) (files : List (List Row)) : Except PyErr (List Out) := do
  let rows ← (collect files).mapM (outRow opt)
  return rows.filterMap id

end Verif.Model.FitCircles
