import Verif.Model.Circles
import Verif.Lemmas.Sort

/-!
# py/desimeter/circles.py lines 29-58 and posparams/fitter.py lines 319-340

The function which `fit_circle` gives to `scipy.optimize.leastsq` with its Jacobian, and the start values of the centre in
`fit_params`. `leastsq` is a parameter as in `Circles`. Over the reals a division by the distance 0 is 0 (numpy: NaN).
-/

namespace Verif.Model.CircleStart
open Verif.Py Verif.Model.Circles
open Verif.Model.MatchPositioners (median)

/-- `f_2b` (circles.py lines 33-36). -/
noncomputable def f2b (pts : List (ℝ × ℝ)) (c : ℝ × ℝ) : List ℝ :=
  let ri := radii pts c
  ri.map fun v => v - meanL ri

/-- One row of `df2b_dc` before line 49 (lines 46-48): the derivatives of the distances by one coordinate of the centre. -/
noncomputable def dR (coord : ℝ × ℝ → ℝ) (pts : List (ℝ × ℝ)) (c : ℝ × ℝ) : List ℝ :=
  pts.map fun p => (coord c - coord p) / hypot (p.1 - c.1) (p.2 - c.2)

/-- One row of `Df_2b` (lines 38-51). -/
noncomputable def df2b (coord : ℝ × ℝ → ℝ) (pts : List (ℝ × ℝ)) (c : ℝ × ℝ) : List ℝ :=
  let d := dR coord pts c
  d.map fun v => v - meanL d

/-- One measurement: `p_int` and `x_flat, y_flat`. -/
abbrev Meas := ℝ × (ℝ × ℝ)

/-- `np.unique(p_int)` (fitter.py line 322). -/
noncomputable def uniqueP (l : List Meas) : List ℝ := pySort id (l.map Prod.fst).dedup

/-- `x_flat[selection], y_flat[selection]` (lines 326, 329). -/
noncomputable def ring (l : List Meas) (v : ℝ) : List (ℝ × ℝ) := (l.filter fun m => m.1 = v).map Prod.snd

/-- Lines 326-333 for one value; `none`: nothing appended. -/
noncomputable def ringCentre (opt : List (ℝ × ℝ) → ℝ × ℝ → ℝ × ℝ) (pts : List (ℝ × ℝ)) : Except PyErr (Option (ℝ × ℝ)) :=
  if pts.length < 3 then .ok none
  else
    match robustFitCircle opt pts 4 0.1 with
    | .ok g => .ok (some g.1.1)
    | .error .valueError => .ok none
    | .error e => .error e

/-- Lines 335-337. -/
noncomputable def medians (cs : List (ℝ × ℝ)) : Option (ℝ × ℝ) :=
  if cs.length > 0 then some (median (cs.map Prod.fst), median (cs.map Prod.snd)) else none

/-- Lines 322-337: the centre used as start value in static mode. -/
noncomputable def startCentre (opt : List (ℝ × ℝ) → ℝ × ℝ → ℝ × ℝ) (l : List Meas) : Except PyErr (Option (ℝ × ℝ)) := do
  let cs ← (uniqueP l).mapM fun v => ringCentre opt (ring l v)
  return medians (cs.filterMap id)

end Verif.Model.CircleStart
