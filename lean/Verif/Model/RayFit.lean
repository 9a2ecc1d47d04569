import Verif.Model.Raytracefit
import Verif.Model.RayRun

/-!
# Model of the fit of the ray traced table

`TAN2FP_RayTraceFit.fit` and `interpolate_coeffs` in py/desimeter/transform/tan2fp/raytracefit.py
(lines 108-187), as used by bin/fit_raytrace_tan2fp.  Parameters: `itp` stands for
`interp1d(x, y, 'cubic')(x0)`, its first argument is the list of pairs of `x` and `y`; `sort` for
the order given by `np.argsort` (which is not stable).  The JSON text is in `Model/Json`; prints and plots are
left out.
-/

namespace Verif.Model.RayFit
open Verif.Py Classical
open Verif.Model.ZhaoBurge Verif.Model.Fvc2fp Verif.Model.Raytracefit

/-- A row of the ray traced table, the columns used. -/
structure Row where
  adc1 : ℝ
  adc2 : ℝ
  tan : ℝ × ℝ
  fp : ℝ × ℝ

/-- `adc12` (line 111). -/
def key (r : Row) : ℝ := r.adc1 + 1000 * r.adc2

/-- `np.unique`: the different values in ascending order. -/
noncomputable def unique (l : List ℝ) : List ℝ := pySort id l.dedup

/-- `polids` (line 139). -/
def polids : List Nat := [0, 1, 2, 3, 4, 5, 6, 9, 14, 15, 20, 27, 28, 29, 30]

/-- Reduced coordinates (lines 131-132). -/
noncomputable def fitPt (r : Row) : FitPt :=
  ⟨(reduceTan r.tan).1, (reduceTan r.tan).2, (reduceFp r.fp).1, (reduceFp r.fp).2⟩

/-- What is stored for one setting of the corrector. -/
structure Config where
  adc1 : ℝ
  adc2 : ℝ
  scale : ℝ
  rotation : ℝ
  offsetX : ℝ
  offsetY : ℝ
  zb : List ℝ

/-- Lines 124-153 for one value of `adc12`.  (The assertion of line 151 always holds.) -/
noncomputable def fitConfig (rows : List Row) (v : ℝ) : Except PyErr Config :=
  let sel := rows.filter fun r => decide (key r = v)
  match sel with
  | [] => .error .indexError
  | r :: _ => do
    let c ← fitZhaoBurge polids (sel.map fitPt)
    return ⟨r.adc1, r.adc2, 1, 0, 0, 0, List.ofFn c⟩

/-- `fit` (lines 108-164); `np.vstack` of nothing is a `ValueError`. -/
noncomputable def fit (rows : List Row) : Except PyErr (List Config) :=
  if rows = [] then .error .valueError else (unique (rows.map key)).mapM (fitConfig rows)

/-- `dadc_array` (line 171). -/
def dadc (c : Config) : ℝ := c.adc2 - c.adc1

/-- One of the interpolations (lines 177-185). -/
def column (itp : List (ℝ × ℝ) → ℝ → Except PyErr ℝ) (s : List Config) (d : ℝ) (f : Config → ℝ) :
    Except PyErr ℝ := itp (s.map fun c => (dadc c, f c)) d

/-- `interpolate_coeffs` (lines 166-187) as a function of the wrapped difference of angles. -/
def interpolate (itp : List (ℝ × ℝ) → ℝ → Except PyErr ℝ) (sort : List Config → List Config)
    (cfgs : List Config) (d : ℝ) : Except PyErr Coeffs := do
  let s := sort cfgs
  let scale ← column itp s d Config.scale
  let rotation ← column itp s d Config.rotation
  let ox ← column itp s d Config.offsetX
  let oy ← column itp s d Config.offsetY
  let zb ← (List.range polids.length).mapM fun i => column itp s d fun c => c.zb.getD i 0
  return ⟨scale, rotation, ox, oy, zb⟩

/-- The fitted transformation. -/
def model (itp : List (ℝ × ℝ) → ℝ → Except PyErr ℝ) (sort : List Config → List Config)
    (cfgs : List Config) : RayTraceFit := ⟨polids, interpolate itp sort cfgs⟩

/-- The columns of the table of run.py that are used. -/
def ofRun (r : Verif.RayTrace.OutRow) : Row := ⟨r.adc1, r.adc2, (r.xtan, r.ytan), (r.fp.x, r.fp.y)⟩

end Verif.Model.RayFit
