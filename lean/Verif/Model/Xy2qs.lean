import Verif.Model.Trig

/-!
# Model of `py/desimeter/transform/xy2qs.py` and of `ptl2flat`/`flat2ptl`
(`transform/pos2ptl.py` lines 80-96)

The polynomial coefficients are the decimal literals of the source, as exact
rationals.  Array and scalar arguments behave alike (element by element).
-/

namespace Verif.Model.Xy2qs
open Verif.Py Verif.Model.Trig

/-- `np.poly1d(c)(x)` = `np.polyval`: Horner's rule, highest power first. -/
noncomputable def polyval (c : List ℚ) (x : ℝ) : ℝ := c.foldl (fun y (a : ℚ) => y * x + (a : ℝ)) 0

/-- Coefficients in `r2s` (xy2qs.py line 53). -/
def cR2s : List ℚ := [-3.01232440e-03, 1.45324708e-02, -2.55244612e-02, 2.15885180e-02,
  -8.05287872e-03, 2.05529419e-03, 9.99773920e-01, 9.12275165e-06]

/-- Coefficients in `s2r` (xy2qs.py line 64). -/
def cS2r : List ℚ := [-2.60833797e-03, 6.40671681e-03, -5.64913181e-03, 6.99354170e-04,
  -2.13171265e-04, 1.00000009e+00, 9.75790364e-07]

/-- `r2s` (xy2qs.py lines 44-56). -/
noncomputable def r2s (r : ℝ) : ℝ := 400 * polyval cR2s (r / 400)
/-- `s2r` (xy2qs.py lines 58-67). -/
noncomputable def s2r (s : ℝ) : ℝ := 400 * polyval cS2r (s / 400)

/-- `xy2qs` (xy2qs.py lines 4-22). -/
noncomputable def xy2qs (x y : ℝ) : ℝ × ℝ := (arctan2d y x, r2s (hypot x y))
/-- `qs2xy` (xy2qs.py lines 24-42). -/
noncomputable def qs2xy (q s : ℝ) : ℝ × ℝ := (s2r s * cosd q, s2r s * sind q)

/-- `xy2uv` (xy2qs.py lines 70-75). -/
noncomputable def xy2uv (x y : ℝ) : ℝ × ℝ :=
  let qs := xy2qs x y
  (qs.2 * Real.cos (radians qs.1), qs.2 * Real.sin (radians qs.1))
/-- `uv2xy` (xy2qs.py lines 77-81). -/
noncomputable def uv2xy (u v : ℝ) : ℝ × ℝ := qs2xy (arctan2d v u) (hypot u v)

/-- `ptl2flat` (pos2ptl.py lines 80-87). -/
noncomputable def ptl2flat (x y : ℝ) : ℝ × ℝ :=
  let q := atan2 y x
  let s := r2s (hypot x y)
  (s * Real.cos q, s * Real.sin q)
/-- `flat2ptl` (pos2ptl.py lines 89-96). -/
noncomputable def flat2ptl (x y : ℝ) : ℝ × ℝ :=
  let q := atan2 y x
  let r := s2r (hypot x y)
  (r * Real.cos q, r * Real.sin q)

end Verif.Model.Xy2qs
