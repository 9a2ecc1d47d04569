import Verif.Model.Echo22Table
import Verif.Model.Trig

/-!
# Model of `py/desimeter/transform/tan2fp/echo22.py`

`np.polyfit` is a parameter; the two global variables with the coefficients are the state. Reading of the table is not modelled:
its rows are in `Echo22Table`. NaN is `none`.
-/

namespace Verif.Model.Echo22
open Verif.Py Verif.Model.Trig

/-- `np.polyfit(x, y, deg)`, highest power first. -/
abbrev Polyfit := List ℝ → List ℝ → ℕ → List ℝ

/-- `np.polyval`. -/
def polyvalR (c : List ℝ) (x : ℝ) : ℝ := c.foldl (fun y a => y * x + a) 0

/-- `_rscale` (line 12). -/
noncomputable def rscale : ℝ := 415

/-- `_r2t_coeff`, `_t2r_coeff` (lines 10-11). -/
structure Cache where
  r2t : Option (List ℝ)
  t2r : Option (List ℝ)

/-- State after import. -/
def Cache.empty : Cache := ⟨none, none⟩

/-- `_fit_r2theta` (lines 73-105). -/
noncomputable def fitR2theta (polyfit : Polyfit) : List ℝ × List ℝ :=
  let echo := table.filter fun r => decide (r.1 ≤ 415)
  let radius := echo.map fun r => (r.1 : ℝ)
  let theta := echo.map fun r => (r.2 : ℝ) / 10 ^ 9
  (polyfit (radius.map (· / rscale)) theta 5, polyfit theta radius 5)

/-- `radius2theta` (lines 51-60). -/
noncomputable def radius2theta (polyfit : Polyfit) (radius : ℝ) (st : Cache) : ℝ × Cache :=
  let st := if st.r2t.isNone then ⟨some (fitR2theta polyfit).1, some (fitR2theta polyfit).2⟩ else st
  (polyvalR (st.r2t.getD []) (radius / rscale), st)

/-- `theta2radius` (lines 62-71). -/
noncomputable def theta2radius (polyfit : Polyfit) (theta : ℝ) (st : Cache) : ℝ × Cache :=
  let st := if st.t2r.isNone then ⟨some (fitR2theta polyfit).1, some (fitR2theta polyfit).2⟩ else st
  (polyvalR (st.t2r.getD []) theta, st)

/-- `tan2fp` (lines 14-31). -/
noncomputable def tan2fp (polyfit : Polyfit) (xtan ytan : ℝ) (st : Cache) : Option (ℝ × ℝ) × Cache :=
  let phi := atan2 ytan xtan
  let rtan := hypot xtan ytan
  let (r, st) := theta2radius polyfit (arcsind rtan) st
  (if rtan ≤ 1 then some (r * Real.cos phi, r * Real.sin phi) else none, st)

/-- `fp2tan` (lines 33-49). -/
noncomputable def fp2tan (polyfit : Polyfit) (xfp yfp : ℝ) (st : Cache) : (ℝ × ℝ) × Cache :=
  let phi := atan2 yfp xfp
  let r := hypot xfp yfp
  let (theta, st) := radius2theta polyfit r st
  let rtan := sind theta
  ((rtan * Real.cos phi, rtan * Real.sin phi), st)

end Verif.Model.Echo22
