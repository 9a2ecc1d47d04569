import Verif.Model.Fvc2fp
import Verif.Model.Trig

/-!
# Model of `py/desimeter/transform/tan2fp/raytracefit.py`
-/

namespace Verif.Model.Raytracefit
open Verif.Py Verif.Model.ZhaoBurge Verif.Model.Fvc2fp Verif.Model.Trig

/-- `average_angles_adc` (lines 14-28). -/
noncomputable def averageAnglesAdc (adc1 adc2 : ℝ) : ℝ :=
  if fmod (adc1 - adc2) 360 = 0 then fmod adc1 360 else averageAnglesDeg (adc1 + 90) (adc2 - 90)

/-- `delta_angles_adc` (lines 31-36). -/
noncomputable def deltaAnglesAdc (adc1 adc2 : ℝ) : ℝ := put360 (adc2 - adc1)

/-- Result of `interpolate_coeffs` (lines 168-187). -/
structure Coeffs where
  scale : ℝ
  rotation : ℝ
  offsetX : ℝ
  offsetY : ℝ
  zb : List ℝ

/-- A fitted model: the ids and the cubic interpolation of all tabulated parameters as a
function of the wrapped ADC difference (`scipy.interpolate.interp1d`, not modelled;
`ValueError` outside of the tabulated range). -/
structure RayTraceFit where
  zbpolids : List Nat
  interp : ℝ → Except PyErr Coeffs

/-- `interpolate_coeffs` (lines 168-187). -/
noncomputable def RayTraceFit.interpolateCoeffs (t : RayTraceFit) (adc1 adc2 : ℝ) : Except PyErr Coeffs :=
  t.interp (deltaAnglesAdc adc1 adc2)

/-- `_reduce_xytan` / `_expand_xytan` (lines 54-66). -/
noncomputable def reduceTan (p : ℝ × ℝ) : ℝ × ℝ := (p.1 / 0.027, p.2 / 0.027)
noncomputable def expandTan (p : ℝ × ℝ) : ℝ × ℝ := (p.1 * 0.027, p.2 * 0.027)

/-- `tan2fp` (lines 189-212) on arrays. -/
noncomputable def RayTraceFit.tan2fp (t : RayTraceFit) (pts : List (ℝ × ℝ)) (adc1 adc2 : ℝ) :
    Except PyErr (List (ℝ × ℝ)) := do
  let c ← t.interpolateCoeffs adc1 adc2
  let mean := radians (averageAnglesAdc adc1 adc2)
  let ca := Real.cos mean
  let sa := Real.sin mean
  pts.mapM fun p => do
    let r := reduceTan p
    let rrx := ca * r.1 + sa * r.2
    let rry := -sa * r.1 + ca * r.2
    let q ← transform rrx rry c.scale c.rotation c.offsetX c.offsetY (some (t.zbpolids, c.zb))
    return expandFp (ca * q.1 - sa * q.2, sa * q.1 + ca * q.2)

/-- `fp2tan` (lines 214-262) on arrays; the correction loop is the one of `fp2fvc`. -/
noncomputable def RayTraceFit.fp2tan (t : RayTraceFit) (pts : List (ℝ × ℝ)) (adc1 adc2 : ℝ) :
    Except PyErr (List (ℝ × ℝ)) := do
  let c ← t.interpolateCoeffs adc1 adc2
  let mean := radians (averageAnglesAdc adc1 adc2)
  let ca := Real.cos mean
  let sa := Real.sin mean
  let rr := pts.map fun p =>
    let r := reduceFp p
    (ca * r.1 + sa * r.2, -sa * r.1 + ca * r.2)
  let d ← corrLoop t.zbpolids c.zb rr 20 (rr.map fun _ => (0, 0))
  return (rr.zip d).map fun e =>
    let x := (e.1.1 - e.2.1) / c.scale
    let y := (e.1.2 - e.2.2) / c.scale
    let rxx := x * Real.cos (-c.rotation) - y * Real.sin (-c.rotation) - c.offsetX
    let ryy := x * Real.sin (-c.rotation) + y * Real.cos (-c.rotation) - c.offsetY
    expandTan (ca * rxx - sa * ryy, sa * rxx + ca * ryy)

end Verif.Model.Raytracefit
