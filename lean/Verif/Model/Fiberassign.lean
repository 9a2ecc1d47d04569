import Verif.Model.Radec2tan
import Verif.Model.Raytracefit
import Verif.Model.Xy2qs
import Verif.Py.LinAlg
import Verif.Py.Vec
import Mathlib.LinearAlgebra.Matrix.Notation

/-!
# Model of `py/desimeter/fiberassign.py` and of the use made there of
`py/desimeter/transform/dm2pm.py`

The loaded ray trace fit (`get_raytracefit()`) and the `DM2PM` object read from the data
directory are parameters.  The log messages (and the values computed only for them) are
left out.  Target coordinates are finite (the `isnan` test of the field rotation is true for
all points).
-/

namespace Verif.Model.Fiberassign
open Verif.Py Verif.Model.Trig Verif.Model.Radec2tan Verif.Model.Raytracefit Verif.Model.Xy2qs
open Verif.Model.ZhaoBurge (getZhaoBurgeXY)

/-! ## `transform/dm2pm.py` -/

/-- `DM2PM` (dm2pm.py lines 14-22). -/
structure DM2PM where
  zbpolids : List Nat
  dm2pmCoeffs : List ℝ
  pm2dmCoeffs : List ℝ

/-- Common body of `dm2pm` and `pm2dm` (dm2pm.py lines 99-115), with `_reduce_xy` and
`_expand_xy` (lines 48-61), for one point. -/
noncomputable def zbShift (polids : List Nat) (coeffs : List ℝ) (p : ℝ × ℝ) : Except PyErr (ℝ × ℝ) := do
  let rx := p.1 / 420
  let ry := p.2 / 420
  let d ← getZhaoBurgeXY polids coeffs rx ry
  return ((rx + d.1) * 420, (ry + d.2) * 420)

/-- `dm2pm` (dm2pm.py lines 99-106). -/
noncomputable def DM2PM.dm2pm (m : DM2PM) (pts : List (ℝ × ℝ)) : Except PyErr (List (ℝ × ℝ)) :=
  pts.mapM (zbShift m.zbpolids m.dm2pmCoeffs)

/-- `pm2dm` (dm2pm.py lines 108-115). -/
noncomputable def DM2PM.pm2dm (m : DM2PM) (pts : List (ℝ × ℝ)) : Except PyErr (List (ℝ × ℝ)) :=
  pts.mapM (zbShift m.zbpolids m.pm2dmCoeffs)

/-! ## ADC angles -/

/-- `pm_zd` (fiberassign.py lines 46-52). -/
noncomputable def pmZd (ha dec lat : ℝ) : ℝ :=
  degrees (Real.arccos (Real.cos (radians ha) * Real.cos (radians dec) * Real.cos (radians lat) +
    Real.sin (radians dec) * Real.sin (radians lat)))

/-- `pm_psi` (lines 54-59). -/
noncomputable def pmPsi (ha dec lat : ℝ) : ℝ :=
  degrees (atan2 (Real.sin (radians ha) * Real.cos (radians lat))
    (Real.cos (radians dec) * Real.sin (radians lat) -
      Real.sin (radians dec) * Real.cos (radians lat) * Real.cos (radians ha)))

/-- `pm_zd2deltaadc` (lines 61-66). -/
noncomputable def pmZd2deltaadc (zd : ℝ) : ℝ :=
  let zd := min zd 60
  let t := Real.tan (radians zd)
  let A := -0.0183 + -0.3795 * t + -0.1939 * t ^ 2
  2 * degrees A

/-- `pm_latitude` (line 72). -/
noncomputable def pmLatitude : ℝ := 31.9634

/-- `pm_get_adc_angles` (lines 68-81). -/
noncomputable def pmGetAdcAngles (ha dec : ℝ) : ℝ × ℝ :=
  let zd := pmZd ha dec pmLatitude
  let psi := pmPsi ha dec pmLatitude
  let dadc := pmZd2deltaadc zd
  (psi + dadc / 2, psi - dadc / 2)

/-- The argument check and the default angles (lines 111-115 and 201-205). -/
noncomputable def adcAngles (tileHa tileDec : ℝ) (adc1 adc2 : Option ℝ) : Except PyErr (ℝ × ℝ) :=
  match adc1, adc2 with
  | none, none => .ok (pmGetAdcAngles tileHa tileDec)
  | some a, some b => .ok (a, b)
  | _, _ => .error .valueError

/-! ## pointing -/

/-- Everything that is fixed during one call: the fit, the switch
`use_hardcoded_polmis_rotmat`, date and local sidereal time. -/
structure Env where
  fit : RayTraceFit
  hardcoded : Bool
  mjd : ℝ
  lst : ℝ

/-- The switches of `radec2tan` in all calls of this file: defaults except for the last. -/
def Env.sw (e : Env) : Switches := ⟨true, true, true, e.hardcoded⟩

/-- `radec2tan` followed by `tan2fp` on an array (lines 125-126, 157-158), `hexrot_deg=0`. -/
noncomputable def Env.sky2fp (e : Env) (adc tel : ℝ × ℝ) (sky : List (ℝ × ℝ)) :
    Except PyErr (List (ℝ × ℝ)) :=
  e.fit.tan2fp (sky.map fun p => radec2tan e.sw p tel e.mjd e.lst 0) adc.1 adc.2

/-- `fp2tan` followed by `tan2radec` (lines 238-239, 251-252). -/
noncomputable def Env.fp2sky (e : Env) (adc tel : ℝ × ℝ) (pts : List (ℝ × ℝ)) :
    Except PyErr (List (ℝ × ℝ)) := do
  let t ← e.fit.fp2tan pts adc.1 adc.2
  return t.map fun q => tan2radec e.sw q tel e.mjd e.lst 0

/-- The same for an array of one point, reading element 0. -/
noncomputable def Env.sky2fp1 (e : Env) (adc tel p : ℝ × ℝ) : Except PyErr (ℝ × ℝ) := do
  let l ← e.sky2fp adc tel [p]
  getIdx l 0

/-- One pass of the loop that tunes the pointing (lines 123-149; the same lines again as
213-239 in the inverse routine). -/
noncomputable def Env.tuneStep (e : Env) (adc tile tel : ℝ × ℝ) : Except PyErr (ℝ × ℝ) := do
  let f0 ← e.sky2fp1 adc tel tile
  let eps : ℝ := 1 / 3600
  let fr ← e.sky2fp1 adc tel (tile.1 + eps, tile.2)
  let fd ← e.sky2fp1 adc tel (tile.1, tile.2 + eps)
  let J := !![(fr.1 - f0.1) / eps, (fd.1 - f0.1) / eps; (fr.2 - f0.2) / eps, (fd.2 - f0.2) / eps]
  let Jinv ← linInv J
  let X := Jinv.mulVec ![f0.1, f0.2]
  return (tel.1 + X 0, tel.2 + X 1)

/-- The tuned pointing (lines 117-149). -/
noncomputable def Env.tune (e : Env) (adc tile : ℝ × ℝ) : Except PyErr (ℝ × ℝ) := do
  let tel ← e.tuneStep adc tile tile
  e.tuneStep adc tile tel

/-! ## field rotation -/

/-- The summand of the mean (lines 34-35) for a sky position (hour angle, dec) and a focal
plane point; `0/0` (position exactly at the tile centre) is NaN. -/
noncomputable def rotTerm (tel : ℝ × ℝ) (q : (ℝ × ℝ) × (ℝ × ℝ)) : Except PyErr ℝ :=
  let s := hadec2xy q.1 tel
  let d := Real.sqrt ((q.2.1 ^ 2 + q.2.2 ^ 2) * (s.1 ^ 2 + s.2 ^ 2))
  if d = 0 then .error .nanResult else .ok ((q.2.2 * s.1 - q.2.1 * s.2) / d)

open Classical in
/-- `_measure_fieldrot_deg` (lines 31-35), with the negated right ascensions formed by its
callers.  The mean of no points is NaN. -/
noncomputable def measureFieldrot (tile : ℝ × ℝ) (sky fp : List (ℝ × ℝ)) : Except PyErr ℝ := do
  let sel := (sky.zip fp).filter fun q => 10 ^ 2 < q.2.1 ^ 2 + q.2.2 ^ 2
  let v ← sel.mapM fun q => rotTerm (-tile.1, tile.2) ((-q.1.1, q.1.2), q.2)
  if v = [] then .error .nanResult else return degrees (mean v)

/-- Rotation of the focal plane points to the requested field rotation (lines 160-166). -/
noncomputable def rotateTo (tile : ℝ × ℝ) (sky tmp : List (ℝ × ℝ)) (fieldrot : ℝ) :
    Except PyErr (List (ℝ × ℝ)) := do
  let rot ← measureFieldrot tile sky tmp
  let drot := fieldrot - rot
  return tmp.map fun p => (cosd drot * p.1 - sind drot * p.2, sind drot * p.1 + cosd drot * p.2)

/-! ## the four public routines -/

/-- `fiberassign_radec2xy_cs5` (lines 83-172); `pm` is the `DM2PM` object if `to_platemaker`. -/
noncomputable def radec2xyCs5 (t : RayTraceFit) (pm : Option DM2PM) (hardcoded : Bool) (ra dec : List ℝ)
    (tile : ℝ × ℝ) (mjd tileHa fieldrot : ℝ) (adc1 adc2 : Option ℝ) : Except PyErr (List (ℝ × ℝ)) := do
  if ra.length ≠ dec.length then throw .assertionError
  let e : Env := ⟨t, hardcoded, mjd, tileHa + tile.1⟩
  let adc ← adcAngles tileHa tile.2 adc1 adc2
  let tel ← e.tune adc tile
  let sky := ra.zip dec
  let tmp ← e.sky2fp adc tel sky
  let tmp ← match pm with
    | some m => m.dm2pm tmp
    | none => pure tmp
  rotateTo tile sky tmp fieldrot

/-- `fiberassign_cs5_xy2radec` (lines 174-261); `pm` is the `DM2PM` object if
`from_platemaker`. -/
noncomputable def cs5Xy2radec (t : RayTraceFit) (pm : Option DM2PM) (hardcoded : Bool) (x y : List ℝ)
    (tile : ℝ × ℝ) (mjd tileHa fieldrot : ℝ) (adc1 adc2 : Option ℝ) : Except PyErr (List (ℝ × ℝ)) := do
  if x.length ≠ y.length then throw .assertionError
  let e : Env := ⟨t, hardcoded, mjd, tileHa + tile.1⟩
  let adc ← adcAngles tileHa tile.2 adc1 adc2
  let tel ← e.tune adc tile
  let fp ← match pm with
    | some m => m.pm2dm (x.zip y)
    | none => pure (x.zip y)
  let tmp ← e.fp2sky adc tel fp
  let rot ← measureFieldrot tile tmp fp
  let drot := fieldrot - rot
  e.fp2sky adc tel
    (fp.map fun p => (cosd drot * p.1 + sind drot * p.2, -sind drot * p.1 + cosd drot * p.2))

/-- `fiberassign_radec2xy_flat` (lines 264-287). -/
noncomputable def radec2xyFlat (t : RayTraceFit) (pm : Option DM2PM) (hardcoded : Bool) (ra dec : List ℝ)
    (tile : ℝ × ℝ) (mjd tileHa fieldrot : ℝ) (adc1 adc2 : Option ℝ) : Except PyErr (List (ℝ × ℝ)) := do
  let p ← radec2xyCs5 t pm hardcoded ra dec tile mjd tileHa fieldrot adc1 adc2
  return p.map fun q => ptl2flat q.1 q.2

/-- `fiberassign_flat_xy2radec` (lines 291-310).  `flat2ptl` broadcasts, so arrays of
different sizes raise `ValueError` already there, or a size 1 array is repeated. -/
noncomputable def flatXy2radec (t : RayTraceFit) (pm : Option DM2PM) (hardcoded : Bool) (x y : List ℝ)
    (tile : ℝ × ℝ) (mjd tileHa fieldrot : ℝ) (adc1 adc2 : Option ℝ) : Except PyErr (List (ℝ × ℝ)) := do
  let p ← bcast2 (fun a b => flat2ptl a b) x y
  cs5Xy2radec t pm hardcoded (p.map Prod.fst) (p.map Prod.snd) tile mjd tileHa fieldrot adc1 adc2

end Verif.Model.Fiberassign
