import Verif.Py.Real

/-!
# Model of `py/desimeter/trig.py` and `py/desimeter/time.py`
-/

namespace Verif.Model.Trig
open Verif.Py

/-- `sind` (trig.py lines 7-8). -/
noncomputable def sind (a : ℝ) : ℝ := Real.sin (radians a)
/-- `cosd` (trig.py lines 10-11). -/
noncomputable def cosd (a : ℝ) : ℝ := Real.cos (radians a)
/-- `tand` (trig.py lines 22-23). -/
noncomputable def tand (a : ℝ) : ℝ := Real.tan (radians a)
/-- `put360` (trig.py lines 25-26). -/
noncomputable def put360 (a : ℝ) : ℝ := fmod a 360
/-- `arctan2d` (trig.py lines 28-29). -/
noncomputable def arctan2d (y x : ℝ) : ℝ := put360 (degrees (atan2 y x))
/-- `arcsind` (trig.py lines 31-32). -/
noncomputable def arcsind (x : ℝ) : ℝ := degrees (Real.arcsin x)

/-- A 3-vector (numpy array of length 3). -/
@[ext] structure V3 where
  x : ℝ
  y : ℝ
  z : ℝ

/-- `getXYZ` (trig.py lines 34-35). -/
noncomputable def getXYZ (lon lat : ℝ) : V3 :=
  ⟨cosd lon * cosd lat, sind lon * cosd lat, sind lat⟩

/-- `getNorm` (trig.py lines 37-38). -/
noncomputable def getNorm (v : V3) : ℝ := Real.sqrt (v.x ^ 2 + v.y ^ 2 + v.z ^ 2)

/-- `getNormalized` (trig.py lines 40-41); numpy division by zero is not modelled. -/
noncomputable def getNormalized (v : V3) : V3 :=
  ⟨v.x / getNorm v, v.y / getNorm v, v.z / getNorm v⟩

/-- `average_angles_deg` (trig.py lines 43-49). -/
noncomputable def averageAnglesDeg (a1 a2 : ℝ) : ℝ :=
  arctan2d (sind a1 + sind a2) (cosd a1 + cosd a2)

/-- `mjd2lst` (time.py lines 1-38). -/
noncomputable def mjd2lst (mjd : ℝ) : ℝ :=
  let longitude : ℝ := -111.59989
  let jd := mjd + 2400000.5
  let jd2000 : ℝ := 2451545
  let t0 := jd - jd2000
  let t := t0 / 36525
  let theta := 280.46061837 + 360.98564736629 * t0 + t ^ 2 * (0.000387933 - t / 38710000)
  fmod (theta + longitude - 0.16035388) 360

end Verif.Model.Trig
