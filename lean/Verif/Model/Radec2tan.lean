import Verif.Model.Trig

/-!
# Model of `py/desimeter/transform/radec2tan.py`

The branches with `use_astropy=True` and the logging calls are not modelled.
Array arguments behave element by element, so one target is modelled.
-/

namespace Verif.Model.Radec2tan
open Verif.Py Verif.Model.Trig

/-! ## constants (radec2tan.py lines 40-51) -/
noncomputable def OBLIQ : ℝ := 23.439279444444445
noncomputable def DAYS_PER_YEAR : ℝ := 365.256363004
noncomputable def PRECESSION_PERIOD_IN_YEARS : ℝ := 25771.5753382206
noncomputable def ICRS_MJD : ℝ := 51544.5
noncomputable def LATITUDE : ℝ := 31.96403
noncomputable def REFRACTION_AT_30DEG_ELEVATION : ℝ := 79
noncomputable def MA_ARCSEC : ℝ := -2
noncomputable def ME_ARCSEC : ℝ := -120

/-- A 3x3 numpy array, by rows. -/
@[ext] structure M3 where
  r0 : V3
  r1 : V3
  r2 : V3

/-- Inner product of two 3-vectors. -/
noncomputable def dot (a b : V3) : ℝ := a.x * b.x + a.y * b.y + a.z * b.z

/-- `M.dot(v)`. -/
noncomputable def M3.app (m : M3) (v : V3) : V3 := ⟨dot m.r0 v, dot m.r1 v, dot m.r2 v⟩

/-- `np.cross`. -/
noncomputable def cross (a b : V3) : V3 :=
  ⟨a.y * b.z - a.z * b.y, a.z * b.x - a.x * b.z, a.x * b.y - a.y * b.x⟩

/-- Scalar times vector. -/
noncomputable def smul (k : ℝ) (a : V3) : V3 := ⟨k * a.x, k * a.y, k * a.z⟩
/-- Sum of vectors. -/
noncomputable def vadd (a b : V3) : V3 := ⟨a.x + b.x, a.y + b.y, a.z + b.z⟩

/-- `getLONLAT` (radec2tan.py lines 97-100). -/
noncomputable def getLONLAT (v : V3) : ℝ × ℝ :=
  let n := getNormalized v
  (arctan2d n.y n.x, arcsind n.z)

/-- `vecX` (lines 102-104). -/
noncomputable def vecX (a : ℝ) : M3 := ⟨⟨1, 0, 0⟩, ⟨0, cosd a, -sind a⟩, ⟨0, sind a, cosd a⟩⟩
/-- `vecZ` (lines 111-113). -/
noncomputable def vecZ (a : ℝ) : M3 := ⟨⟨cosd a, -sind a, 0⟩, ⟨sind a, cosd a, 0⟩, ⟨0, 0, 1⟩⟩
/-- `refX` (lines 115-116). -/
noncomputable def refX (a : ℝ) : M3 := vecX (-a)

/-- `radec2eclip` (lines 124-127). -/
noncomputable def radec2eclip (p : ℝ × ℝ) : ℝ × ℝ := getLONLAT ((refX OBLIQ).app (getXYZ p.1 p.2))

/-- `eclip2radec` (lines 129-132). -/
noncomputable def eclip2radec (p : ℝ × ℝ) : ℝ × ℝ := getLONLAT ((refX (-OBLIQ)).app (getXYZ p.1 p.2))

/-- `apply_precession` (lines 134-149). -/
noncomputable def applyPrecession (p : ℝ × ℝ) (years : ℝ) : ℝ × ℝ :=
  let deltaELON := 360 * (years / PRECESSION_PERIOD_IN_YEARS)
  let ll := radec2eclip p
  let ll' := getLONLAT ((vecZ deltaELON).app (getXYZ ll.1 ll.2))
  eclip2radec ll'

/-- `apply_precession_from_icrs`, `use_astropy=False` (lines 151-175). -/
noncomputable def applyPrecessionFromIcrs (p : ℝ × ℝ) (mjd : ℝ) : ℝ × ℝ :=
  applyPrecession p ((mjd - ICRS_MJD) / DAYS_PER_YEAR)

/-- `undo_precession_from_icrs`, `use_astropy=False` (lines 177-207). -/
noncomputable def undoPrecessionFromIcrs (p : ℝ × ℝ) (mjd : ℝ) : ℝ × ℝ :=
  applyPrecession p ((ICRS_MJD - mjd) / DAYS_PER_YEAR)

/-- `getSunLon` (lines 209-216). -/
noncomputable def getSunLon (mjd : ℝ) : ℝ :=
  let days := mjd - 51544.5
  let mean := 280.460 + 0.9856474 * days
  let anom := 357.528 + 0.9856003 * days
  put360 (mean + 1.915 * sind anom + 0.020 * sind (2 * anom))

/-- `compute_aberration` (lines 218-239). -/
noncomputable def computeAberration (p : ℝ × ℝ) (mjd magnif : ℝ) : ℝ × ℝ :=
  let speed : ℝ := 0.99365E-4
  let apex := getXYZ (getSunLon mjd - 90) 0
  let target := getXYZ p.1 p.2
  let VxT := cross apex target
  let TxVxT := cross target VxT
  let aber := smul speed TxVxT
  let plot := vadd target (smul magnif aber)
  getLONLAT (getNormalized plot)

/-- `apply_aberration`, `use_astropy=False` (lines 241-268). -/
noncomputable def applyAberration (p : ℝ × ℝ) (mjd : ℝ) : ℝ × ℝ :=
  eclip2radec (computeAberration (radec2eclip p) mjd 1)

/-- `undo_aberration` (lines 270-284). -/
noncomputable def undoAberration (p : ℝ × ℝ) (mjd : ℝ) : ℝ × ℝ :=
  let q := applyAberration p mjd
  (2 * p.1 - q.1, 2 * p.2 - q.2)

/-- `apply_refraction` (lines 286-297).  At the zenith `tand(90)` is 0 in ℝ with
`x/0 = 0`, which agrees with the code, where `tan(pi/2)` is 1.6e16. -/
noncomputable def applyRefraction (alt : ℝ) : ℝ :=
  alt + REFRACTION_AT_30DEG_ELEVATION / 3600 * tand 30 / tand alt

/-- One pass of the loop in `undo_refraction` (lines 311-315) on `(alt, daprev)`. -/
noncomputable def undoRefractionStep (s : ℝ × ℝ) : ℝ × ℝ :=
  let da := applyRefraction s.1 - s.1
  let dda := da - s.2
  (s.1 - dda, da)

/-- `undo_refraction` (lines 299-316). -/
noncomputable def undoRefraction (alt : ℝ) : ℝ :=
  ((List.range 2).foldl (fun s _ => undoRefractionStep s) (alt, 0)).1

/-- `hadec2altaz` (lines 337-358); returns `(alt, az)`. -/
noncomputable def hadec2altaz (p : ℝ × ℝ) : ℝ × ℝ :=
  let x := -cosd p.1 * cosd p.2 * sind LATITUDE + sind p.2 * cosd LATITUDE
  let y := -sind p.1 * cosd p.2
  let z := cosd p.1 * cosd p.2 * cosd LATITUDE + sind p.2 * sind LATITUDE
  let r := hypot x y
  (arctan2d z r, arctan2d y x)

/-- `altaz2hadec` (lines 360-377); argument `(alt, az)`. -/
noncomputable def altaz2hadec (p : ℝ × ℝ) : ℝ × ℝ :=
  (arctan2d (-sind p.2 * cosd p.1) (-cosd p.2 * sind LATITUDE * cosd p.1 + sind p.1 * cosd LATITUDE),
   arcsind (sind LATITUDE * sind p.1 + cosd LATITUDE * cosd p.1 * cosd p.2))

/-- `hadec2xy` (lines 380-401); `p` and `tel` are (ha, dec). -/
noncomputable def hadec2xy (p tel : ℝ × ℝ) : ℝ × ℝ :=
  let xyz := getXYZ p.1 p.2
  let rh : M3 := ⟨⟨cosd tel.1, sind tel.1, 0⟩, ⟨-sind tel.1, cosd tel.1, 0⟩, ⟨0, 0, 1⟩⟩
  let rd : M3 := ⟨⟨sind tel.2, 0, -cosd tel.2⟩, ⟨0, 1, 0⟩, ⟨cosd tel.2, 0, sind tel.2⟩⟩
  let tmp := rd.app (rh.app xyz)
  (tmp.y, -tmp.x)

/-- `xy2hadec` (lines 403-421); NaN for points outside the unit disc is not modelled. -/
noncomputable def xy2hadec (q tel : ℝ × ℝ) : ℝ × ℝ :=
  let rh : M3 := ⟨⟨cosd tel.1, -sind tel.1, 0⟩, ⟨sind tel.1, cosd tel.1, 0⟩, ⟨0, 0, 1⟩⟩
  let rd : M3 := ⟨⟨sind tel.2, 0, cosd tel.2⟩, ⟨0, 1, 0⟩, ⟨-cosd tel.2, 0, sind tel.2⟩⟩
  let z := Real.sqrt (1 - q.1 ^ 2 - q.2 ^ 2)
  getLONLAT (rh.app (rd.app ⟨-q.2, q.1, z⟩))

/-- `rotation_matrix` (lines 423-430). -/
noncomputable def rotationMatrix (u : V3) (theta : ℝ) : M3 :=
  let ct := Real.cos theta
  let st := Real.sin theta
  ⟨⟨ct + st * 0 + (1 - ct) * (u.x * u.x), st * (-u.z) + (1 - ct) * (u.x * u.y),
     st * u.y + (1 - ct) * (u.x * u.z)⟩,
   ⟨st * u.z + (1 - ct) * (u.y * u.x), ct + st * 0 + (1 - ct) * (u.y * u.y),
     st * (-u.x) + (1 - ct) * (u.y * u.z)⟩,
   ⟨st * (-u.y) + (1 - ct) * (u.z * u.x), st * u.x + (1 - ct) * (u.z * u.y),
     ct + st * 0 + (1 - ct) * (u.z * u.z)⟩⟩

/-- Identity matrix `np.eye(3)`. -/
def eye3 : M3 := ⟨⟨1, 0, 0⟩, ⟨0, 1, 0⟩, ⟨0, 0, 1⟩⟩

/-- The part of `compute_polar_misalignment_rotation_matrix` after the two axes
are known (lines 327-335). -/
noncomputable def axisToAxis (xyz1 xyz2 : V3) : M3 :=
  let c := cross xyz1 xyz2
  let norme := getNorm c
  if norme > 0 then rotationMatrix ⟨c.x / norme, c.y / norme, c.z / norme⟩ (Real.arcsin norme)
  else eye3

/-- `compute_polar_misalignment_rotation_matrix` (lines 318-335). -/
noncomputable def polarMisalignment (me ma : ℝ) : M3 :=
  let p1 := altaz2hadec (LATITUDE - me / 3600, ma / 3600)
  let xyz1 := getXYZ p1.1 p1.2
  let p2 := altaz2hadec (LATITUDE, 0)
  let xyz2 := getXYZ p2.1 p2.2
  axisToAxis xyz1 xyz2

/-- `get_hardcoded_polmis_rotmat` (lines 53-95). -/
noncomputable def hardcodedPolmis (inverse : Bool) : M3 :=
  if inverse then
    ⟨⟨0.999999830768117, -2.3937526308217525e-09, 0.000581776363551133⟩,
     ⟨-2.393752630820745e-09, 0.9999999999661409, 8.229115440922047e-06⟩,
     ⟨-0.000581776363551133, -8.229115440922047e-06, 0.9999998307342579⟩⟩
  else
    ⟨⟨0.9999998307680928, -2.39201543887982e-09, -0.0005817764052553344⟩,
     ⟨-2.392015438880827e-09, 0.9999999999661899, -8.223142825420777e-06⟩,
     ⟨0.0005817764052553344, 8.223142825420777e-06, 0.9999998307342828⟩⟩

/-- The switches of `radec2tan` / `tan2radec`. -/
structure Switches where
  precession : Bool
  aberration : Bool
  polarMisalignment : Bool
  hardcoded : Bool

/-- The polar misalignment matrix selected by the switches (lines 474-477 and 542-545). -/
noncomputable def polmis (sw : Switches) : M3 :=
  if sw.hardcoded then hardcodedPolmis false else polarMisalignment ME_ARCSEC MA_ARCSEC

/-- The matrix used on the way back (lines 574-577). -/
noncomputable def polmisInv (sw : Switches) : M3 :=
  if sw.hardcoded then hardcodedPolmis true else polarMisalignment (-ME_ARCSEC) (-MA_ARCSEC)

/-- Precession and aberration of a position (lines 459-466; the code applies the
same two lines to the target and to the pointing). -/
noncomputable def apparent (sw : Switches) (mjd : ℝ) (p : ℝ × ℝ) : ℝ × ℝ :=
  let p := if sw.precession then applyPrecessionFromIcrs p mjd else p
  if sw.aberration then applyAberration p mjd else p

/-- (ha, dec) after the polar misalignment, before refraction (lines 468-484). -/
noncomputable def mount (sw : Switches) (lst : ℝ) (p : ℝ × ℝ) : ℝ × ℝ :=
  let h := (lst - p.1, p.2)
  if sw.polarMisalignment then getLONLAT ((polmis sw).app (getXYZ h.1 h.2)) else h

/-- Refraction of (ha, dec) through altitude (lines 486-496). -/
noncomputable def refract (h : ℝ × ℝ) : ℝ × ℝ :=
  let aa := hadec2altaz h
  altaz2hadec (applyRefraction aa.1, aa.2)

/-- `radec2tan` (lines 432-504). -/
noncomputable def radec2tan (sw : Switches) (p tel : ℝ × ℝ) (mjd lst hexrot : ℝ) : ℝ × ℝ :=
  let p := apparent sw mjd p
  let tel := apparent sw mjd tel
  let h := mount sw lst p
  let telh := mount sw lst tel
  let h := refract h
  let telh := refract telh
  let xy := hadec2xy h telh
  (cosd hexrot * xy.1 - sind hexrot * xy.2, sind hexrot * xy.1 + cosd hexrot * xy.2)

/-- `tan2radec` (lines 506-594). -/
noncomputable def tan2radec (sw : Switches) (q tel : ℝ × ℝ) (mjd lst hexrot : ℝ) : ℝ × ℝ :=
  let x := cosd hexrot * q.1 + sind hexrot * q.2
  let y := -sind hexrot * q.1 + cosd hexrot * q.2
  let tel := apparent sw mjd tel
  let telh := mount sw lst tel
  let telh := refract telh
  let h := xy2hadec (x, y) telh
  let aa := hadec2altaz h
  let h := altaz2hadec (undoRefraction aa.1, aa.2)
  let h := if sw.polarMisalignment then getLONLAT ((polmisInv sw).app (getXYZ h.1 h.2)) else h
  let p := (lst - h.1, h.2)
  let p := if sw.aberration then undoAberration p mjd else p
  if sw.precession then undoPrecessionFromIcrs p mjd else p

end Verif.Model.Radec2tan
