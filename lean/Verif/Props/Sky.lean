import Verif.Lemmas.Refraction

/-!
# Properties C14-C18: rotations of the sky (`transform/radec2tan.py`)

Positions are `(longitude, latitude)` pairs in degrees; `hadec2altaz` returns
`(alt, az)`, so its result is swapped where it is used as a position.
-/

namespace Verif.Props
open Verif.Py Verif.Model.Trig Verif.Model.Radec2tan Verif.Spec Verif.Lemmas.Trig Verif.Lemmas.Sky

/-! ## C14 -/

theorem C14_inverse (p : ℝ × ℝ) :
    skyDir (eclip2radec (radec2eclip p)) = skyDir p ∧
    skyDir (radec2eclip (eclip2radec p)) = skyDir p := by
  rw [skyDir_iff, skyDir_iff, xyz_radec, xyz_eclip, xyz_eclip, xyz_radec, vecX_inv]
  have h := vecX_inv (-OBLIQ) (xyz p)
  rw [neg_neg] at h
  exact ⟨h, rfl⟩

/-- C14: away from the poles the coordinates themselves come back (RA mod 360). -/
theorem C14_inverse_coordinates (p : ℝ × ℝ) (h0 : -90 < p.2) (h1 : p.2 < 90) :
    eclip2radec (radec2eclip p) = (put360 p.1, p.2) ∧
    radec2eclip (eclip2radec p) = (put360 p.1, p.2) := by
  have h := C14_inverse p
  rw [skyDir_iff, skyDir_iff] at h
  exact ⟨coords_of_dir h.1 (lonlat_range _) h0 h1, coords_of_dir h.2 (lonlat_range _) h0 h1⟩

theorem C14_range (p : ℝ × ℝ) : SkyRange (radec2eclip p) ∧ SkyRange (eclip2radec p) :=
  ⟨lonlat_range _, lonlat_range _⟩

/-- C14: separations and handedness are preserved. -/
theorem C14_rotation (p q r : ℝ × ℝ) :
    cosSep (radec2eclip p) (radec2eclip q) = cosSep p q ∧
    handed (radec2eclip p) (radec2eclip q) (radec2eclip r) = handed p q r := by
  constructor
  · rw [cosSep_eq, cosSep_eq, xyz_eclip, xyz_eclip, (vecX_orth _).dot]
  · have e : ∀ a b c, handed a b c = dot (xyz a) (cross (xyz b) (xyz c)) := fun a b c => by
      unfold handed; rw [skyDir_eq, skyDir_eq, skyDir_eq]; rfl
    rw [e, e, xyz_eclip, xyz_eclip, xyz_eclip, (vecX_orth _).det]

/-- C14: which rotation it is: the equinox is fixed and the point 90° from it on
the equator gets ecliptic latitude -OBLIQ (so the north ecliptic pole is at
RA 270°, Dec 90° - OBLIQ). -/
theorem C14_sense : radec2eclip (0, 0) = (0, 0) ∧
    radec2eclip (90, 0) = (90, -23.439279444444445) := by
  have ho : OBLIQ = 23.439279444444445 := rfl
  constructor
  · have h : xyz (radec2eclip (0, 0)) = xyz (0, 0) := by
      rw [xyz_eclip]
      unfold vecX M3.app dot xyz getXYZ
      rw [cosd_zero, sind_zero]; simp
    have := coords_of_dir h (lonlat_range _) (by norm_num) (by norm_num)
    rw [this]; simp [put360, fmod]
  · have h : xyz (radec2eclip (90, 0)) = xyz (90, -OBLIQ) := by
      rw [xyz_eclip]
      unfold vecX M3.app dot xyz getXYZ
      rw [cosd_90, sind_90, cosd_zero, sind_zero]; simp
    have := coords_of_dir h (lonlat_range _) (by rw [ho]; norm_num) (by rw [ho]; norm_num)
    rw [this, put360_id (by norm_num) (by norm_num), ho]

/-! ## C15 -/

theorem C15_composes (p : ℝ × ℝ) (y1 y2 : ℝ) :
    skyDir (applyPrecession (applyPrecession p y1) y2) = skyDir (applyPrecession p (y1 + y2)) := by
  rw [skyDir_iff]; exact xyz_precession_add p y1 y2

theorem xyz_icrs_inverse (p : ℝ × ℝ) (mjd : ℝ) :
    xyz (undoPrecessionFromIcrs (applyPrecessionFromIcrs p mjd) mjd) = xyz p ∧
    xyz (applyPrecessionFromIcrs (undoPrecessionFromIcrs p mjd) mjd) = xyz p := by
  unfold undoPrecessionFromIcrs applyPrecessionFromIcrs
  rw [xyz_precession_add, xyz_precession_add]
  constructor
  · rw [show (mjd - ICRS_MJD) / DAYS_PER_YEAR + (ICRS_MJD - mjd) / DAYS_PER_YEAR = 0 by ring]
    exact xyz_precession_zero p
  · rw [show (ICRS_MJD - mjd) / DAYS_PER_YEAR + (mjd - ICRS_MJD) / DAYS_PER_YEAR = 0 by ring]
    exact xyz_precession_zero p

/-- C15: precessing to a date and back gives the same direction, and the same
coordinates away from the poles. -/
theorem C15_inverse (p : ℝ × ℝ) (mjd : ℝ) :
    skyDir (undoPrecessionFromIcrs (applyPrecessionFromIcrs p mjd) mjd) = skyDir p ∧
    skyDir (applyPrecessionFromIcrs (undoPrecessionFromIcrs p mjd) mjd) = skyDir p ∧
    (-90 < p.2 → p.2 < 90 →
      undoPrecessionFromIcrs (applyPrecessionFromIcrs p mjd) mjd = (put360 p.1, p.2)) := by
  have h := xyz_icrs_inverse p mjd
  rw [skyDir_iff, skyDir_iff]
  exact ⟨h.1, h.2, fun h0 h1 => coords_of_dir h.1 (lonlat_range _) h0 h1⟩

/-- C15: separations and handedness are preserved. -/
theorem C15_rotation (p q r : ℝ × ℝ) (y : ℝ) :
    cosSep (applyPrecession p y) (applyPrecession q y) = cosSep p q ∧
    handed (applyPrecession p y) (applyPrecession q y) (applyPrecession r y) = handed p q r := by
  constructor
  · rw [cosSep_eq, cosSep_eq, xyz_precession, xyz_precession, (vecX_orth _).dot, (vecZ_orth _).dot,
      (vecX_orth _).dot]
  · have e : ∀ a b c, handed a b c = dot (xyz a) (cross (xyz b) (xyz c)) := fun a b c => by
      unfold handed; rw [skyDir_eq, skyDir_eq, skyDir_eq]; rfl
    rw [e, e, xyz_precession, xyz_precession, xyz_precession, (vecX_orth _).det,
      (vecZ_orth _).det, (vecX_orth _).det]

/-- C15: ecliptic latitudes are kept and ecliptic longitudes grow at 360° per
25771.5753382206 years. -/
theorem C15_rate (p : ℝ × ℝ) (y : ℝ) (h0 : -90 < (radec2eclip p).2) (h1 : (radec2eclip p).2 < 90) :
    radec2eclip (applyPrecession p y) =
      (put360 ((radec2eclip p).1 + 360 * y / 25771.5753382206), (radec2eclip p).2) := by
  have h : xyz (radec2eclip (applyPrecession p y)) =
      xyz ((radec2eclip p).1 + 360 * y / 25771.5753382206, (radec2eclip p).2) := by
    rw [xyz_eclip, xyz_precession, vecX_inv, ← xyz_eclip]
    generalize radec2eclip p = e
    unfold vecZ M3.app dot xyz getXYZ
    have : 360 * (y / PRECESSION_PERIOD_IN_YEARS) = 360 * y / 25771.5753382206 := by
      unfold PRECESSION_PERIOD_IN_YEARS; ring
    rw [this]
    simp only [cosd_add, sind_add]
    apply V3.ext <;> simp only <;> ring
  exact coords_of_dir h (lonlat_range _) h0 h1

/-- C15: at J2000 (MJD 51544.5) nothing moves, and the rate per day is fixed. -/
theorem C15_epoch (p : ℝ × ℝ) (mjd : ℝ) :
    skyDir (applyPrecessionFromIcrs p 51544.5) = skyDir p ∧
    applyPrecessionFromIcrs p mjd = applyPrecession p ((mjd - 51544.5) / 365.256363004) := by
  refine ⟨?_, rfl⟩
  rw [skyDir_iff]
  have := xyz_precession_zero p
  unfold applyPrecessionFromIcrs ICRS_MJD
  rw [sub_self, zero_div]; exact this

/-! ## C16 -/

/-- C16: both orders of the horizon conversions keep the direction. -/
theorem C16_inverse (p : ℝ × ℝ) :
    skyDir (altaz2hadec (hadec2altaz p)) = skyDir p ∧
    skyDir ((hadec2altaz (altaz2hadec (p.2, p.1))).2, (hadec2altaz (altaz2hadec (p.2, p.1))).1) = skyDir p := by
  rw [skyDir_iff, skyDir_iff]
  constructor
  · rw [xyz_hadec, xyz_altaz, horizon_self]
  · rw [xyz_altaz, xyz_hadec, horizon_self]

/-- C16: coordinates come back: hour angle modulo 360 and declination. -/
theorem C16_inverse_coordinates (p : ℝ × ℝ) (h0 : -90 < p.2) (h1 : p.2 < 90) :
    altaz2hadec (hadec2altaz p) = (put360 p.1, p.2) := by
  have h := (C16_inverse p).1
  rw [skyDir_iff] at h
  exact coords_of_dir h ⟨(put360_range _).1, (put360_range _).2, (arcsind_range _).1,
    (arcsind_range _).2⟩ h0 h1

/-- C16: the conversions are isometries of the sphere that send the pole to the
north point at altitude = latitude (31.96403°), the meridian point of declination
= latitude to the zenith, and the west point of the equator (hour angle 90°) to
azimuth 270°, altitude 0; these values determine them. -/
theorem C16_geometry (p q : ℝ × ℝ) (a : ℝ) :
    cosSep ((hadec2altaz p).2, (hadec2altaz p).1) ((hadec2altaz q).2, (hadec2altaz q).1) = cosSep p q ∧
    cosSep (altaz2hadec p) (altaz2hadec q) = cosSep (p.2, p.1) (q.2, q.1) ∧
    skyDir ((hadec2altaz (a, 90)).2, (hadec2altaz (a, 90)).1) = skyDir (0, 31.96403) ∧
    skyDir ((hadec2altaz (0, 31.96403)).2, (hadec2altaz (0, 31.96403)).1) = skyDir (a, 90) ∧
    skyDir ((hadec2altaz (90, 0)).2, (hadec2altaz (90, 0)).1) = skyDir (270, 0) := by
  have hl : LATITUDE = 31.96403 := rfl
  have hs := sq_cosd_sind LATITUDE
  refine ⟨?_, ?_, ?_, ?_, ?_⟩
  · rw [cosSep_eq, cosSep_eq, xyz_altaz, xyz_altaz, horizon_dot]
  · rw [cosSep_eq, cosSep_eq, xyz_hadec, xyz_hadec, horizon_dot]
  · rw [skyDir_iff, xyz_altaz, ← hl]
    unfold horizon M3.app dot xyz getXYZ
    rw [cosd_90, sind_90, cosd_zero, sind_zero]
    apply V3.ext <;> simp
  · rw [skyDir_iff, xyz_altaz, ← hl]
    unfold horizon M3.app dot xyz getXYZ
    rw [cosd_90, sind_90, cosd_zero, sind_zero]
    apply V3.ext <;> simp
    · ring
    · linear_combination hs
  · rw [skyDir_iff, xyz_altaz]
    unfold horizon M3.app dot xyz getXYZ
    rw [cosd_90, sind_90, cosd_zero, sind_zero, cosd_270, sind_270]
    apply V3.ext <;> simp

/-- C16: the altitude is returned in [0,90] above the horizon and in [270,360)
below it. -/
theorem C16_altitude_range (p : ℝ × ℝ) :
    (0 ≤ (hadec2altaz p).1 ∧ (hadec2altaz p).1 ≤ 90) ∨
    (270 ≤ (hadec2altaz p).1 ∧ (hadec2altaz p).1 < 360) := by
  have hr : 0 ≤ (hadec2altaz p).1 ∧ (hadec2altaz p).1 < 360 := put360_range _
  have hc : 0 ≤ cosd (hadec2altaz p).1 := by
    have h := horizon_unit (xyz_unit p)
    rw [horizon_xyz] at h
    generalize ha : -cosd p.1 * cosd p.2 * sind LATITUDE + sind p.2 * cosd LATITUDE = x at h
    generalize hb : -sind p.1 * cosd p.2 = y at h
    generalize hd : cosd p.1 * cosd p.2 * cosd LATITUDE + sind p.2 * sind LATITUDE = z at h
    have c1 := cosd_arctan2d (hypot x y) z
    have hh : hypot (hypot x y) z = 1 := by
      unfold hypot Unit3 at *
      rw [Real.sq_sqrt (by positivity), h, Real.sqrt_one]
    rw [hh, one_mul] at c1
    have e : (hadec2altaz p).1 = arctan2d z (hypot x y) := by
      unfold hadec2altaz; simp only [ha, hb, hd]
    rw [e, c1]; exact hypot_nonneg _ _
  by_contra hcon
  rw [not_or, not_and, not_and, not_le] at hcon
  have h1 := hcon.1 hr.1
  have h2 : (hadec2altaz p).1 < 270 := by
    by_contra h; exact hcon.2 (not_lt.1 h) hr.2
  have : cosd (hadec2altaz p).1 < 0 := by
    unfold cosd radians
    have := Real.pi_pos
    apply Real.cos_neg_of_pi_div_two_lt_of_lt <;> nlinarith
  linarith

/-! ## C17 -/

theorem C17_pointing_origin (tel : ℝ × ℝ) : hadec2xy tel tel = (0, 0) := by
  rw [hadec2xy_eq]
  have h1 := sq_cosd_sind tel.1
  have h2 := sq_cosd_sind tel.2
  unfold frame M3.app dot xyz getXYZ
  simp only [Prod.mk.injEq]
  constructor
  · ring
  · linear_combination (-(sind tel.2) * cosd tel.2) * h1

/-- C17: what is projected: x grows with hour angle, y with declination (orthographic
projection onto the plane perpendicular to the pointing). -/
theorem C17_projection (p tel : ℝ × ℝ) :
    (hadec2xy p tel).1 = cosd p.2 * sind (p.1 - tel.1) ∧
    (hadec2xy p tel).2 = sind p.2 * cosd tel.2 - cosd p.2 * sind tel.2 * cosd (p.1 - tel.1) ∧
    (hadec2xy p tel).1 ^ 2 + (hadec2xy p tel).2 ^ 2 + cosSep p tel ^ 2 = 1 := by
  have hu : dot (xyz p) (xyz p) = 1 := (unit_dot _).1 (xyz_unit p)
  rw [cosSep_eq, ← frame_z, hadec2xy_eq]
  refine ⟨?_, ?_, ?_⟩
  · unfold frame M3.app dot xyz getXYZ
    rw [sind_sub]; simp only; ring
  · unfold frame M3.app dot xyz getXYZ
    rw [cosd_sub]; simp only; ring
  · have h := frame_dot tel (xyz p) (xyz p)
    rw [hu] at h
    unfold dot at h
    generalize (frame tel).app (xyz p) = w at *
    simp only
    linarith

/-- C17: on the visible hemisphere `xy2hadec` undoes `hadec2xy`. -/
theorem C17_inverse (p tel : ℝ × ℝ) (h : 0 ≤ cosSep p tel) :
    skyDir (xy2hadec (hadec2xy p tel) tel) = skyDir p ∧
    (-90 < p.2 → p.2 < 90 → xy2hadec (hadec2xy p tel) tel = (put360 p.1, p.2)) := by
  have hp := (C17_projection p tel).2.2
  have hle : (hadec2xy p tel).1 ^ 2 + (hadec2xy p tel).2 ^ 2 ≤ 1 := by nlinarith [sq_nonneg (cosSep p tel)]
  have hx : xyz (xy2hadec (hadec2xy p tel) tel) = xyz p := by
    rw [xyz_xy2hadec hle]
    have hs : Real.sqrt (1 - (hadec2xy p tel).1 ^ 2 - (hadec2xy p tel).2 ^ 2) = cosSep p tel := by
      rw [show 1 - (hadec2xy p tel).1 ^ 2 - (hadec2xy p tel).2 ^ 2 = cosSep p tel ^ 2 by linarith]
      exact Real.sqrt_sq h
    rw [hs, cosSep_eq, ← frame_z, hadec2xy_eq]
    exact frameInv_frame tel (xyz p)
  rw [skyDir_iff]
  exact ⟨hx, fun h0 h1 => coords_of_dir hx (lonlat_range _) h0 h1⟩

/-- C17: every point of the unit disc comes back, from a direction on the visible
hemisphere. -/
theorem C17_inverse_disc (q tel : ℝ × ℝ) (h : q.1 ^ 2 + q.2 ^ 2 ≤ 1) :
    hadec2xy (xy2hadec q tel) tel = q ∧ 0 ≤ cosSep (xy2hadec q tel) tel ∧
    SkyRange (xy2hadec q tel) := by
  have hx := xyz_xy2hadec (tel := tel) h
  refine ⟨?_, ?_, lonlat_range _⟩
  · rw [hadec2xy_eq, hx, frame_frameInv]
  · rw [cosSep_eq, ← frame_z, hx, frame_frameInv]
    exact Real.sqrt_nonneg _

example : 0 ≤ cosSep (10, 20) (11, 21) := by
  rw [cosSep_eq]
  unfold dot xyz getXYZ
  have a := cosd_pos (a := (10:ℝ) - 11) (by norm_num) (by norm_num)
  have b := cosd_pos (a := (20:ℝ)) (by norm_num) (by norm_num)
  have c := cosd_pos (a := (21:ℝ)) (by norm_num) (by norm_num)
  have d := Verif.Lemmas.Refraction.sind_pos (x := (20:ℝ)) (by norm_num) (by norm_num)
  have e := Verif.Lemmas.Refraction.sind_pos (x := (21:ℝ)) (by norm_num) (by norm_num)
  rw [cosd_sub] at a
  have : cosd 10 * cosd 20 * (cosd 11 * cosd 21) + sind 10 * cosd 20 * (sind 11 * cosd 21) + sind 20 * sind 21
    = cosd 20 * cosd 21 * (cosd 10 * cosd 11 + sind 10 * sind 11) + sind 20 * sind 21 := by ring
  simp only
  rw [this]
  positivity

/-! ## C18 -/

/-- C18: Rodrigues' matrix about a unit axis is a rotation (isometry of positive
handedness) that fixes the axis and turns by `theta`: perpendicular vectors `v`
go to `cos theta v + sin theta u×v`. -/
theorem C18_rodrigues (u : V3) (theta : ℝ) (hu : dot u u = 1) (a b c v : V3) (hv : dot u v = 0) :
    dot ((rotationMatrix u theta).app a) ((rotationMatrix u theta).app b) = dot a b ∧
    dot ((rotationMatrix u theta).app a) (cross ((rotationMatrix u theta).app b) ((rotationMatrix u theta).app c))
      = dot a (cross b c) ∧
    (rotationMatrix u theta).app u = u ∧
    (rotationMatrix u theta).app v = vadd (smul (Real.cos theta) v) (smul (Real.sin theta) (cross u v)) := by
  have hO := rotationMatrix_orth u theta hu
  refine ⟨hO.dot a b, hO.det a b c, ?_, ?_⟩
  · unfold dot at hu
    unfold rotationMatrix M3.app dot
    apply V3.ext <;> simp only
    · linear_combination ((1 - Real.cos theta) * u.x) * hu
    · linear_combination ((1 - Real.cos theta) * u.y) * hu
    · linear_combination ((1 - Real.cos theta) * u.z) * hu
  · unfold dot at hv
    unfold rotationMatrix M3.app dot vadd smul cross
    apply V3.ext <;> simp only
    · linear_combination ((1 - Real.cos theta) * u.x) * hv
    · linear_combination ((1 - Real.cos theta) * u.y) * hv
    · linear_combination ((1 - Real.cos theta) * u.z) * hv

/-- C18: the axis-to-axis matrix is a rotation for every pair of unit vectors, and
carries the first onto the second whenever they are at most 90° apart. -/
theorem C18_axis_to_axis (p q : V3) (hp : dot p p = 1) (hq : dot q q = 1) :
    Orth (axisToAxis p q) ∧ (0 ≤ dot p q → (axisToAxis p q).app p = q) :=
  ⟨axisToAxis_orth p q, axisToAxis_maps p q hp hq⟩

/-- C18 (disagreement): beyond 90° the arcsine picks the wrong angle and the first
axis is not carried onto the second. -/
theorem C18_obtuse_fails (p q : V3) (hp : dot p p = 1) (hq : dot q q = 1) (h : dot p q < 0)
    (hc : 0 < getNorm (cross p q)) : (axisToAxis p q).app p ≠ q :=
  axisToAxis_obtuse p q hp hq h hc

example : ∃ p q : V3, dot p p = 1 ∧ dot q q = 1 ∧ dot p q < 0 ∧ 0 < getNorm (cross p q) := by
  refine ⟨⟨1, 0, 0⟩, ⟨-3 / 5, 4 / 5, 0⟩, ?_, ?_, ?_, ?_⟩
  · norm_num [dot]
  · norm_num [dot]
  · norm_num [dot]
  · unfold getNorm cross; apply Real.sqrt_pos.2; norm_num

/-- C18: the polar misalignment matrix carries the mount pole (altitude LATITUDE -
me arcsec, azimuth ma arcsec) onto the true pole, for misalignments up to 10°. -/
theorem C18_polar_misalignment (me ma : ℝ) (h1 : |me| ≤ 36000) (h2 : |ma| ≤ 36000) (a : ℝ) :
    Orth (polarMisalignment me ma) ∧
    (polarMisalignment me ma).app (xyz (altaz2hadec (31.96403 - me / 3600, ma / 3600))) = xyz (a, 90) :=
  polarMisalignment_maps me ma h1 h2 a

example : |ME_ARCSEC| ≤ 36000 ∧ |MA_ARCSEC| ≤ 36000 := by
  unfold ME_ARCSEC MA_ARCSEC
  constructor <;> rw [abs_le] <;> norm_num

end Verif.Props
