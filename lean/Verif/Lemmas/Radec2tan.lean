import Verif.Lemmas.Refraction

namespace Verif.Lemmas.Radec2tan
open Verif.Py Verif.Model.Trig Verif.Model.Radec2tan Verif.Spec Verif.Lemmas.Trig Verif.Lemmas.Sky
  Verif.Lemmas.Refraction

/-- Values returned by `hadec2altaz` are the canonical ones. -/
theorem altaz_canon (p : ℝ × ℝ) : 0 ≤ (hadec2altaz p).1 ∧ (hadec2altaz p).1 < 360 ∧
    0 ≤ cosd (hadec2altaz p).1 := by
  refine ⟨(put360_range _).1, (put360_range _).2, ?_⟩
  have h := horizon_unit (xyz_unit p)
  rw [horizon_xyz] at h
  generalize ha : -cosd p.1 * cosd p.2 * sind LATITUDE + sind p.2 * cosd LATITUDE = x at h
  generalize hb : -sind p.1 * cosd p.2 = y at h
  generalize hd : cosd p.1 * cosd p.2 * cosd LATITUDE + sind p.2 * sind LATITUDE = z at h
  have c1 := cosd_arctan2d (hypot x y) z
  have hh : hypot (hypot x y) z = 1 := by
    unfold hypot Unit3 at *
    rw [Real.sq_sqrt (by positivity), h, Real.sqrt_one]
  rw [hh, one_mul] at c1
  have e : (hadec2altaz p).1 = arctan2d z (hypot x y) := by
    unfold hadec2altaz; simp only [ha, hb, hd]
  rw [e, c1]; exact hypot_nonneg _ _

/-- Altitude of a direction given with altitude in [0,90]. -/
theorem alt_of_dir {h : ℝ × ℝ} {az a : ℝ} (ha0 : 0 ≤ a) (ha1 : a ≤ 90)
    (e : xyz ((hadec2altaz h).2, (hadec2altaz h).1) = xyz (az, a)) : (hadec2altaz h).1 = a := by
  obtain ⟨r0, r1, rc⟩ := altaz_canon h
  have hs : sind (hadec2altaz h).1 = sind a := congrArg V3.z e
  have hc : cosd (hadec2altaz h).1 = cosd a := by
    have h1 := sq_cosd_sind (hadec2altaz h).1
    have h2 := sq_cosd_sind a
    have h3 := cosd_nonneg (x := a) (by linarith) ha1
    rw [hs] at h1
    have : cosd (hadec2altaz h).1 ^ 2 = cosd a ^ 2 := by linarith
    exact (pow_left_inj₀ rc h3 (by norm_num)).1 this
  exact same_unique (dir_same hc hs) r0 r1 ha0 (by linarith)

theorem rot_undo (c s x y : ℝ) (h : c ^ 2 + s ^ 2 = 1) :
    c * (c * x - s * y) + s * (s * x + c * y) = x ∧ -s * (c * x - s * y) + c * (s * x + c * y) = y := by
  constructor
  · linear_combination x * h
  · linear_combination y * h

/-- One target through refraction, tangent plane and back. -/
theorem refract_round {h telh : ℝ × ℝ} {t az : ℝ} (ht : hadec2altaz h = (t, az)) (h1 : 1 ≤ t) (h2 : t ≤ 90)
    (hv : 0 ≤ cosSep (refract h) telh) :
    let back := hadec2altaz (xy2hadec (hadec2xy (refract h) telh) telh)
    xyz (altaz2hadec (undoRefraction back.1, back.2)) =
      horizon.app (xyz (az, undoRefraction (applyRefraction t))) := by
  intro back
  have hb : 0 ≤ applyRefraction t ∧ applyRefraction t ≤ 90 := by
    refine ⟨?_, apply_le_90 h1 h2⟩
    rw [apply_eq]
    have := d_nonneg (by linarith : 0 < t) h2
    linarith
  have hr : refract h = altaz2hadec (applyRefraction t, az) := by
    unfold refract; rw [ht]
  have hx : xyz (xy2hadec (hadec2xy (refract h) telh) telh) = xyz (refract h) := by
    have hle : (hadec2xy (refract h) telh).1 ^ 2 + (hadec2xy (refract h) telh).2 ^ 2 + cosSep (refract h) telh ^ 2 = 1 := by
      have hu : dot (xyz (refract h)) (xyz (refract h)) = 1 := (unit_dot _).1 (xyz_unit _)
      rw [cosSep_eq, ← frame_z, hadec2xy_eq]
      have hf := frame_dot telh (xyz (refract h)) (xyz (refract h))
      rw [hu] at hf
      unfold dot at hf
      simp only
      linarith
    rw [xyz_xy2hadec (by nlinarith [sq_nonneg (cosSep (refract h) telh)])]
    have hs : Real.sqrt (1 - (hadec2xy (refract h) telh).1 ^ 2 - (hadec2xy (refract h) telh).2 ^ 2) = cosSep (refract h) telh := by
      rw [show 1 - (hadec2xy (refract h) telh).1 ^ 2 - (hadec2xy (refract h) telh).2 ^ 2 = cosSep (refract h) telh ^ 2 by linarith]
      exact Real.sqrt_sq hv
    rw [hs, cosSep_eq, ← frame_z, hadec2xy_eq]
    exact frameInv_frame telh _
  have hback : xyz (back.2, back.1) = xyz (az, applyRefraction t) := by
    have h3 := xyz_altaz (xy2hadec (hadec2xy (refract h) telh) telh)
    rw [hx, hr, xyz_hadec, horizon_self] at h3
    rw [← hr] at h3
    exact h3
  have halt : back.1 = applyRefraction t := alt_of_dir hb.1 hb.2 hback
  rw [xyz_hadec, halt]
  rcases eq_or_lt_of_le hb.2 with hz | hz
  · have hu : undoRefraction (90:ℝ) = 90 := by rw [undo_eq, d_90, sub_zero, d_90, sub_zero]
    rw [hz, hu]
    congr 1
    unfold xyz getXYZ; simp only; rw [cosd_90]; simp
  · have hc := cosd_pos (a := applyRefraction t) (by linarith) hz
    rw [halt] at hback
    have ex := congrArg V3.x hback
    have ey := congrArg V3.y hback
    simp only [xyz, getXYZ] at ex ey
    have e1 : cosd back.2 = cosd az := mul_right_cancel₀ hc.ne' ex
    have e2 : sind back.2 = sind az := mul_right_cancel₀ hc.ne' ey
    congr 1
    unfold xyz getXYZ; simp only; rw [e1, e2]

theorem dot_alt (az a b : ℝ) : dot (xyz (az, a)) (xyz (az, b)) = cosd (a - b) := by
  have h := sq_cosd_sind az
  rw [cosd_sub]
  unfold dot xyz getXYZ
  simp only
  linear_combination (cosd a * cosd b) * h

/-- Sky direction from hour angle: RA = lst - HA reverses the sense. -/
theorem cosSep_lst (lst : ℝ) (p q : ℝ × ℝ) :
    cosSep (lst - p.1, p.2) (lst - q.1, q.2) = cosSep p q := by
  rw [cosSep_eq, cosSep_eq]
  unfold dot xyz getXYZ
  have h := sq_cosd_sind lst
  simp only [cosd_sub, sind_sub]
  linear_combination (cosd p.2 * cosd q.2 * (cosd p.1 * cosd q.1 + sind p.1 * sind q.1)) * h

theorem cosSep_congr {p p' q q' : ℝ × ℝ} (h : xyz p = xyz p') (h' : xyz q = xyz q') :
    cosSep p q = cosSep p' q' := by
  rw [cosSep_eq, cosSep_eq, h, h']

theorem cosSep_precession (p q : ℝ × ℝ) (y : ℝ) :
    cosSep (applyPrecession p y) (applyPrecession q y) = cosSep p q := by
  rw [cosSep_eq, cosSep_eq, xyz_precession, xyz_precession, (vecX_orth _).dot, (vecZ_orth _).dot,
      (vecX_orth _).dot]

end Verif.Lemmas.Radec2tan
