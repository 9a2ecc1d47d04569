import Verif.Model.Radec2tan
import Verif.Lemmas.Trig
import Verif.Spec.Sky
import Mathlib.Tactic.LinearCombination
import Mathlib.Tactic.FieldSimp

namespace Verif.Lemmas.Sky
open Verif.Py Verif.Model.Trig Verif.Model.Radec2tan Verif.Spec Verif.Lemmas.Trig

def Unit3 (v : V3) : Prop := v.x ^ 2 + v.y ^ 2 + v.z ^ 2 = 1

/-- Model vector of a position. -/
noncomputable abbrev xyz (p : ℝ × ℝ) : V3 := getXYZ p.1 p.2

theorem cosd_eq (a : ℝ) : Real.cos (a * Real.pi / 180) = cosd a := by
  unfold cosd radians; congr 1; ring
theorem sind_eq (a : ℝ) : Real.sin (a * Real.pi / 180) = sind a := by
  unfold sind radians; congr 1; ring

theorem skyDir_eq (p : ℝ × ℝ) : skyDir p = ((xyz p).x, (xyz p).y, (xyz p).z) := by
  unfold skyDir xyz getXYZ
  rw [cosd_eq, cosd_eq, sind_eq, sind_eq]
  simp only [mul_comm]

theorem skyDir_iff (p q : ℝ × ℝ) : skyDir p = skyDir q ↔ xyz p = xyz q := by
  rw [skyDir_eq, skyDir_eq, V3.ext_iff]
  simp only [Prod.mk.injEq]

theorem cosSep_eq (p q : ℝ × ℝ) : cosSep p q = dot (xyz p) (xyz q) := by
  unfold cosSep dot; rw [skyDir_eq, skyDir_eq]

theorem xyz_unit (p : ℝ × ℝ) : Unit3 (xyz p) := by
  unfold Unit3 xyz getXYZ
  have h1 := sq_cosd_sind p.1
  have h2 := sq_cosd_sind p.2
  simp only
  linear_combination cosd p.2 ^ 2 * h1 + h2

theorem getNorm_unit {v : V3} (h : Unit3 v) : getNorm v = 1 := by
  unfold getNorm; rw [h]; exact Real.sqrt_one

theorem getNormalized_unit {v : V3} (h : Unit3 v) : getNormalized v = v := by
  unfold getNormalized; rw [getNorm_unit h]; simp

theorem getNormalized_isUnit {v : V3} (h : v.x ^ 2 + v.y ^ 2 + v.z ^ 2 ≠ 0) :
    Unit3 (getNormalized v) := by
  have hp : 0 < v.x ^ 2 + v.y ^ 2 + v.z ^ 2 := lt_of_le_of_ne (by positivity) (Ne.symm h)
  have hn : getNorm v ^ 2 = v.x ^ 2 + v.y ^ 2 + v.z ^ 2 := Real.sq_sqrt hp.le
  have hn0 : getNorm v ≠ 0 := by
    intro h0; rw [h0] at hn; apply h; rw [← hn]; norm_num
  unfold Unit3 getNormalized
  simp only
  field_simp
  exact hn.symm

theorem abs_z_le {v : V3} (h : Unit3 v) : -1 ≤ v.z ∧ v.z ≤ 1 := by
  unfold Unit3 at h
  constructor <;> nlinarith [sq_nonneg v.x, sq_nonneg v.y]

theorem sind_arcsind {z : ℝ} (h1 : -1 ≤ z) (h2 : z ≤ 1) : sind (arcsind z) = z := by
  unfold sind arcsind
  rw [radians_degrees, Real.sin_arcsin h1 h2]

theorem cosd_arcsind (z : ℝ) : cosd (arcsind z) = Real.sqrt (1 - z ^ 2) := by
  unfold cosd arcsind
  rw [radians_degrees, Real.cos_arcsin]

/-- Spherical angles of a unit vector denote that vector. -/
theorem xyz_lonlat {v : V3} (h : Unit3 v) : xyz (getLONLAT v) = v := by
  unfold getLONLAT
  rw [getNormalized_unit h]
  have hz := abs_z_le h
  have hh : Real.sqrt (1 - v.z ^ 2) = hypot v.x v.y := by
    unfold hypot; congr 1; unfold Unit3 at h; linarith
  apply V3.ext
  · simp only [xyz, getXYZ]
    rw [cosd_arcsind, hh, mul_comm]; exact cosd_arctan2d _ _
  · simp only [xyz, getXYZ]
    rw [cosd_arcsind, hh, mul_comm]; exact sind_arctan2d _ _
  · simp only [xyz, getXYZ]
    exact sind_arcsind hz.1 hz.2

theorem arcsind_range (z : ℝ) : -90 ≤ arcsind z ∧ arcsind z ≤ 90 := by
  have h1 := Real.neg_pi_div_two_le_arcsin z
  have h2 := Real.arcsin_le_pi_div_two z
  have hp := Real.pi_pos
  unfold arcsind degrees
  constructor
  · have : Real.arcsin z * (180 / Real.pi) ≥ -(Real.pi / 2) * (180 / Real.pi) := by
      apply mul_le_mul_of_nonneg_right _ (by positivity); linarith
    have e : -(Real.pi / 2) * (180 / Real.pi) = -90 := by field_simp; norm_num
    linarith
  · have : Real.arcsin z * (180 / Real.pi) ≤ (Real.pi / 2) * (180 / Real.pi) := by
      apply mul_le_mul_of_nonneg_right _ (by positivity); linarith
    have e : (Real.pi / 2) * (180 / Real.pi) = 90 := by field_simp; norm_num
    linarith

theorem lonlat_range (v : V3) : SkyRange (getLONLAT v) := by
  unfold getLONLAT SkyRange
  exact ⟨(put360_range _).1, (put360_range _).2, (arcsind_range _).1, (arcsind_range _).2⟩

theorem cosd_pos {a : ℝ} (h0 : -90 < a) (h1 : a < 90) : 0 < cosd a := by
  apply Real.cos_pos_of_mem_Ioo
  have := Real.pi_pos
  unfold radians
  constructor <;> nlinarith

theorem arcsind_sind {a : ℝ} (h0 : -90 ≤ a) (h1 : a ≤ 90) : arcsind (sind a) = a := by
  unfold arcsind sind
  have := Real.pi_pos
  rw [Real.arcsin_sin]
  · unfold degrees radians; field_simp
  · unfold radians; nlinarith
  · unfold radians; nlinarith

/-- Away from the poles, spherical angles are recovered. -/
theorem lonlat_xyz {p : ℝ × ℝ} (h0 : -90 < p.2) (h1 : p.2 < 90) :
    getLONLAT (xyz p) = (put360 p.1, p.2) := by
  unfold getLONLAT
  rw [getNormalized_unit (xyz_unit p)]
  simp only [xyz, getXYZ]
  rw [arcsind_sind h0.le h1.le]
  have := arctan2d_polar (cosd_pos h0 h1) p.1
  rw [mul_comm (cosd p.2), mul_comm (cosd p.2)] at this
  rw [this]

/-- Two positions with the same direction, one with normalised coordinates away
from the poles. -/
theorem coords_of_dir {p q : ℝ × ℝ} (h : xyz q = xyz p) (hq : SkyRange q) (h0 : -90 < p.2)
    (h1 : p.2 < 90) : q = (put360 p.1, p.2) := by
  have hz : sind q.2 = sind p.2 := congrArg V3.z h
  have h2 : q.2 = p.2 := by
    rw [← arcsind_sind hq.2.2.1 hq.2.2.2, hz, arcsind_sind h0.le h1.le]
  have e1 := lonlat_xyz h0 h1
  have e2 := lonlat_xyz (p := q) (by rw [h2]; exact h0) (by rw [h2]; exact h1)
  rw [h, e1, put360_id hq.1 hq.2.1] at e2
  exact e2.symm

/-! ## orthogonal maps -/

structure Orth (m : M3) : Prop where
  dot : ∀ a b, dot (m.app a) (m.app b) = dot a b
  det : ∀ a b c, Verif.Model.Radec2tan.dot (m.app a) (cross (m.app b) (m.app c)) =
    Verif.Model.Radec2tan.dot a (cross b c)

theorem unit_dot (v : V3) : Unit3 v ↔ dot v v = 1 := by
  unfold Unit3 dot
  constructor <;> intro h <;> linarith

theorem Orth.unit {m : M3} (h : Orth m) {v : V3} (hv : Unit3 v) : Unit3 (m.app v) := by
  rw [unit_dot] at *; rw [h.dot]; exact hv

theorem vecX_orth (a : ℝ) : Orth (vecX a) := by
  have h := sq_cosd_sind a
  constructor
  · intro u v
    unfold vecX M3.app dot
    simp only
    linear_combination (u.y * v.y + u.z * v.z) * h
  · intro u v w
    unfold vecX M3.app cross dot
    simp only
    linear_combination (u.x * (v.y * w.z - v.z * w.y) + u.y * (v.z * w.x - v.x * w.z) + u.z * (v.x * w.y - v.y * w.x)) * h

theorem vecZ_orth (a : ℝ) : Orth (vecZ a) := by
  have h := sq_cosd_sind a
  constructor
  · intro u v
    unfold vecZ M3.app dot
    simp only
    linear_combination (u.y * v.y + u.x * v.x) * h
  · intro u v w
    unfold vecZ M3.app cross dot
    simp only
    linear_combination (u.x * (v.y * w.z - v.z * w.y) + u.y * (v.z * w.x - v.x * w.z) + u.z * (v.x * w.y - v.y * w.x)) * h

theorem cosd_neg (a : ℝ) : cosd (-a) = cosd a := by
  unfold cosd radians; rw [neg_mul, Real.cos_neg]
theorem sind_neg (a : ℝ) : sind (-a) = -sind a := by
  unfold sind radians; rw [neg_mul, Real.sin_neg]
theorem cosd_add (a b : ℝ) : cosd (a + b) = cosd a * cosd b - sind a * sind b := by
  unfold cosd sind radians; rw [add_mul, Real.cos_add]
theorem sind_add (a b : ℝ) : sind (a + b) = sind a * cosd b + cosd a * sind b := by
  unfold cosd sind radians; rw [add_mul, Real.sin_add]
theorem cosd_sub (a b : ℝ) : cosd (a - b) = cosd a * cosd b + sind a * sind b := by
  rw [sub_eq_add_neg, cosd_add, cosd_neg, sind_neg]; ring
theorem sind_sub (a b : ℝ) : sind (a - b) = sind a * cosd b - cosd a * sind b := by
  rw [sub_eq_add_neg, sind_add, cosd_neg, sind_neg]; ring
theorem cosd_zero : cosd 0 = 1 := by unfold cosd radians; simp
theorem sind_zero : sind 0 = 0 := by unfold sind radians; simp
theorem radians_90 : radians 90 = Real.pi / 2 := by unfold radians; ring
theorem cosd_90 : cosd 90 = 0 := by unfold cosd; rw [radians_90, Real.cos_pi_div_two]
theorem sind_90 : sind 90 = 1 := by unfold sind; rw [radians_90, Real.sin_pi_div_two]
theorem radians_270 : radians 270 = Real.pi / 2 + Real.pi := by unfold radians; ring
theorem cosd_270 : cosd 270 = 0 := by
  unfold cosd; rw [radians_270, Real.cos_add_pi, Real.cos_pi_div_two, neg_zero]
theorem sind_270 : sind 270 = -1 := by
  unfold sind; rw [radians_270, Real.sin_add_pi, Real.sin_pi_div_two]

theorem vecX_inv (a : ℝ) (v : V3) : (vecX (-a)).app ((vecX a).app v) = v := by
  have h := sq_cosd_sind a
  apply V3.ext
  · unfold vecX M3.app dot; simp
  · unfold vecX M3.app dot; simp only [cosd_neg, sind_neg]; linear_combination v.y * h
  · unfold vecX M3.app dot; simp only [cosd_neg, sind_neg]; linear_combination v.z * h

theorem vecZ_add (a b : ℝ) (v : V3) : (vecZ b).app ((vecZ a).app v) = (vecZ (a + b)).app v := by
  apply V3.ext
  · unfold vecZ M3.app dot; simp only [cosd_add, sind_add]; ring
  · unfold vecZ M3.app dot; simp only [cosd_add, sind_add]; ring
  · unfold vecZ M3.app dot; simp

/-! ## the conversions as maps of unit vectors -/

theorem xyz_eclip (p : ℝ × ℝ) : xyz (radec2eclip p) = (vecX (-OBLIQ)).app (xyz p) := by
  unfold radec2eclip refX
  exact xyz_lonlat ((vecX_orth _).unit (xyz_unit p))

theorem xyz_radec (p : ℝ × ℝ) : xyz (eclip2radec p) = (vecX OBLIQ).app (xyz p) := by
  unfold eclip2radec refX
  rw [neg_neg]
  exact xyz_lonlat ((vecX_orth _).unit (xyz_unit p))

theorem xyz_precession (p : ℝ × ℝ) (y : ℝ) : xyz (applyPrecession p y) = (vecX OBLIQ).app
    ((vecZ (360 * (y / PRECESSION_PERIOD_IN_YEARS))).app ((vecX (-OBLIQ)).app (xyz p))) := by
  unfold applyPrecession
  dsimp only
  rw [xyz_radec, xyz_lonlat ((vecZ_orth _).unit (xyz_unit _)), xyz_eclip]

theorem xyz_precession_add (p : ℝ × ℝ) (y1 y2 : ℝ) :
    xyz (applyPrecession (applyPrecession p y1) y2) = xyz (applyPrecession p (y1 + y2)) := by
  rw [xyz_precession, xyz_precession, vecX_inv, vecZ_add, xyz_precession]
  congr 3
  ring

theorem xyz_precession_zero (p : ℝ × ℝ) : xyz (applyPrecession p 0) = xyz p := by
  rw [xyz_precession, zero_div, mul_zero]
  have : ∀ v, (vecZ 0).app v = v := by
    intro v
    unfold vecZ M3.app dot
    rw [cosd_zero, sind_zero]
    apply V3.ext <;> simp
  rw [this]
  have h := vecX_inv (-OBLIQ) (xyz p)
  rwa [neg_neg] at h

/-! ## horizon coordinates -/

/-- (north, east, up) components of the direction (ha, dec). -/
noncomputable def horizon : M3 :=
  ⟨⟨-sind LATITUDE, 0, cosd LATITUDE⟩, ⟨0, -1, 0⟩, ⟨cosd LATITUDE, 0, sind LATITUDE⟩⟩

theorem horizon_dot (a b : V3) : dot (horizon.app a) (horizon.app b) = dot a b := by
  have h := sq_cosd_sind LATITUDE
  unfold horizon M3.app dot
  simp only
  linear_combination (a.x * b.x + a.z * b.z) * h

theorem horizon_self (v : V3) : horizon.app (horizon.app v) = v := by
  have h := sq_cosd_sind LATITUDE
  apply V3.ext
  · unfold horizon M3.app dot; simp only; linear_combination v.x * h
  · unfold horizon M3.app dot; simp only; ring
  · unfold horizon M3.app dot; simp only; linear_combination v.z * h

theorem horizon_unit {v : V3} (hv : Unit3 v) : Unit3 (horizon.app v) := by
  rw [unit_dot] at *; rw [horizon_dot]; exact hv

/-- Longitude/latitude from components with the latitude by `arctan2d` in [0,360). -/
theorem xyz_atan {v : V3} (h : Unit3 v) :
    xyz (arctan2d v.y v.x, arctan2d v.z (hypot v.x v.y)) = v := by
  have hh : hypot (hypot v.x v.y) v.z = 1 := by
    unfold hypot
    rw [Real.sq_sqrt (by positivity), h, Real.sqrt_one]
  have c1 := cosd_arctan2d (hypot v.x v.y) v.z
  have s1 := sind_arctan2d (hypot v.x v.y) v.z
  rw [hh, one_mul] at c1 s1
  apply V3.ext
  · simp only [xyz, getXYZ]; rw [c1, mul_comm]; exact cosd_arctan2d _ _
  · simp only [xyz, getXYZ]; rw [c1, mul_comm]; exact sind_arctan2d _ _
  · simp only [xyz, getXYZ]; exact s1

theorem horizon_xyz (p : ℝ × ℝ) : horizon.app (xyz p) =
    ⟨-cosd p.1 * cosd p.2 * sind LATITUDE + sind p.2 * cosd LATITUDE, -sind p.1 * cosd p.2,
      cosd p.1 * cosd p.2 * cosd LATITUDE + sind p.2 * sind LATITUDE⟩ := by
  apply V3.ext
  · unfold horizon M3.app dot xyz getXYZ; simp only; ring
  · unfold horizon M3.app dot xyz getXYZ; simp only; ring
  · unfold horizon M3.app dot xyz getXYZ; simp only; ring

theorem xyz_altaz (p : ℝ × ℝ) :
    xyz ((hadec2altaz p).2, (hadec2altaz p).1) = horizon.app (xyz p) := by
  have h := xyz_atan (horizon_unit (xyz_unit p))
  rw [horizon_xyz] at h ⊢
  exact h

theorem xyz_hadec (p : ℝ × ℝ) :
    xyz (altaz2hadec p) = horizon.app (xyz (p.2, p.1)) := by
  have h : xyz (getLONLAT (horizon.app (xyz (p.2, p.1)))) = _ := xyz_lonlat (horizon_unit (xyz_unit (p.2, p.1)))
  rw [← h]
  congr 1
  unfold getLONLAT
  rw [getNormalized_unit (horizon_unit (xyz_unit (p.2, p.1)))]
  rw [horizon_xyz]
  unfold altaz2hadec
  simp only
  congr 1
  · congr 1; ring
  · congr 1; ring

/-! ## tangent plane -/

/-- Components along (west on the sky i.e. growing hour angle, north, pointing). -/
noncomputable def frame (tel : ℝ × ℝ) : M3 :=
  ⟨⟨-sind tel.1, cosd tel.1, 0⟩, ⟨-(sind tel.2 * cosd tel.1), -(sind tel.2 * sind tel.1), cosd tel.2⟩,
   ⟨cosd tel.2 * cosd tel.1, cosd tel.2 * sind tel.1, sind tel.2⟩⟩

theorem frame_dot (tel : ℝ × ℝ) (a b : V3) : dot ((frame tel).app a) ((frame tel).app b) = dot a b := by
  have h1 := sq_cosd_sind tel.1
  have h2 := sq_cosd_sind tel.2
  generalize hc1 : cosd tel.1 = c1 at *
  generalize hs1 : sind tel.1 = s1 at *
  generalize hc2 : cosd tel.2 = c2 at *
  generalize hs2 : sind tel.2 = s2 at *
  unfold frame M3.app dot
  simp only [hc1, hs1, hc2, hs2]
  linear_combination (a.x*b.x + a.y*b.y) * h1 +
    (a.x*b.x*c1^2 + a.x*b.y*c1*s1 + a.y*b.x*c1*s1 + a.y*b.y*s1^2 + a.z*b.z) * h2

theorem hadec2xy_eq (p tel : ℝ × ℝ) :
    hadec2xy p tel = (((frame tel).app (xyz p)).x, ((frame tel).app (xyz p)).y) := by
  unfold hadec2xy frame M3.app dot
  simp only
  ext
  · simp only; ring
  · simp only; ring

theorem frame_z (p tel : ℝ × ℝ) : ((frame tel).app (xyz p)).z = dot (xyz p) (xyz tel) := by
  unfold frame M3.app dot xyz getXYZ; simp only; ring

/-- The inverse of `frame`. -/
noncomputable def frameInv (tel : ℝ × ℝ) (w : V3) : V3 :=
  ⟨-sind tel.1 * w.x - sind tel.2 * cosd tel.1 * w.y + cosd tel.2 * cosd tel.1 * w.z,
   cosd tel.1 * w.x - sind tel.2 * sind tel.1 * w.y + cosd tel.2 * sind tel.1 * w.z,
   cosd tel.2 * w.y + sind tel.2 * w.z⟩

theorem frameInv_frame (tel : ℝ × ℝ) (v : V3) : frameInv tel ((frame tel).app v) = v := by
  have h1 := sq_cosd_sind tel.1
  have h2 := sq_cosd_sind tel.2
  generalize hc1 : cosd tel.1 = c1 at *
  generalize hs1 : sind tel.1 = s1 at *
  generalize hc2 : cosd tel.2 = c2 at *
  generalize hs2 : sind tel.2 = s2 at *
  unfold frameInv frame M3.app dot
  apply V3.ext <;> simp only [hc1, hs1, hc2, hs2]
  · linear_combination v.x * h1 + c1 * (c1 * v.x + s1 * v.y) * h2
  · linear_combination v.y * h1 + s1 * (c1 * v.x + s1 * v.y) * h2
  · linear_combination v.z * h2

theorem frame_frameInv (tel : ℝ × ℝ) (v : V3) : (frame tel).app (frameInv tel v) = v := by
  have h1 := sq_cosd_sind tel.1
  have h2 := sq_cosd_sind tel.2
  generalize hc1 : cosd tel.1 = c1 at *
  generalize hs1 : sind tel.1 = s1 at *
  generalize hc2 : cosd tel.2 = c2 at *
  generalize hs2 : sind tel.2 = s2 at *
  unfold frameInv frame M3.app dot
  apply V3.ext <;> simp only [hc1, hs1, hc2, hs2]
  · linear_combination v.x * h1
  · linear_combination (s2 ^ 2 * v.y - s2 * c2 * v.z) * h1 + v.y * h2
  · linear_combination (c2 ^ 2 * v.z - c2 * s2 * v.y) * h1 + v.z * h2

theorem frameInv_dot (tel : ℝ × ℝ) (a b : V3) : dot (frameInv tel a) (frameInv tel b) = dot a b := by
  rw [← frame_dot tel, frame_frameInv, frame_frameInv]

theorem xy2hadec_eq (q tel : ℝ × ℝ) : xy2hadec q tel =
    getLONLAT (frameInv tel ⟨q.1, q.2, Real.sqrt (1 - q.1 ^ 2 - q.2 ^ 2)⟩) := by
  unfold xy2hadec frameInv M3.app dot
  simp only
  congr 1
  apply V3.ext <;> simp only <;> ring

theorem xyz_xy2hadec {q tel : ℝ × ℝ} (h : q.1 ^ 2 + q.2 ^ 2 ≤ 1) : xyz (xy2hadec q tel) =
    frameInv tel ⟨q.1, q.2, Real.sqrt (1 - q.1 ^ 2 - q.2 ^ 2)⟩ := by
  rw [xy2hadec_eq]
  apply xyz_lonlat
  rw [unit_dot, frameInv_dot]
  unfold dot
  simp only
  have := Real.mul_self_sqrt (show 0 ≤ 1 - q.1 ^ 2 - q.2 ^ 2 by linarith)
  rw [this]; ring

end Verif.Lemmas.Sky

namespace Verif.Lemmas.Sky
open Verif.Py Verif.Model.Trig Verif.Model.Radec2tan Verif.Spec Verif.Lemmas.Trig

noncomputable def det3 (m : M3) : ℝ :=
  m.r0.x * (m.r1.y * m.r2.z - m.r1.z * m.r2.y) - m.r0.y * (m.r1.x * m.r2.z - m.r1.z * m.r2.x)
    + m.r0.z * (m.r1.x * m.r2.y - m.r1.y * m.r2.x)

theorem app_det (m : M3) (a b c : V3) :
    dot (m.app a) (cross (m.app b) (m.app c)) = det3 m * dot a (cross b c) := by
  unfold det3 M3.app cross dot
  simp only
  ring

theorem rotationMatrix_orth (u : V3) (theta : ℝ) (hu : dot u u = 1) : Orth (rotationMatrix u theta) := by
  have hcs := Real.cos_sq_add_sin_sq theta
  unfold dot at hu
  generalize hC : Real.cos theta = C at *
  generalize hS : Real.sin theta = S at *
  obtain ⟨x, y, z⟩ := u
  simp only at hu
  have app : ∀ v, (rotationMatrix ⟨x, y, z⟩ theta).app v =
      ⟨C * v.x + S * (y * v.z - z * v.y) + (1 - C) * x * (x * v.x + y * v.y + z * v.z),
       C * v.y + S * (z * v.x - x * v.z) + (1 - C) * y * (x * v.x + y * v.y + z * v.z),
       C * v.z + S * (x * v.y - y * v.x) + (1 - C) * z * (x * v.x + y * v.y + z * v.z)⟩ := by
    intro v
    unfold rotationMatrix M3.app dot
    simp only [hC, hS]
    apply V3.ext <;> simp only <;> ring
  have hdot : ∀ a b : V3, dot ((rotationMatrix ⟨x, y, z⟩ theta).app a) ((rotationMatrix ⟨x, y, z⟩ theta).app b) = dot a b := by
    intro a b
    rw [app, app]
    unfold dot
    simp only
    obtain ⟨a1, a2, a3⟩ := a
    obtain ⟨b1, b2, b3⟩ := b
    simp only
    linear_combination (a1*b1 + a2*b2 + a3*b3 - (x*a1+y*a2+z*a3)*(x*b1+y*b2+z*b3)) * hcs
      + ((1-C)^2 * (x*a1+y*a2+z*a3)*(x*b1+y*b2+z*b3) + S^2*(a1*b1+a2*b2+a3*b3)) * hu
  refine ⟨hdot, ?_⟩
  intro a b c
  rw [app_det]
  have hd : det3 (rotationMatrix ⟨x, y, z⟩ theta) = 1 := by
    have e : det3 (rotationMatrix ⟨x, y, z⟩ theta) =
        C ^ 3 + C * S ^ 2 * (x * x + y * y + z * z) + (1 - C) * (C ^ 2 * (x * x + y * y + z * z) + S ^ 2 * (x * x + y * y + z * z) ^ 2) := by
      unfold det3 rotationMatrix
      simp only [hC, hS]
      ring
    rw [e, hu]
    linear_combination hcs
  rw [hd, one_mul]

theorem cross_norm (p q : V3) (hp : dot p p = 1) (hq : dot q q = 1) :
    getNorm (cross p q) ^ 2 = 1 - dot p q ^ 2 := by
  unfold getNorm
  rw [Real.sq_sqrt (by positivity)]
  unfold dot cross at *
  simp only
  linear_combination hp + (p.x * p.x + p.y * p.y + p.z * p.z) * hq - 0 * hq

theorem getNorm_nonneg (v : V3) : 0 ≤ getNorm v := Real.sqrt_nonneg _

theorem axis_unit {c : V3} (h : 0 < getNorm c) :
    dot ⟨c.x / getNorm c, c.y / getNorm c, c.z / getNorm c⟩ ⟨c.x / getNorm c, c.y / getNorm c, c.z / getNorm c⟩ = 1 := by
  have hn : getNorm c ^ 2 = c.x ^ 2 + c.y ^ 2 + c.z ^ 2 := Real.sq_sqrt (by positivity)
  unfold dot
  simp only
  field_simp
  linarith

theorem eye_app (v : V3) : eye3.app v = v := by
  unfold eye3 M3.app dot
  apply V3.ext <;> simp

theorem eye_orth : Orth eye3 := ⟨fun a b => by rw [eye_app, eye_app],
  fun a b c => by rw [eye_app, eye_app, eye_app]⟩

theorem axisToAxis_orth (p q : V3) : Orth (axisToAxis p q) := by
  unfold axisToAxis
  dsimp only
  split_ifs with h
  · exact rotationMatrix_orth _ _ (axis_unit h)
  · exact eye_orth

/-- Image of the first axis. -/
theorem axisToAxis_app (p q : V3) (hp : dot p p = 1) (hq : dot q q = 1) (hc : 0 < getNorm (cross p q)) :
    (axisToAxis p q).app p = vadd (smul (Real.sqrt (dot p q ^ 2)) p) (vadd q (smul (-dot p q) p)) := by
  unfold axisToAxis
  dsimp only
  rw [if_pos hc]
  have hn := cross_norm p q hp hq
  have hle : getNorm (cross p q) ≤ 1 := by nlinarith [sq_nonneg (dot p q), getNorm_nonneg (cross p q)]
  have hs : Real.sin (Real.arcsin (getNorm (cross p q))) = getNorm (cross p q) :=
    Real.sin_arcsin (by linarith) hle
  have hcos : Real.cos (Real.arcsin (getNorm (cross p q))) = Real.sqrt (dot p q ^ 2) := by
    rw [Real.cos_arcsin, hn]; congr 1; ring
  unfold rotationMatrix M3.app
  simp only [hs, hcos]
  generalize Real.sqrt (dot p q ^ 2) = C
  generalize getNorm (cross p q) = n at *
  have hn0 : n ≠ 0 := hc.ne'
  unfold dot cross vadd smul at *
  obtain ⟨a, b, c⟩ := p
  obtain ⟨d, e, f⟩ := q
  simp only at *
  apply V3.ext <;> simp only
  · field_simp
    linear_combination d * n ^ 2 * hp
  · field_simp
    linear_combination e * n ^ 2 * hp
  · field_simp
    linear_combination f * n ^ 2 * hp

theorem cross_zero {p q : V3} (hp : dot p p = 1) (hq : dot q q = 1) (hc : ¬ 0 < getNorm (cross p q))
    (h : 0 ≤ dot p q) : p = q := by
  have h0 : getNorm (cross p q) = 0 := le_antisymm (not_lt.1 hc) (getNorm_nonneg _)
  have hn := cross_norm p q hp hq
  rw [h0] at hn
  have hd : dot p q = 1 := by nlinarith
  unfold dot at *
  have e : (p.x - q.x) ^ 2 + (p.y - q.y) ^ 2 + (p.z - q.z) ^ 2 = 0 := by nlinarith
  have e1 : p.x - q.x = 0 := by nlinarith [sq_nonneg (p.x - q.x), sq_nonneg (p.y - q.y), sq_nonneg (p.z - q.z)]
  have e2 : p.y - q.y = 0 := by nlinarith [sq_nonneg (p.x - q.x), sq_nonneg (p.y - q.y), sq_nonneg (p.z - q.z)]
  have e3 : p.z - q.z = 0 := by nlinarith [sq_nonneg (p.x - q.x), sq_nonneg (p.y - q.y), sq_nonneg (p.z - q.z)]
  apply V3.ext <;> linarith

theorem axisToAxis_maps (p q : V3) (hp : dot p p = 1) (hq : dot q q = 1) (h : 0 ≤ dot p q) :
    (axisToAxis p q).app p = q := by
  by_cases hc : 0 < getNorm (cross p q)
  · rw [axisToAxis_app p q hp hq hc, Real.sqrt_sq h]
    unfold vadd smul
    apply V3.ext <;> simp only <;> ring
  · have e := cross_zero hp hq hc h
    unfold axisToAxis
    dsimp only
    rw [if_neg (by exact hc), eye_app, e]

theorem axisToAxis_obtuse (p q : V3) (hp : dot p p = 1) (hq : dot q q = 1) (h : dot p q < 0)
    (hc : 0 < getNorm (cross p q)) : (axisToAxis p q).app p ≠ q := by
  intro e
  rw [axisToAxis_app p q hp hq hc, Real.sqrt_sq_eq_abs, abs_of_neg h] at e
  have hx := congrArg V3.x e
  have hy := congrArg V3.y e
  have hz := congrArg V3.z e
  unfold vadd smul at hx hy hz
  simp only at hx hy hz
  have hx' : p.x = 0 := by
    have : dot p q * p.x = 0 := by linarith
    rcases mul_eq_zero.1 this with h' | h'
    · exact absurd h' h.ne
    · exact h'
  have hy' : p.y = 0 := by
    have : dot p q * p.y = 0 := by linarith
    rcases mul_eq_zero.1 this with h' | h'
    · exact absurd h' h.ne
    · exact h'
  have hz' : p.z = 0 := by
    have : dot p q * p.z = 0 := by linarith
    rcases mul_eq_zero.1 this with h' | h'
    · exact absurd h' h.ne
    · exact h'
  unfold dot at hp
  rw [hx', hy', hz'] at hp
  norm_num at hp

theorem polarMisalignment_maps (me ma : ℝ) (h1 : |me| ≤ 36000) (h2 : |ma| ≤ 36000) (a : ℝ) :
    Orth (polarMisalignment me ma) ∧
    (polarMisalignment me ma).app (xyz (altaz2hadec (31.96403 - me / 3600, ma / 3600))) = xyz (a, 90) := by
  have hl : LATITUDE = 31.96403 := rfl
  refine ⟨axisToAxis_orth _ _, ?_⟩
  have e2 : xyz (altaz2hadec (LATITUDE, 0)) = xyz (a, 90) := by
    rw [xyz_hadec]
    have hs := sq_cosd_sind LATITUDE
    unfold horizon M3.app dot xyz getXYZ
    rw [cosd_zero, sind_zero, cosd_90, sind_90]
    apply V3.ext <;> simp
    · ring
    · linear_combination hs
  have := axisToAxis_maps (xyz (altaz2hadec (LATITUDE - me / 3600, ma / 3600))) (xyz (altaz2hadec (LATITUDE, 0)))
    ((unit_dot _).1 (xyz_unit _)) ((unit_dot _).1 (xyz_unit _)) ?_
  · rw [e2] at this
    unfold polarMisalignment
    dsimp only
    rw [← hl]
    have e2' : getXYZ (altaz2hadec (LATITUDE, 0)).1 (altaz2hadec (LATITUDE, 0)).2 = xyz (a, 90) := e2
    rw [e2']
    exact this
  · rw [xyz_hadec, xyz_hadec, horizon_dot]
    rw [abs_le] at h1 h2
    have c1 := cosd_pos (a := me / 3600) (by linarith) (by linarith)
    have c2 := cosd_pos (a := ma / 3600) (by linarith) (by linarith)
    have c3 := cosd_pos (a := LATITUDE) (by rw [hl]; norm_num) (by rw [hl]; norm_num)
    have c4 := cosd_pos (a := LATITUDE - me / 3600) (by rw [hl]; norm_num; linarith) (by rw [hl]; norm_num; linarith)
    have s3 : 0 ≤ sind LATITUDE := by
      unfold sind radians
      have := Real.pi_pos
      apply Real.sin_nonneg_of_nonneg_of_le_pi <;> rw [hl] <;> nlinarith
    have s4 : 0 ≤ sind (LATITUDE - me / 3600) := by
      unfold sind radians
      have := Real.pi_pos
      have hb : 0 ≤ LATITUDE - me / 3600 := by rw [hl]; norm_num; linarith
      have hb' : LATITUDE - me / 3600 ≤ 180 := by rw [hl]; norm_num; linarith
      apply Real.sin_nonneg_of_nonneg_of_le_pi <;> nlinarith
    unfold dot xyz getXYZ
    simp only
    rw [cosd_zero, sind_zero]
    have : 0 ≤ cosd (ma / 3600) * cosd (LATITUDE - me / 3600) * cosd LATITUDE := by positivity
    have : 0 ≤ sind (LATITUDE - me / 3600) * sind LATITUDE := by positivity
    linarith

end Verif.Lemmas.Sky
