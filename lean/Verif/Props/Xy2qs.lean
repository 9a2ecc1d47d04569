import Verif.Lemmas.Xy2qs

/-!
# Property C12: curved focal surface coordinates (`transform/xy2qs.py`)
-/

namespace Verif.Props
open Verif.Model.Xy2qs Verif.Lemmas.Xy2qs Verif.Py Verif.Model.Trig Verif.Lemmas.Trig Verif.Spec

/-- C12: the radius maps undo each other to 5 µm on the whole focal plane
(0 ≤ r ≤ 431 mm), in both orders. -/
theorem C12_radius_round_trip (r : ℝ) (h0 : 0 ≤ r) (h1 : r ≤ 431) :
    |s2r (r2s r) - r| ≤ 5 / 1000 ∧ |r2s (s2r r) - r| ≤ 5 / 1000 :=
  ⟨s2r_r2s r h0 h1, r2s_s2r r h0 h1⟩

/-- C12: the radius maps are strictly increasing, and change separations by at
most one percent. -/
theorem C12_increasing (a b : ℝ) (h0 : 0 ≤ a) (hab : a < b) (hb : b ≤ 450) :
    (0 < r2s b - r2s a ∧ |(r2s b - r2s a) / (b - a) - 1| ≤ 1 / 100) ∧
    (0 < s2r b - s2r a ∧ |(s2r b - s2r a) / (b - a) - 1| ≤ 1 / 100) := by
  have h1 := r2s_slope a b h0 hab.le hb
  have h2 := s2r_slope a b h0 hab.le hb
  have hp : 0 < b - a := by linarith
  refine ⟨⟨by linarith, ?_⟩, ⟨by linarith, ?_⟩⟩
  all_goals
    rw [abs_le, le_sub_iff_add_le, sub_le_iff_le_add, le_div_iff₀ hp, div_le_iff₀ hp]
    constructor <;> linarith

/-- C12: for every point of the focal plane, `qs2xy (xy2qs x y)` lies on the same
ray from the centre (`(x,y)` and the result are nonnegative multiples of one
direction), within 5 µm of the original; `q` is in [0,360) and `s` is positive. -/
theorem C12_qs_round_trip (x y : ℝ) (h : radius (x, y) ≤ 431) :
    ∃ a ρ, 0 ≤ a ∧ a < 360 ∧ (xy2qs x y).1 = a ∧ 0 < (xy2qs x y).2 ∧ 0 < ρ ∧
      x = radius (x, y) * Real.cos (radians a) ∧ y = radius (x, y) * Real.sin (radians a) ∧
      qs2xy (xy2qs x y).1 (xy2qs x y).2 = (ρ * Real.cos (radians a), ρ * Real.sin (radians a)) ∧
      |ρ - radius (x, y)| ≤ 5 / 1000 ∧
      dist2 (qs2xy (xy2qs x y).1 (xy2qs x y).2) (x, y) ≤ 5 / 1000 := by
  have hr : radius (x, y) = hypot x y := rfl
  rw [hr] at h ⊢
  have h0 := hypot_nonneg x y
  have hb := s2r_r2s (hypot x y) h0 h
  have hx : x = hypot x y * Real.cos (radians (arctan2d y x)) := (cosd_arctan2d x y).symm
  have hy : y = hypot x y * Real.sin (radians (arctan2d y x)) := (sind_arctan2d x y).symm
  refine ⟨arctan2d y x, s2r (r2s (hypot x y)), (put360_range _).1, (put360_range _).2, rfl,
    r2s_pos h0 (by linarith), s2r_pos (r2s_pos h0 (by linarith)).le (r2s_le _ h0 h), hx, hy, rfl, hb, ?_⟩
  simp only [xy2qs, qs2xy, dist2]
  have e : (s2r (r2s (hypot x y)) * cosd (arctan2d y x) - x) ^ 2 +
      (s2r (r2s (hypot x y)) * sind (arctan2d y x) - y) ^ 2 =
      (s2r (r2s (hypot x y)) - hypot x y) ^ 2 := by
    have hc := sq_cosd_sind (arctan2d y x)
    have hx' := cosd_arctan2d x y
    have hy' := sind_arctan2d x y
    generalize arctan2d y x = q at *
    generalize s2r (r2s (hypot x y)) = s
    generalize hypot x y = r at *
    rw [← hx', ← hy']
    calc _ = (s - r) ^ 2 * (cosd q ^ 2 + sind q ^ 2) := by ring
      _ = _ := by rw [hc, mul_one]
  rw [e, Real.sqrt_sq_eq_abs]
  exact hb

/-- C12: the same holds for the two other pairs of maps, which produce exactly the
same point: `uv2xy (xy2uv x y)` and (used by the positioner frame)
`flat2ptl (ptl2flat x y)`. -/
theorem C12_uv_flat (x y : ℝ) (h : radius (x, y) ≤ 431) :
    uv2xy (xy2uv x y).1 (xy2uv x y).2 = qs2xy (xy2qs x y).1 (xy2qs x y).2 ∧
    flat2ptl (ptl2flat x y).1 (ptl2flat x y).2 = qs2xy (xy2qs x y).1 (xy2qs x y).2 := by
  have hr : radius (x, y) = hypot x y := rfl
  rw [hr] at h
  have h0 := hypot_nonneg x y
  have hs := r2s_pos h0 (by linarith : hypot x y ≤ 450)
  constructor
  · have e1 : (xy2uv x y) = (r2s (hypot x y) * cosd (arctan2d y x), r2s (hypot x y) * sind (arctan2d y x)) := rfl
    rw [e1]
    simp only [uv2xy]
    rw [hypot_polar hs.le, arctan2d_polar hs]
    simp only [xy2qs]
    have : put360 (arctan2d y x) = arctan2d y x :=
      put360_id (put360_range _).1 (put360_range _).2
    rw [this]
  · have hc : Real.cos (atan2 y x) = cosd (arctan2d y x) := by
      rw [arctan2d, cosd_same (put360_same _), cosd, radians_degrees]
    have hsn : Real.sin (atan2 y x) = sind (arctan2d y x) := by
      rw [arctan2d, sind_same (put360_same _), sind, radians_degrees]
    have e1 : ptl2flat x y = (r2s (hypot x y) * cosd (arctan2d y x), r2s (hypot x y) * sind (arctan2d y x)) := by
      simp only [ptl2flat, hc, hsn]
    rw [e1]
    simp only [flat2ptl, xy2qs, qs2xy]
    rw [hypot_polar hs.le]
    have hc' : ∀ a b : ℝ, Real.cos (atan2 a b) = cosd (arctan2d a b) := fun a b => by
      rw [arctan2d, cosd_same (put360_same _), cosd, radians_degrees]
    have hs' : ∀ a b : ℝ, Real.sin (atan2 a b) = sind (arctan2d a b) := fun a b => by
      rw [arctan2d, sind_same (put360_same _), sind, radians_degrees]
    rw [hc', hs', arctan2d_polar hs, cosd_same (put360_same _), sind_same (put360_same _)]

/-- C12 (disagreement with the comment "residuals are < 0.4 microns"): the centre
of the focal plane maps to s > 3.6 µm and comes back displaced by more than 4 µm. -/
theorem C12_centre_residual : 36 / 10000 < (xy2qs 0 0).2 ∧
    4 / 1000 < radius (qs2xy (xy2qs 0 0).1 (xy2qs 0 0).2) := by
  have hz : hypot 0 0 = 0 := by simp [hypot]
  have e : (xy2qs 0 0).2 = r2s 0 := by simp only [xy2qs, hz]
  have e1 : r2s 0 > 36 / 10000 := by rw [r2s_zero]; norm_num
  refine ⟨by rw [e]; exact e1, ?_⟩
  have h2 := (s2r_slope 0 (r2s 0) le_rfl (by linarith) (by rw [r2s_zero]; norm_num)).1
  rw [s2r_zero] at h2
  have h3 : r2s 0 = 0.003649100660 := r2s_zero
  have h4 : 4 / 1000 < s2r (r2s 0) := by
    rw [sub_zero] at h2
    have : (0.0003903161456:ℝ) + 99 / 100 * r2s 0 > 4 / 1000 := by rw [h3]; norm_num
    linarith
  have : radius (qs2xy (xy2qs 0 0).1 (xy2qs 0 0).2) = s2r (r2s 0) := by
    rw [e]
    exact hypot_polar (by linarith) _
  rw [this]; exact h4

example : radius ((300:ℝ), (200:ℝ)) ≤ 431 := by
  unfold radius
  rw [Real.sqrt_le_left (by norm_num)]; norm_num

end Verif.Props
