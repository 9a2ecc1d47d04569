import Verif.Model.Trig
import Verif.Lemmas.Xy2tp

namespace Verif.Lemmas.Trig
open Verif.Py Verif.Model.Trig Verif.Spec Verif.Lemmas Verif.Lemmas.Xy2tp

theorem put360_range (a : ℝ) : 0 ≤ put360 a ∧ put360 a < 360 := by
  unfold put360 fmod
  have h1 := Int.floor_le (a / 360)
  have h2 := Int.lt_floor_add_one (a / 360)
  rw [le_div_iff₀ (by norm_num)] at h1
  rw [div_lt_iff₀ (by norm_num)] at h2
  constructor <;> linarith

theorem put360_same (a : ℝ) : SameAngle (put360 a) a := by
  refine ⟨-⌊a / 360⌋, ?_⟩
  unfold put360 fmod; push_cast; ring

theorem radians_turn (a : ℝ) (k : ℤ) : radians (a + 360 * k) = radians a + k * (2 * Real.pi) := by
  unfold radians; ring

theorem cosd_same {a b : ℝ} (h : SameAngle a b) : cosd a = cosd b := by
  obtain ⟨k, rfl⟩ := h
  unfold cosd; rw [radians_turn, Real.cos_add_int_mul_two_pi]

theorem sind_same {a b : ℝ} (h : SameAngle a b) : sind a = sind b := by
  obtain ⟨k, rfl⟩ := h
  unfold sind; rw [radians_turn, Real.sin_add_int_mul_two_pi]

theorem radians_degrees (a : ℝ) : radians (degrees a) = a := by
  unfold radians degrees
  have := Real.pi_ne_zero
  field_simp

theorem hypot_norm (x y : ℝ) : hypot x y = ‖Complex.mk x y‖ := by
  unfold hypot
  rw [Complex.norm_def, Complex.normSq_mk]
  congr 1; ring

theorem cosd_arctan2d (x y : ℝ) : hypot x y * cosd (arctan2d y x) = x := by
  unfold arctan2d
  rw [cosd_same (put360_same _), cosd, radians_degrees, hypot_norm, atan2]
  exact Complex.norm_mul_cos_arg _

theorem sind_arctan2d (x y : ℝ) : hypot x y * sind (arctan2d y x) = y := by
  unfold arctan2d
  rw [sind_same (put360_same _), sind, radians_degrees, hypot_norm, atan2]
  exact Complex.norm_mul_sin_arg _

theorem sq_cosd_sind (a : ℝ) : cosd a ^ 2 + sind a ^ 2 = 1 := by
  unfold cosd sind; exact Real.cos_sq_add_sin_sq _

theorem hypot_polar {r : ℝ} (hr : 0 ≤ r) (a : ℝ) : hypot (r * cosd a) (r * sind a) = r := by
  unfold hypot
  rw [show (r * cosd a) ^ 2 + (r * sind a) ^ 2 = r ^ 2 * (cosd a ^ 2 + sind a ^ 2) by ring,
    sq_cosd_sind, mul_one, Real.sqrt_sq hr]

theorem hypot_nonneg (x y : ℝ) : 0 ≤ hypot x y := Real.sqrt_nonneg _

theorem dir_same {a b : ℝ} (h1 : cosd a = cosd b) (h2 : sind a = sind b) : SameAngle a b := by
  rw [← u_same]
  apply Complex.ext
  · rw [re_u, re_u]; exact h1
  · rw [im_u, im_u]; exact h2

/-- arctan2d of a polar form. -/
theorem arctan2d_polar {r : ℝ} (hr : 0 < r) (a : ℝ) :
    arctan2d (r * sind a) (r * cosd a) = put360 a := by
  have h1 := cosd_arctan2d (r * cosd a) (r * sind a)
  have h2 := sind_arctan2d (r * cosd a) (r * sind a)
  rw [hypot_polar hr.le] at h1 h2
  have h3 := dir_same (mul_left_cancel₀ hr.ne' h1) (mul_left_cancel₀ hr.ne' h2)
  have h4 := sameAngle_trans h3 (sameAngle_symm (put360_same a))
  obtain ⟨k, hk⟩ := h4
  have h5 : 0 ≤ arctan2d (r * sind a) (r * cosd a) ∧ arctan2d (r * sind a) (r * cosd a) < 360 := by
    unfold arctan2d; exact put360_range _
  have h6 := put360_range a
  have : k = 0 := by
    have a1 : (k:ℝ) < 1 := by linarith
    have a2 : (-1:ℝ) < k := by linarith
    have b1 : k < 1 := by exact_mod_cast a1
    have b2 : -1 < k := by exact_mod_cast a2
    omega
  rw [hk, this]; simp

theorem put360_id {a : ℝ} (h0 : 0 ≤ a) (h1 : a < 360) : put360 a = a := by
  unfold put360 fmod
  have : ⌊a / 360⌋ = 0 := by
    rw [Int.floor_eq_iff]
    constructor
    · push_cast; positivity
    · push_cast; rw [div_lt_iff₀ (by norm_num)]; linarith
  rw [this]; simp

/-- Representatives in [0,360) are unique. -/
theorem same_unique {a b : ℝ} (h : SameAngle a b) (ha : 0 ≤ a) (ha' : a < 360) (hb : 0 ≤ b)
    (hb' : b < 360) : a = b := by
  obtain ⟨k, hk⟩ := h
  have a1 : (k:ℝ) < 1 := by linarith
  have a2 : (-1:ℝ) < k := by linarith
  have b1 : k < 1 := by exact_mod_cast a1
  have b2 : -1 < k := by exact_mod_cast a2
  have : k = 0 := by omega
  rw [hk, this]; simp

end Verif.Lemmas.Trig
