import Verif.Model.Xy2tp
import Verif.Spec.Angle
import Verif.Lemmas.Sort
import Mathlib.Analysis.SpecialFunctions.Complex.Arg
import Mathlib.Analysis.SpecialFunctions.Complex.Log
import Mathlib.Tactic.Linarith
import Mathlib.Tactic.Ring
import Mathlib.Tactic.FieldSimp
import Mathlib.Tactic.Positivity

namespace Verif.Lemmas.Xy2tp
open Verif.Py Verif.Model.Xy2tp Verif.Spec Complex

/-! ### Wrapping -/

theorem wrap_same {a lo hi : ℝ} (h : (wrapIntoRange a lo hi).2 = false) :
    SameAngle (wrapIntoRange a lo hi).1 a ∧
      lo ≤ (wrapIntoRange a lo hi).1 ∧ (wrapIntoRange a lo hi).1 ≤ hi := by
  unfold wrapIntoRange at *
  dsimp only at *
  split_ifs at h ⊢ with h1 h2 h3 h4
  · have hfl := Int.floor_le ((hi - a) / 360)
    refine ⟨⟨⌊(hi - a) / 360⌋, by ring⟩, not_lt.1 h2, ?_⟩
    show a + (⌊(hi - a) / 360⌋ : ℤ) * 360 ≤ hi
    have := (le_div_iff₀ (by norm_num : (0:ℝ) < 360)).1 hfl
    linarith
  · have hfl := Int.floor_le ((a - lo) / 360)
    refine ⟨⟨-⌊(a - lo) / 360⌋, by push_cast; ring⟩, ?_, not_lt.1 h4⟩
    show lo ≤ a - (⌊(a - lo) / 360⌋ : ℤ) * 360
    have := (le_div_iff₀ (by norm_num : (0:ℝ) < 360)).1 hfl
    linarith
  · exact ⟨⟨0, by simp⟩, not_lt.1 h1, not_lt.1 h3⟩

theorem wrap_in {a lo hi : ℝ} (hle : lo ≤ hi) :
    lo ≤ (wrapIntoRange a lo hi).1 ∧ (wrapIntoRange a lo hi).1 ≤ hi := by
  by_cases h : (wrapIntoRange a lo hi).2 = false
  · exact (wrap_same h).2
  · unfold wrapIntoRange at *
    dsimp only at *
    split_ifs at h ⊢ with h1 h2 h3 h4 <;> simp_all

theorem wrap_ok {a lo hi : ℝ} {v : ℝ} (hv : SameAngle v a) (h1 : lo ≤ v) (h2 : v ≤ hi) :
    (wrapIntoRange a lo hi).2 = false := by
  obtain ⟨k, rfl⟩ := hv
  unfold wrapIntoRange
  dsimp only
  split_ifs with h3 h4 h5 h6
  · exfalso
    have hk : k ≤ ⌊(hi - a) / 360⌋ := by
      rw [Int.le_floor, le_div_iff₀ (by norm_num)]; linarith
    have : (k : ℝ) ≤ (⌊(hi - a) / 360⌋ : ℤ) := by exact_mod_cast hk
    linarith
  · rfl
  · exfalso
    have hk : -k ≤ ⌊(a - lo) / 360⌋ := by
      rw [Int.le_floor, le_div_iff₀ (by norm_num)]; push_cast; linarith
    have : ((-k : ℤ) : ℝ) ≤ (⌊(a - lo) / 360⌋ : ℤ) := by exact_mod_cast hk
    push_cast at this
    linarith
  · rfl
  · rfl

theorem wrap_id {a lo hi : ℝ} (h1 : lo ≤ a) (h2 : a ≤ hi) : wrapIntoRange a lo hi = (a, false) := by
  unfold wrapIntoRange
  rw [if_neg (not_lt.2 h1), if_neg (not_lt.2 h2)]

/-- With a full turn available wrapping always succeeds. -/
theorem wrap_full {a lo hi : ℝ} (h : lo + 360 ≤ hi) : (wrapIntoRange a lo hi).2 = false := by
  have h1 := Int.floor_le ((hi - a) / 360)
  have h2 := Int.lt_floor_add_one ((hi - a) / 360)
  rw [le_div_iff₀ (by norm_num)] at h1
  rw [div_lt_iff₀ (by norm_num)] at h2
  exact wrap_ok (v := a + 360 * (⌊(hi - a) / 360⌋ : ℤ)) ⟨_, rfl⟩ (by linarith) (by linarith)

theorem sameAngle_symm {a b : ℝ} (h : SameAngle a b) : SameAngle b a := by
  obtain ⟨k, rfl⟩ := h; exact ⟨-k, by push_cast; ring⟩

theorem sameAngle_trans {a b c : ℝ} (h : SameAngle a b) (h' : SameAngle b c) : SameAngle a c := by
  obtain ⟨k, rfl⟩ := h; obtain ⟨l, rfl⟩ := h'; exact ⟨l + k, by push_cast; ring⟩

theorem sameAngle_unique {a b lo hi : ℝ} (h : SameAngle a b) (hw : hi < lo + 360)
    (ha : lo ≤ a ∧ a ≤ hi) (hb : lo ≤ b ∧ b ≤ hi) : a = b := by
  obtain ⟨k, rfl⟩ := h
  have h1 : (k:ℝ) < 1 := by linarith [ha.2, hb.1]
  have h2 : (-1:ℝ) < k := by linarith [ha.1, hb.2]
  have h1' : k < 1 := by exact_mod_cast h1
  have h2' : -1 < k := by exact_mod_cast h2
  have : k = 0 := by omega
  simp [this]

theorem sameAngle_two {a b lo hi : ℝ} (h : SameAngle a b) (hw : hi < lo + 720)
    (ha : lo ≤ a ∧ a ≤ hi) (hb : lo ≤ b ∧ b ≤ hi) : a = b ∨ a = b + 360 ∨ a = b + (-360) := by
  obtain ⟨k, rfl⟩ := h
  have h1 : (k:ℝ) < 2 := by linarith [ha.2, hb.1]
  have h2 : (-2:ℝ) < k := by linarith [ha.1, hb.2]
  have h1' : k < 2 := by exact_mod_cast h1
  have h2' : -2 < k := by exact_mod_cast h2
  have : k = 0 ∨ k = 1 ∨ k = -1 := by omega
  rcases this with rfl | rfl | rfl <;> simp

/-! ### Complex form of the linkage -/

/-- Unit vector of an angle in degrees. -/
noncomputable def u (a : ℝ) : ℂ := exp ((radians a : ℝ) * I)

/-- Complex number of a planar point. -/
def toC (a : ℝ × ℝ) : ℂ := ⟨a.1, a.2⟩

theorem toC_inj {a b : ℝ × ℝ} (h : toC a = toC b) : a = b := by
  have h1 := congrArg Complex.re h
  have h2 := congrArg Complex.im h
  exact Prod.ext h1 h2

theorem u_add (a b : ℝ) : u (a + b) = u a * u b := by
  unfold u radians; rw [← Complex.exp_add]; congr 1; push_cast; ring

theorem u_turn (k : ℤ) : u (360 * k) = 1 := by
  unfold u radians
  rw [Complex.exp_eq_one_iff]
  exact ⟨k, by push_cast; ring⟩

theorem u_same {a b : ℝ} : u a = u b ↔ SameAngle a b := by
  constructor
  · intro h
    unfold u at h
    rw [Complex.exp_eq_exp_iff_exists_int] at h
    obtain ⟨k, hk⟩ := h
    refine ⟨k, ?_⟩
    have h2 := congrArg Complex.im hk
    simp [radians] at h2
    have hpi := Real.pi_ne_zero
    field_simp at h2
    linarith
  · rintro ⟨k, rfl⟩
    rw [u_add, u_turn, mul_one]

theorem norm_u (a : ℝ) : ‖u a‖ = 1 := by
  unfold u; exact Complex.norm_exp_ofReal_mul_I _

theorem u_ne (a : ℝ) : u a ≠ 0 := Complex.exp_ne_zero _

theorem u_degrees (a : ℝ) : u (degrees a) = exp (a * I) := by
  unfold u degrees radians
  congr 2
  have := Real.pi_ne_zero
  norm_cast
  field_simp

theorem re_u (a : ℝ) : (u a).re = Real.cos (radians a) := by
  unfold u; rw [Complex.exp_ofReal_mul_I_re]

theorem im_u (a : ℝ) : (u a).im = Real.sin (radians a) := by
  unfold u; rw [Complex.exp_ofReal_mul_I_im]

theorem toC_tp2xy (tp : ℝ × ℝ) (r1 r2 : ℝ) :
    toC (tp2xy tp r1 r2) = r1 * u tp.1 + r2 * (u tp.1 * u tp.2) := by
  rw [← u_add]
  apply Complex.ext
  · simp [toC, tp2xy, re_u, radians]; ring_nf; tauto
  · simp [toC, tp2xy, im_u, radians]; ring_nf; tauto

theorem dist2_eq (a b : ℝ × ℝ) : dist2 a b = ‖toC a - toC b‖ := by
  unfold dist2 toC
  rw [Complex.norm_eq_sqrt_sq_add_sq]
  simp

theorem radius_eq (a : ℝ × ℝ) : radius a = ‖toC a‖ := by
  unfold radius toC
  rw [Complex.norm_eq_sqrt_sq_add_sq]

theorem hypot_eq (x y : ℝ) : hypot x y = ‖toC (x, y)‖ := by
  unfold hypot toC
  rw [Complex.norm_eq_sqrt_sq_add_sq]

/-! ### The law of cosines -/

theorem normSq_link (r1 r2 p : ℝ) :
    ‖(r1 : ℂ) + r2 * u p‖ ^ 2 = r1 ^ 2 + r2 ^ 2 + 2 * r1 * r2 * Real.cos (radians p) := by
  rw [Complex.sq_norm, Complex.normSq_apply]
  simp [re_u, im_u]
  have := Real.sin_sq_add_cos_sq (radians p)
  ring_nf
  nlinarith [this]

theorem norm_tip (tp : ℝ × ℝ) (r1 r2 : ℝ) :
    ‖toC (tp2xy tp r1 r2)‖ = ‖(r1 : ℂ) + r2 * u tp.2‖ := by
  rw [toC_tp2xy, show (r1:ℂ) * u tp.1 + r2 * (u tp.1 * u tp.2) = u tp.1 * (r1 + r2 * u tp.2) by ring,
    norm_mul, norm_u, one_mul]

/-- The tip never leaves the annulus. -/
theorem tip_annulus (tp : ℝ × ℝ) {r1 r2 : ℝ} (h1 : 0 ≤ r1) (h2 : 0 ≤ r2) :
    |r1 - r2| ≤ ‖toC (tp2xy tp r1 r2)‖ ∧ ‖toC (tp2xy tp r1 r2)‖ ≤ r1 + r2 := by
  rw [norm_tip]
  have e2 : ‖(r2:ℂ) * u tp.2‖ = r2 := by rw [norm_mul, norm_u, Complex.norm_real, Real.norm_of_nonneg h2, mul_one]
  have e1 : ‖(r1:ℂ)‖ = r1 := by rw [Complex.norm_real, Real.norm_of_nonneg h1]
  constructor
  · have := abs_norm_sub_norm_le (r1:ℂ) (-(r2 * u tp.2))
    rw [norm_neg, e1, e2, sub_neg_eq_add] at this
    exact this
  · have := norm_add_le (r1:ℂ) (r2 * u tp.2)
    rwa [e1, e2] at this

/-! ### Clamping the radius -/

theorem contraction_pos : 0 < contraction := by
  unfold contraction epsilon; positivity

theorem clamp_bounds {hyp r1 r2 : ℝ} (h1 : contraction ≤ r1) (h2 : contraction ≤ r2) :
    |r1 - r2| + contraction ≤ clampHypot hyp r1 r2 ∧
      clampHypot hyp r1 r2 ≤ r1 + r2 - contraction := by
  have hc : |r1 - r2| + contraction ≤ r1 + r2 - contraction := by
    rcases abs_cases (r1 - r2) with ⟨h, _⟩ | ⟨h, _⟩ <;> rw [h] <;> linarith
  unfold clampHypot
  dsimp only
  split_ifs with h3 h4
  · exact ⟨hc, le_rfl⟩
  · exact ⟨le_rfl, hc⟩
  · exact ⟨(not_le.1 h4).le, (not_le.1 h3).le⟩

theorem clamp_id {hyp r1 r2 : ℝ} (h1 : |r1 - r2| + contraction ≤ hyp)
    (h2 : hyp ≤ r1 + r2 - contraction) : clampHypot hyp r1 r2 = hyp := by
  unfold clampHypot
  dsimp only
  split_ifs with h3 h4
  · exact le_antisymm h3 h2
  · exact le_antisymm h1 h4
  · rfl

theorem clamp_near {hyp r1 r2 : ℝ} (h : annulusFail hyp r1 r2 = false) :
    |clampHypot hyp r1 r2 - hyp| ≤ contraction := by
  have hc := contraction_pos
  unfold annulusFail at h
  simp only [decide_eq_false_iff_not, not_or, not_lt, gt_iff_lt] at h
  unfold clampHypot
  dsimp only
  split_ifs with h3 h4
  · rw [abs_le]; constructor <;> linarith
  · rw [abs_le]; constructor <;> linarith
  · rw [sub_self, abs_zero]; exact hc.le

/-- The clamped radius is the closest radius inside the contracted annulus. -/
theorem clamp_closest {hyp r1 r2 ρ : ℝ} (hρ1 : |r1 - r2| + contraction ≤ ρ)
    (hρ2 : ρ ≤ r1 + r2 - contraction) : |clampHypot hyp r1 r2 - hyp| ≤ |ρ - hyp| := by
  unfold clampHypot
  dsimp only
  generalize |r1 - r2| + contraction = q at *
  split_ifs with h3 h4
  · rw [abs_of_nonpos (by linarith), abs_of_nonpos (by linarith)]; linarith
  · rw [abs_of_nonneg (by linarith), abs_of_nonneg (by linarith)]; linarith
  · rw [sub_self, abs_zero]; exact abs_nonneg _

/-! ### The primary solution -/

section
variable {r1 r2 H α : ℝ}

theorem xy_sq (H α : ℝ) : (H * Real.cos α) ^ 2 + (H * Real.sin α) ^ 2 = H ^ 2 := by
  have := Real.sin_sq_add_cos_sq α
  nlinarith [this]

theorem xy_toC (H α : ℝ) : toC (H * Real.cos α, H * Real.sin α) = H * exp (α * I) := by
  apply Complex.ext
  · simp [toC, Complex.exp_ofReal_mul_I_re]
  · simp [toC, Complex.exp_ofReal_mul_I_im]

theorem arccosArg_eq (h1 : 0 < r1) (h2 : 0 < r2) (hl : |r1 - r2| ≤ H) (hu : H ≤ r1 + r2) :
    arccosArg (H * Real.cos α) (H * Real.sin α) r1 r2 =
        (H ^ 2 - (r1 ^ 2 + r2 ^ 2)) / (2 * r1 * r2) ∧
      -1 ≤ (H ^ 2 - (r1 ^ 2 + r2 ^ 2)) / (2 * r1 * r2) ∧
      (H ^ 2 - (r1 ^ 2 + r2 ^ 2)) / (2 * r1 * r2) ≤ 1 := by
  have hp : 0 < 2 * r1 * r2 := by positivity
  have hH : 0 ≤ H := (abs_nonneg _).trans hl
  have a1 : -1 ≤ (H ^ 2 - (r1 ^ 2 + r2 ^ 2)) / (2 * r1 * r2) := by
    rw [le_div_iff₀ hp]
    have : (r1 - r2) ^ 2 ≤ H ^ 2 := by rw [← sq_abs (r1 - r2)]; gcongr
    nlinarith
  have a2 : (H ^ 2 - (r1 ^ 2 + r2 ^ 2)) / (2 * r1 * r2) ≤ 1 := by
    rw [div_le_iff₀ hp]
    nlinarith
  refine ⟨?_, a1, a2⟩
  unfold arccosArg
  rw [xy_sq, max_eq_left a1, min_eq_left a2]

theorem link_eq (r1 r2 P : ℝ) :
    (⟨r1 + r2 * Real.cos P, r2 * Real.sin P⟩ : ℂ) = r1 + r2 * exp (P * I) := by
  apply Complex.ext
  · simp [Complex.exp_ofReal_mul_I_re]
  · simp [Complex.exp_ofReal_mul_I_im]

/-- The phi angle of the primary solution makes the linkage as long as `H`. -/
theorem link_norm (h1 : 0 < r1) (h2 : 0 < r2) (hl : |r1 - r2| ≤ H) (hu : H ≤ r1 + r2) :
    ‖(r1 : ℂ) + r2 * exp (Real.arccos (arccosArg (H * Real.cos α) (H * Real.sin α) r1 r2) * I)‖ = H := by
  obtain ⟨e, a1, a2⟩ := arccosArg_eq (α := α) h1 h2 hl hu
  have hH : 0 ≤ H := (abs_nonneg _).trans hl
  rw [e]
  have := normSq_link r1 r2 (degrees (Real.arccos ((H ^ 2 - (r1 ^ 2 + r2 ^ 2)) / (2 * r1 * r2))))
  rw [u_degrees] at this
  have hr : ∀ a, radians (degrees a) = a := by
    intro a; unfold radians degrees; have := Real.pi_ne_zero; field_simp
  rw [hr, Real.cos_arccos a1 a2] at this
  have e2 : r1 ^ 2 + r2 ^ 2 + 2 * r1 * r2 * ((H ^ 2 - (r1 ^ 2 + r2 ^ 2)) / (2 * r1 * r2)) = H ^ 2 := by
    field_simp; ring
  rw [e2] at this
  exact (sq_eq_sq₀ (norm_nonneg _) hH).1 this

theorem exp_thetaOf {P : ℝ} (hz : ‖(r1 : ℂ) + r2 * exp (P * I)‖ = H) :
    exp (thetaOf α P r1 r2 * I) * (r1 + r2 * exp (P * I)) = H * exp (α * I) := by
  unfold thetaOf atan2
  rw [link_eq]
  set z : ℂ := (r1 : ℂ) + r2 * exp (P * I)
  have h := Complex.norm_mul_exp_arg_mul_I z
  rw [hz] at h
  push_cast
  rw [sub_mul, Complex.exp_sub]
  nth_rewrite 2 [← h]
  have := Complex.exp_ne_zero (z.arg * I)
  field_simp

theorem primary_tip {P : ℝ} (hz : ‖(r1 : ℂ) + r2 * exp (P * I)‖ = H) :
    toC (tp2xy (degrees (thetaOf α P r1 r2), degrees P) r1 r2) = H * exp (α * I) := by
  rw [toC_tp2xy]
  simp only [u_degrees]
  rw [← exp_thetaOf hz]; ring

end

/-! ### The reflected solution -/

theorem reflected_tip {r1 r2 : ℝ} (h1 : 0 < r1) (X Y T : ℝ) (hD : toC (X, Y) ≠ 0)
    (hd : ‖toC (X, Y) - r1 * exp (T * I)‖ = r2) :
    toC (tp2xy (reflected X Y T r1) r1 r2) = toC (X, Y) ∧
    (starRingEnd ℂ) (toC (X, Y)) * u (reflected X Y T r1).1
      = toC (X, Y) * (starRingEnd ℂ) (exp (T * I)) := by
  set D : ℂ := toC (X, Y) with hDdef
  have hDs : X ^ 2 + Y ^ 2 ≠ 0 := by
    intro h
    apply hD
    have hx : X = 0 := by nlinarith [sq_nonneg X, sq_nonneg Y]
    have hy : Y = 0 := by nlinarith [sq_nonneg X, sq_nonneg Y]
    rw [hDdef, hx, hy]; rfl
  set t : ℂ := exp (T * I) with ht
  -- the reflected theta vector
  set tx := r1 * Real.cos T
  set ty := r1 * Real.sin T
  set a : ℂ := ⟨if X = 0 then -tx else ((1 - (Y / X) ^ 2) * tx + 2 * (Y / X) * ty) / ((Y / X) ^ 2 + 1),
    if X = 0 then ty else (((Y / X) ^ 2 - 1) * ty + 2 * (Y / X) * tx) / ((Y / X) ^ 2 + 1)⟩ with ha
  have hcD : (starRingEnd ℂ) D ≠ 0 := by rwa [Ne, map_eq_zero]
  have key : (starRingEnd ℂ) D * a = D * (starRingEnd ℂ) (r1 * t) := by
    have etx : ((r1:ℂ) * t).re = tx := by simp [ht, tx, Complex.exp_ofReal_mul_I_re]
    have ety : ((r1:ℂ) * t).im = ty := by simp [ht, ty, Complex.exp_ofReal_mul_I_im]
    by_cases hX : X = 0
    · apply Complex.ext
      · simp only [Complex.mul_re, Complex.conj_re, Complex.conj_im, etx, ety]
        simp [ha, hDdef, toC, hX]
      · simp only [Complex.mul_im, Complex.conj_re, Complex.conj_im, etx, ety]
        simp [ha, hDdef, toC, hX]
    · have hm : (Y / X) ^ 2 + 1 ≠ 0 := by positivity
      have hm' : Y ^ 2 + X ^ 2 ≠ 0 := by rwa [add_comm]
      apply Complex.ext
      · simp only [Complex.mul_re, Complex.conj_re, Complex.conj_im, etx, ety]
        simp [ha, hDdef, toC, hX]
        field_simp
        ring
      · simp only [Complex.mul_im, Complex.conj_re, Complex.conj_im, etx, ety]
        simp [ha, hDdef, toC, hX]
        field_simp
        ring
  have nt : ‖t‖ = 1 := Complex.norm_exp_ofReal_mul_I T
  have nr : ‖(r1:ℂ)‖ = r1 := by rw [Complex.norm_real, Real.norm_of_nonneg h1.le]
  have na : ‖a‖ = r1 := by
    have := congrArg norm key
    rw [norm_mul, norm_mul, RCLike.norm_conj, RCLike.norm_conj, norm_mul, nt, nr, mul_one] at this
    exact mul_left_cancel₀ (norm_ne_zero_iff.2 hD) this
  have nb : ‖D - a‖ = r2 := by
    have : (starRingEnd ℂ) D * (D - a) = D * (starRingEnd ℂ) (D - r1 * t) := by
      rw [mul_sub, key, map_sub]; ring
    have := congrArg norm this
    rw [norm_mul, norm_mul, RCLike.norm_conj, RCLike.norm_conj, hd] at this
    exact mul_left_cancel₀ (norm_ne_zero_iff.2 hD) this
  have e1 : (reflected X Y T r1).1 = degrees a.arg := rfl
  have e2 : (reflected X Y T r1).2 = degrees ((D - a).arg - a.arg) := rfl
  have u1 : (r1:ℂ) * u (reflected X Y T r1).1 = a := by
    rw [e1, u_degrees, ← na]; exact Complex.norm_mul_exp_arg_mul_I a
  constructor
  · rw [toC_tp2xy, u1, e1, e2, u_degrees, u_degrees, ← Complex.exp_add]
    have : (a.arg : ℂ) * I + ((D - a).arg - a.arg : ℝ) * I = (D - a).arg * I := by push_cast; ring
    rw [this, ← nb, Complex.norm_mul_exp_arg_mul_I]; ring
  · have hr : (r1:ℂ) ≠ 0 := by exact_mod_cast h1.ne'
    have : (r1:ℂ) * ((starRingEnd ℂ) D * u (reflected X Y T r1).1) = r1 * (D * (starRingEnd ℂ) t) := by
      rw [show (r1:ℂ) * ((starRingEnd ℂ) D * u (reflected X Y T r1).1)
        = (starRingEnd ℂ) D * (r1 * u (reflected X Y T r1).1) by ring, u1, key, map_mul,
        Complex.conj_ofReal]; ring
    exact mul_left_cancel₀ hr this

/-! ### There are only two configurations -/

theorem unit_re_eq {b d : ℂ} (hb : ‖b‖ = 1) (hd : ‖d‖ = 1) (h : b.re = d.re) :
    b = d ∨ b = (starRingEnd ℂ) d := by
  have h1 : b.re ^ 2 + b.im ^ 2 = 1 := by
    have := Complex.sq_norm b; rw [Complex.normSq_apply, hb] at this; nlinarith
  have h2 : d.re ^ 2 + d.im ^ 2 = 1 := by
    have := Complex.sq_norm d; rw [Complex.normSq_apply, hd] at this; nlinarith
  have : (b.im - d.im) * (b.im + d.im) = 0 := by rw [h] at h1; nlinarith
  rcases mul_eq_zero.1 this with h3 | h3
  · left; exact Complex.ext h (by linarith)
  · right; exact Complex.ext (by simpa using h) (by simp; linarith)

theorem two_configs {r1 r2 : ℝ} (h1 : 0 < r1) (h2 : 0 < r2) {a b c d D : ℂ} (hD : D ≠ 0)
    (ha : ‖a‖ = 1) (hb : ‖b‖ = 1) (hc : ‖c‖ = 1) (hd : ‖d‖ = 1)
    (e1 : r1 * a + r2 * (a * b) = D) (e2 : r1 * c + r2 * (c * d) = D) :
    (a = c ∧ b = d) ∨ (starRingEnd ℂ) D * a = D * (starRingEnd ℂ) c := by
  have r1' : (r1:ℂ) ≠ 0 := by exact_mod_cast h1.ne'
  have r2' : (r2:ℂ) ≠ 0 := by exact_mod_cast h2.ne'
  have f1 : a * (r1 + r2 * b) = D := by rw [← e1]; ring
  have f2 : c * (r1 + r2 * d) = D := by rw [← e2]; ring
  have g : ‖(r1:ℂ) + r2 * b‖ ^ 2 = ‖(r1:ℂ) + r2 * d‖ ^ 2 := by
    have k1 := congrArg norm f1
    have k2 := congrArg norm f2
    rw [norm_mul, ha, one_mul] at k1
    rw [norm_mul, hc, one_mul] at k2
    rw [k1, k2]
  have hre : b.re = d.re := by
    rw [Complex.sq_norm, Complex.sq_norm, Complex.normSq_apply, Complex.normSq_apply] at g
    simp at g
    have q1 : b.re ^ 2 + b.im ^ 2 = 1 := by
      have := Complex.sq_norm b; rw [Complex.normSq_apply, hb] at this; nlinarith
    have q2 : d.re ^ 2 + d.im ^ 2 = 1 := by
      have := Complex.sq_norm d; rw [Complex.normSq_apply, hd] at this; nlinarith
    have q3 : 2 * r1 * r2 * b.re + r2 ^ 2 * (b.re ^ 2 + b.im ^ 2)
        = 2 * r1 * r2 * d.re + r2 ^ 2 * (d.re ^ 2 + d.im ^ 2) := by linarith
    rw [q1, q2] at q3
    have : 2 * r1 * r2 * b.re = 2 * r1 * r2 * d.re := by linarith
    exact mul_left_cancel₀ (by positivity) this
  rcases unit_re_eq hb hd hre with h | h
  · left
    refine ⟨?_, h⟩
    rw [h] at f1
    have hw : (r1:ℂ) + r2 * d ≠ 0 := by
      intro h0; rw [h0, mul_zero] at f1; exact hD f1.symm
    exact mul_right_cancel₀ hw (f1.trans f2.symm)
  · right
    have f2c : (starRingEnd ℂ) c * (r1 + r2 * b) = (starRingEnd ℂ) D := by
      rw [← f2, map_mul, map_add, map_mul, Complex.conj_ofReal, Complex.conj_ofReal, h]
    rw [← f2c, ← f1]; ring

/-! ### Options are wrapped configurations -/

theorem mkOpt_inRange (tp : ℝ × ℝ) (rg : Ranges) :
    InRange rg.t (mkOpt tp rg).tp.1 ∧ InRange rg.p (mkOpt tp rg).tp.2 := by
  constructor
  · exact wrap_in (min_le_max)
  · exact wrap_in (min_le_max)

theorem mkOpt_ok {tp : ℝ × ℝ} {rg : Ranges} (h : (mkOpt tp rg).rangeFail = false) :
    SameAngle (mkOpt tp rg).tp.1 tp.1 ∧ SameAngle (mkOpt tp rg).tp.2 tp.2 := by
  have h' : ((wrapIntoRange tp.1 (min rg.t.1 rg.t.2) (max rg.t.1 rg.t.2)).2 ||
    (wrapIntoRange tp.2 (min rg.p.1 rg.p.2) (max rg.p.1 rg.p.2)).2) = false := h
  rw [Bool.or_eq_false_iff] at h'
  exact ⟨(wrap_same h'.1).1, (wrap_same h'.2).1⟩

theorem mkOpt_tip {tp : ℝ × ℝ} {rg : Ranges} (r1 r2 : ℝ) (h : (mkOpt tp rg).rangeFail = false) :
    tp2xy (mkOpt tp rg).tp r1 r2 = tp2xy tp r1 r2 := by
  apply toC_inj
  rw [toC_tp2xy, toC_tp2xy, u_same.2 (mkOpt_ok h).1, u_same.2 (mkOpt_ok h).2]

theorem mkOpt_reach {tp tp' : ℝ × ℝ} {rg : Ranges} (ht : SameAngle tp'.1 tp.1)
    (hp : SameAngle tp'.2 tp.2) (hti : InRange rg.t tp'.1) (hpi : InRange rg.p tp'.2) :
    (mkOpt tp rg).rangeFail = false := by
  show ((wrapIntoRange tp.1 (min rg.t.1 rg.t.2) (max rg.t.1 rg.t.2)).2 ||
    (wrapIntoRange tp.2 (min rg.p.1 rg.p.2) (max rg.p.1 rg.p.2)).2) = false
  rw [wrap_ok ht hti.1 hti.2, wrap_ok hp hpi.1 hpi.2]; rfl

theorem mkOpt_id {tp : ℝ × ℝ} {rg : Ranges} (hti : InRange rg.t tp.1) (hpi : InRange rg.p tp.2) :
    mkOpt tp rg = ⟨tp, false⟩ := by
  unfold mkOpt wrapTP
  rw [wrap_id hti.1 hti.2, wrap_id hpi.1 hpi.2]
  rfl

/-! ### Selection -/

/-- `o` is at least as good as `o'`: in range first, then within tolerance, then close. -/
def Better (g tol : ℝ) (o o' : Opt) : Prop :=
  (o'.rangeFail = false → o.rangeFail = false) ∧
  (o'.rangeFail = o.rangeFail → closenessFail g tol o' = false → closenessFail g tol o = false) ∧
  (o'.rangeFail = o.rangeFail → closenessFail g tol o' = closenessFail g tol o →
    closeness g o ≤ closeness g o')

theorem select_mem {g tol : ℝ} {primary : Opt} {l : List Opt} (h : primary ∈ l) :
    select g tol primary l ∈ l := by
  unfold select
  dsimp only
  split_ifs
  · exact h
  · set s := pySort (·.rangeFail) (pySort (closenessFail g tol) (pySort (closeness g) l)) with hs
    cases hl : s with
    | nil => simpa using h
    | cons a t =>
      have ha : a ∈ s := by rw [hl]; simp
      rw [hs, mem_pySort, mem_pySort, mem_pySort] at ha
      simpa using ha

theorem select_allFail {g tol : ℝ} {primary : Opt} {l : List Opt}
    (h : (∀ o ∈ l, closenessFail g tol o = true) ∨ (∀ o ∈ l, o.rangeFail = true)) :
    select g tol primary l = primary := by
  unfold select
  dsimp only
  rw [if_pos]
  rw [Bool.or_eq_true, List.all_eq_true, List.all_eq_true]
  exact h

theorem select_best {g tol : ℝ} {primary : Opt} {l : List Opt}
    (h1 : ∃ o ∈ l, closenessFail g tol o = false) (h2 : ∃ o ∈ l, o.rangeFail = false) :
    ∀ o ∈ l, Better g tol (select g tol primary l) o := by
  obtain ⟨o1, m1, f1⟩ := h1
  obtain ⟨o2, m2, f2⟩ := h2
  intro o ho
  unfold select
  dsimp only
  rw [if_neg]
  · set l1 := pySort (closeness g) l with hl1
    set l2 := pySort (closenessFail g tol) l1 with hl2
    set l3 := pySort (·.rangeFail) l2 with hl3
    have p1 := sorted_pySort (closeness g) l
    have p2 := resort_pairwise (closenessFail g tol) l1 p1
    have p3 := resort_pairwise (·.rangeFail) l2 p2
    rw [← hl3] at p3
    have hm : ∀ x, x ∈ l3 ↔ x ∈ l := by
      intro x; rw [hl3, mem_pySort, hl2, mem_pySort, hl1, mem_pySort]
    cases hl : l3 with
    | nil => have := (hm o).2 ho; rw [hl] at this; simp at this
    | cons a t =>
      have ho' := (hm o).2 ho
      rw [hl] at ho' p3
      simp only [List.headD_cons]
      rcases List.mem_cons.1 ho' with rfl | ho'
      · exact ⟨fun h => h, fun _ h => h, fun _ _ => le_rfl⟩
      · have := (List.pairwise_cons.1 p3).1 o ho'
        rcases this with h | ⟨h, h'⟩
        · refine ⟨fun e => ?_, fun e => ?_, fun e => ?_⟩
          · rw [e] at h; exact absurd h (by cases a.rangeFail <;> decide)
          · rw [e] at h; exact absurd h (lt_irrefl _)
          · rw [e] at h; exact absurd h (lt_irrefl _)
        · refine ⟨fun e => ?_, fun _ e => ?_, fun _ e => ?_⟩
          · rw [h]; exact e
          · rcases h' with h' | ⟨h', _⟩
            · rw [e] at h'; exact absurd h' (by cases closenessFail g tol a <;> decide)
            · rw [h']; exact e
          · rcases h' with h' | ⟨_, h'⟩
            · rw [e] at h'; exact absurd h' (lt_irrefl _)
            · exact h'
  · rw [Bool.or_eq_true, List.all_eq_true, List.all_eq_true]
    rintro (h | h)
    · have := h o1 m1; rw [f1] at this; simp at this
    · have := h o2 m2; rw [f2] at this; simp at this

/-! ### The whole function -/

/-- The primary configuration in degrees, before wrapping. -/
noncomputable def rawPrimary (x y r1 r2 : ℝ) : ℝ × ℝ :=
  let H := clampHypot (hypot x y) r1 r2
  let α := atan2 y x
  let P := Real.arccos (arccosArg (H * Real.cos α) (H * Real.sin α) r1 r2)
  (degrees (thetaOf α P r1 r2), degrees P)

/-- The reflected configuration in degrees, before wrapping. -/
noncomputable def rawAlt (x y r1 r2 : ℝ) : ℝ × ℝ :=
  let H := clampHypot (hypot x y) r1 r2
  let α := atan2 y x
  let P := Real.arccos (arccosArg (H * Real.cos α) (H * Real.sin α) r1 r2)
  reflected (H * Real.cos α) (H * Real.sin α) (thetaOf α P r1 r2) r1

/-- All options considered with a guess. -/
noncomputable def options (x y r1 r2 : ℝ) (rg : Ranges) : List Opt :=
  optionList (mkOpt (rawPrimary x y r1 r2) rg) (rawAlt x y r1 r2) rg

theorem xy2tp_none {r1 r2 : ℝ} (h1 : 0 < r1) (h2 : 0 < r2) (x y : ℝ) (rg : Ranges) (tol : ℝ) :
    xy2tp x y r1 r2 rg none tol = .ok ((mkOpt (rawPrimary x y r1 r2) rg).tp,
      annulusFail (hypot x y) r1 r2 || (mkOpt (rawPrimary x y r1 r2) rg).rangeFail) := by
  have : ¬ 2 * r1 * r2 = 0 := by positivity
  unfold xy2tp
  rw [if_neg this]
  rfl

theorem xy2tp_some {r1 r2 : ℝ} (h1 : 0 < r1) (h2 : 0 < r2) (x y : ℝ) (rg : Ranges) (g tol : ℝ) :
    xy2tp x y r1 r2 rg (some g) tol =
      .ok ((select g tol (mkOpt (rawPrimary x y r1 r2) rg) (options x y r1 r2 rg)).tp,
      annulusFail (hypot x y) r1 r2 ||
        (select g tol (mkOpt (rawPrimary x y r1 r2) rg) (options x y r1 r2 rg)).rangeFail) := by
  have : ¬ 2 * r1 * r2 = 0 := by positivity
  unfold xy2tp
  rw [if_neg this]
  rfl

theorem mem_options {x y r1 r2 : ℝ} {rg : Ranges} {o : Opt} :
    o ∈ options x y r1 r2 rg ↔
      ∃ b, (b = mkOpt (rawPrimary x y r1 r2) rg ∨ b = mkOpt (rawAlt x y r1 r2) rg) ∧
        (o = b ∨ (b.rangeFail = false ∧ (o = mkOpt (b.tp.1 + (-360), b.tp.2) rg ∨
          o = mkOpt (b.tp.1 + 360, b.tp.2) rg))) := by
  have ht : ∀ b : Opt, o ∈ turns rg b ↔ (b.rangeFail = false ∧
      (o = mkOpt (b.tp.1 + (-360), b.tp.2) rg ∨ o = mkOpt (b.tp.1 + 360, b.tp.2) rg)) := by
    intro b
    unfold turns
    split
    · next h => simp [h]
    · next h => simp [h]
  unfold options optionList
  simp only [List.mem_append, List.mem_flatMap, List.mem_cons, List.not_mem_nil, or_false, ht]
  constructor
  · rintro ((h | h) | ⟨b, hb, h⟩)
    · exact ⟨_, Or.inl rfl, Or.inl h⟩
    · exact ⟨_, Or.inr rfl, Or.inl h⟩
    · exact ⟨b, hb, Or.inr h⟩
  · rintro ⟨b, hb, h | h⟩
    · subst h; exact Or.inl hb
    · exact Or.inr ⟨b, hb, h⟩

/-- The point of the contracted annulus that is aimed at. -/
noncomputable def aim (x y r1 r2 : ℝ) : ℂ :=
  clampHypot (hypot x y) r1 r2 * exp (atan2 y x * I)

section
variable {x y r1 r2 : ℝ} (h1 : contraction ≤ r1) (h2 : contraction ≤ r2)
include h1 h2

theorem aim_pos : 0 < clampHypot (hypot x y) r1 r2 := by
  have := (clamp_bounds (hyp := hypot x y) h1 h2).1
  have := contraction_pos
  have := abs_nonneg (r1 - r2)
  linarith

theorem link_aim : ‖(r1 : ℂ) + r2 * exp (Real.arccos (arccosArg
    (clampHypot (hypot x y) r1 r2 * Real.cos (atan2 y x))
    (clampHypot (hypot x y) r1 r2 * Real.sin (atan2 y x)) r1 r2) * I)‖
      = clampHypot (hypot x y) r1 r2 := by
  have hb := clamp_bounds (hyp := hypot x y) h1 h2
  have hc := contraction_pos
  exact link_norm (by linarith) (by linarith) (by linarith) (by linarith)

theorem rawPrimary_tip : toC (tp2xy (rawPrimary x y r1 r2) r1 r2) = aim x y r1 r2 :=
  primary_tip (link_aim h1 h2)

theorem aim_ne : aim x y r1 r2 ≠ 0 := by
  unfold aim
  refine mul_ne_zero ?_ (Complex.exp_ne_zero _)
  exact_mod_cast (aim_pos h1 h2).ne'

theorem rawAlt_spec : toC (tp2xy (rawAlt x y r1 r2) r1 r2) = aim x y r1 r2 ∧
    (starRingEnd ℂ) (aim x y r1 r2) * u (rawAlt x y r1 r2).1
      = aim x y r1 r2 * (starRingEnd ℂ) (u (rawPrimary x y r1 r2).1) := by
  have hc := contraction_pos
  have hr2 : 0 < r2 := by linarith
  have hp := rawPrimary_tip (x := x) (y := y) h1 h2
  have hn := aim_ne (x := x) (y := y) h1 h2
  have e : toC (clampHypot (hypot x y) r1 r2 * Real.cos (atan2 y x),
      clampHypot (hypot x y) r1 r2 * Real.sin (atan2 y x)) = aim x y r1 r2 := xy_toC _ _
  have hu : u (rawPrimary x y r1 r2).1 = exp ((thetaOf (atan2 y x) (Real.arccos (arccosArg
    (clampHypot (hypot x y) r1 r2 * Real.cos (atan2 y x))
    (clampHypot (hypot x y) r1 r2 * Real.sin (atan2 y x)) r1 r2)) r1 r2 : ℝ) * I) := u_degrees _
  have := reflected_tip (r1 := r1) (r2 := r2) (by linarith)
    (clampHypot (hypot x y) r1 r2 * Real.cos (atan2 y x))
    (clampHypot (hypot x y) r1 r2 * Real.sin (atan2 y x))
    (thetaOf (atan2 y x) (Real.arccos (arccosArg
    (clampHypot (hypot x y) r1 r2 * Real.cos (atan2 y x))
    (clampHypot (hypot x y) r1 r2 * Real.sin (atan2 y x)) r1 r2)) r1 r2)
    (by rw [e]; exact hn)
    (by
      rw [e, ← hu, ← hp, toC_tp2xy]
      rw [show (r1:ℂ) * u (rawPrimary x y r1 r2).1 + r2 * (u (rawPrimary x y r1 r2).1 *
        u (rawPrimary x y r1 r2).2) - r1 * u (rawPrimary x y r1 r2).1 =
        r2 * (u (rawPrimary x y r1 r2).1 * u (rawPrimary x y r1 r2).2) by ring]
      rw [norm_mul, norm_mul, norm_u, norm_u, Complex.norm_real, Real.norm_of_nonneg hr2.le]
      ring)
  rw [← hu, e] at this
  exact this

/-- Every option is the wrapped form of a configuration reaching the aim. -/
theorem option_form {rg : Ranges} {o : Opt} (ho : o ∈ options x y r1 r2 rg) :
    ∃ tp, toC (tp2xy tp r1 r2) = aim x y r1 r2 ∧ o = mkOpt tp rg := by
  rw [mem_options] at ho
  obtain ⟨b, hb, h⟩ := ho
  have hb' : ∃ tp, toC (tp2xy tp r1 r2) = aim x y r1 r2 ∧ b = mkOpt tp rg := by
    rcases hb with rfl | rfl
    · exact ⟨_, rawPrimary_tip h1 h2, rfl⟩
    · exact ⟨_, (rawAlt_spec h1 h2).1, rfl⟩
  obtain ⟨tp, htp, rfl⟩ := hb'
  rcases h with rfl | ⟨hf, h⟩
  · exact ⟨tp, htp, rfl⟩
  · have hk : ∀ k : ℤ, toC (tp2xy ((mkOpt tp rg).tp.1 + 360 * k, (mkOpt tp rg).tp.2) r1 r2)
        = aim x y r1 r2 := by
      intro k
      rw [← htp, ← mkOpt_tip r1 r2 hf, toC_tp2xy, toC_tp2xy, u_add, u_turn, mul_one]
    rcases h with rfl | rfl
    · exact ⟨_, by simpa using hk (-1), rfl⟩
    · exact ⟨_, by simpa using hk 1, rfl⟩

omit h1 h2 in
theorem primary_mem (rg : Ranges) :
    mkOpt (rawPrimary x y r1 r2) rg ∈ options x y r1 r2 rg :=
  mem_options.2 ⟨_, Or.inl rfl, Or.inl rfl⟩

/-- Every result is the wrapped form of a configuration reaching the aim. -/
theorem xy2tp_form (rg : Ranges) (guess : Option ℝ) (tol : ℝ) :
    ∃ tp, toC (tp2xy tp r1 r2) = aim x y r1 r2 ∧
      xy2tp x y r1 r2 rg guess tol = .ok ((mkOpt tp rg).tp,
        annulusFail (hypot x y) r1 r2 || (mkOpt tp rg).rangeFail) := by
  have hc := contraction_pos
  cases guess with
  | none =>
    exact ⟨_, rawPrimary_tip h1 h2, xy2tp_none (by linarith) (by linarith) _ _ _ _⟩
  | some g =>
    obtain ⟨tp, htp, e⟩ := option_form h1 h2
      (select_mem (g := g) (tol := tol) (primary_mem (x := x) (y := y) rg))
    refine ⟨tp, htp, ?_⟩
    rw [xy2tp_some (by linarith) (by linarith), e]

/-- Any configuration reaching the aim is the primary or the reflected one up to turns. -/
theorem configs (tp : ℝ × ℝ) (h : toC (tp2xy tp r1 r2) = aim x y r1 r2) :
    ∃ b, (b = rawPrimary x y r1 r2 ∨ b = rawAlt x y r1 r2) ∧
      SameAngle tp.1 b.1 ∧ SameAngle tp.2 b.2 := by
  have hc := contraction_pos
  have p1 : 0 < r1 := by linarith
  have p2 : 0 < r2 := by linarith
  have r1' : (r1:ℂ) ≠ 0 := by exact_mod_cast p1.ne'
  have r2' : (r2:ℂ) ≠ 0 := by exact_mod_cast p2.ne'
  have hp := rawPrimary_tip (x := x) (y := y) h1 h2
  have ha := rawAlt_spec (x := x) (y := y) h1 h2
  have hn := aim_ne (x := x) (y := y) h1 h2
  rw [toC_tp2xy] at h hp
  rcases two_configs p1 p2 hn (norm_u _) (norm_u _) (norm_u _) (norm_u _) h hp with ⟨e1, e2⟩ | e
  · exact ⟨_, Or.inl rfl, u_same.1 e1, u_same.1 e2⟩
  · refine ⟨_, Or.inr rfl, ?_⟩
    have hcn : (starRingEnd ℂ) (aim x y r1 r2) ≠ 0 := by rwa [Ne, map_eq_zero]
    have e1 : u tp.1 = u (rawAlt x y r1 r2).1 := mul_left_cancel₀ hcn (e.trans ha.2.symm)
    have e2 : u tp.2 = u (rawAlt x y r1 r2).2 := by
      have ha1 := ha.1
      rw [toC_tp2xy, ← h, e1] at ha1
      have := add_left_cancel ha1
      have := mul_left_cancel₀ r2' this
      exact (mul_left_cancel₀ (u_ne _) this).symm
    exact ⟨u_same.1 e1, u_same.1 e2⟩

end

/-- A target in the contracted annulus is aimed at exactly. -/
theorem aim_eq {x y r1 r2 : ℝ} (hl : |r1 - r2| + contraction ≤ hypot x y)
    (hu : hypot x y ≤ r1 + r2 - contraction) : aim x y r1 r2 = toC (x, y) := by
  unfold aim
  rw [clamp_id hl hu, hypot_eq]
  exact Complex.norm_mul_exp_arg_mul_I _

/-- Distance between target and aim. -/
theorem aim_dist (x y r1 r2 : ℝ) :
    ‖aim x y r1 r2 - toC (x, y)‖ = |clampHypot (hypot x y) r1 r2 - hypot x y| := by
  have e : toC (x, y) = (hypot x y : ℝ) * exp (atan2 y x * I) := by
    rw [hypot_eq]; exact (Complex.norm_mul_exp_arg_mul_I _).symm
  unfold aim
  rw [e, ← sub_mul, norm_mul, Complex.norm_exp_ofReal_mul_I, mul_one, ← Complex.ofReal_sub,
    Complex.norm_real, Real.norm_eq_abs]

theorem rawPrimary_phi (x y r1 r2 : ℝ) :
    0 ≤ (rawPrimary x y r1 r2).2 ∧ (rawPrimary x y r1 r2).2 ≤ 180 := by
  have hp := Real.pi_pos
  have a := Real.arccos_nonneg (arccosArg
    (clampHypot (hypot x y) r1 r2 * Real.cos (atan2 y x))
    (clampHypot (hypot x y) r1 r2 * Real.sin (atan2 y x)) r1 r2)
  have b := Real.arccos_le_pi (arccosArg
    (clampHypot (hypot x y) r1 r2 * Real.cos (atan2 y x))
    (clampHypot (hypot x y) r1 r2 * Real.sin (atan2 y x)) r1 r2)
  unfold rawPrimary degrees
  dsimp only
  constructor
  · positivity
  · calc _ ≤ Real.pi * (180 / Real.pi) := by gcongr
      _ = 180 := by field_simp

end Verif.Lemmas.Xy2tp
