import Verif.Props.Xy2tp
import Mathlib.Analysis.SpecialFunctions.Trigonometric.Bounds

/-!
# C129: errors of positions and of angles of a positioner (`transform/xy2tp.py`)

Lengths are those of the arms, angles are in degrees. Bounds that hold for all pairs of positions or configurations, whatever the guesses.
-/

namespace Verif.Props.AngleErrors
open Verif.Py Verif.Model.Xy2tp Verif.Spec Verif.Lemmas.Xy2tp

theorem chord (a b : ℝ) : ‖u a - u b‖ = 2 * |Real.sin (radians (a - b) / 2)| := by
  have h : u a - u b = u b * (Complex.exp (Complex.I * (radians (a - b) : ℝ)) - 1) := by
    have e : u a = u b * u (a - b) := by rw [← u_add]; congr 1; ring
    rw [e, mul_sub, mul_one]
    congr 2
    unfold u
    rw [mul_comm]
  rw [h, norm_mul, norm_u, one_mul, Complex.norm_exp_I_mul_ofReal_sub_one, norm_mul, Real.norm_eq_abs, Real.norm_eq_abs]
  norm_num

theorem radians_abs (a : ℝ) : |radians a| = Real.pi / 180 * |a| := by
  unfold radians
  rw [show a * (Real.pi / 180) = Real.pi / 180 * a by ring, abs_mul, abs_of_pos (by positivity)]

theorem chord_le (a b : ℝ) : ‖u a - u b‖ ≤ Real.pi / 180 * |a - b| := by
  rw [chord]
  have h : |Real.sin (radians (a - b) / 2)| ≤ |radians (a - b) / 2| := Real.abs_sin_le_abs
  rw [abs_div, radians_abs] at h
  norm_num at h ⊢
  linarith

theorem chord_ge (a b : ℝ) (h : |a - b| ≤ 180) : |a - b| / 90 ≤ ‖u a - u b‖ := by
  rw [chord]
  have hp := Real.pi_pos
  have h2 : |radians (a - b) / 2| ≤ Real.pi / 2 := by
    rw [abs_div, radians_abs]
    norm_num
    nlinarith
  have h3 := Real.mul_abs_le_abs_sin h2
  rw [abs_div, radians_abs] at h3
  have : 2 / Real.pi * (Real.pi / 180 * |a - b| / |2|) = |a - b| / 180 := by
    norm_num
    field_simp
  rw [this] at h3
  linarith

/-- **C129** Errors of the angles carried to the position: at most the length of both arms times the error of theta plus the length of the
second arm times the error of phi. -/
theorem C129_position (tp tp' : ℝ × ℝ) {r1 r2 : ℝ} (h1 : 0 ≤ r1) (h2 : 0 ≤ r2) :
    dist2 (tp2xy tp r1 r2) (tp2xy tp' r1 r2) ≤ Real.pi / 180 * ((r1 + r2) * |tp.1 - tp'.1| + r2 * |tp.2 - tp'.2|) := by
  rw [dist2_eq, toC_tp2xy, toC_tp2xy]
  have e : (r1 : ℂ) * u tp.1 + r2 * (u tp.1 * u tp.2) - (r1 * u tp'.1 + r2 * (u tp'.1 * u tp'.2)) =
      r1 * (u tp.1 - u tp'.1) + r2 * ((u tp.1 - u tp'.1) * u tp.2) + r2 * (u tp'.1 * (u tp.2 - u tp'.2)) := by ring
  rw [e]
  refine (norm_add₃_le).trans ?_
  simp only [norm_mul, norm_u, mul_one, one_mul, Complex.norm_real, Real.norm_of_nonneg h1, Real.norm_of_nonneg h2]
  have a := chord_le tp.1 tp'.1
  have b := chord_le tp.2 tp'.2
  have a1 := mul_le_mul_of_nonneg_left a h1
  have a2 := mul_le_mul_of_nonneg_left a h2
  have b2 := mul_le_mul_of_nonneg_left b h2
  linarith

/-- Two tips: the law of cosines for the difference. -/
theorem tips_cos (tp tp' : ℝ × ℝ) {r1 r2 : ℝ} (h1 : 0 ≤ r1) (h2 : 0 ≤ r2) :
    r1 * r2 * |Real.cos (radians tp.2) - Real.cos (radians tp'.2)| ≤ (r1 + r2) * dist2 (tp2xy tp r1 r2) (tp2xy tp' r1 r2) := by
  have e := normSq_link r1 r2 tp.2
  have e' := normSq_link r1 r2 tp'.2
  rw [← norm_tip tp] at e
  rw [← norm_tip tp'] at e'
  have b := (tip_annulus tp h1 h2).2
  have b' := (tip_annulus tp' h1 h2).2
  rw [dist2_eq]
  have hd := abs_norm_sub_norm_le (toC (tp2xy tp r1 r2)) (toC (tp2xy tp' r1 r2))
  set A := ‖toC (tp2xy tp r1 r2)‖
  set B := ‖toC (tp2xy tp' r1 r2)‖
  have hA : 0 ≤ A := norm_nonneg _
  have hB : 0 ≤ B := norm_nonneg _
  have key : 2 * (r1 * r2 * (Real.cos (radians tp.2) - Real.cos (radians tp'.2))) = (A + B) * (A - B) := by nlinarith
  have k2 := congrArg abs key
  rw [abs_mul, abs_mul (r1 * r2), abs_of_nonneg (mul_nonneg h1 h2), abs_mul (A + B), abs_of_nonneg (add_nonneg hA hB)] at k2
  have h3 : (A + B) * |A - B| ≤ (2 * (r1 + r2)) * ‖toC (tp2xy tp r1 r2) - toC (tp2xy tp' r1 r2)‖ :=
    mul_le_mul (by linarith) hd (abs_nonneg _) (by linarith)
  norm_num at k2
  linarith

theorem reached {x y r1 r2 : ℝ} (h1 : contraction ≤ r1) (h2 : contraction ≤ r2) {x' y' : ℝ} {rg rg' : Ranges} {g g' : Option ℝ}
    {tol tol' : ℝ} {tp tp' : ℝ × ℝ} (h : xy2tp x y r1 r2 rg g tol = .ok (tp, false))
    (h' : xy2tp x' y' r1 r2 rg' g' tol' = .ok (tp', false)) :
    dist2 (tp2xy tp r1 r2) (tp2xy tp' r1 r2) ≤ dist2 (x, y) (x', y') + 2 * contraction := by
  have a := C01_unflagged_reaches h1 h2 h
  have a' := C01_unflagged_reaches h1 h2 h'
  rw [dist2_eq] at a a' ⊢
  rw [dist2_eq]
  have e : toC (tp2xy tp r1 r2) - toC (tp2xy tp' r1 r2) =
    (toC (tp2xy tp r1 r2) - toC (x, y)) + (toC (x, y) - toC (x', y')) + -(toC (tp2xy tp' r1 r2) - toC (x', y')) := by ring
  rw [e]
  refine (norm_add₃_le).trans ?_
  rw [norm_neg]
  linarith

/-- **C129** Errors of the position carried to phi: for any two positions reached, with any guesses, the cosines of phi differ by at most
`(r1+r2)/(r1*r2)` times the distance. -/
theorem C129_cos_phi {x y r1 r2 : ℝ} (h1 : contraction ≤ r1) (h2 : contraction ≤ r2) {x' y' : ℝ} {rg rg' : Ranges} {g g' : Option ℝ}
    {tol tol' : ℝ} {tp tp' : ℝ × ℝ} (h : xy2tp x y r1 r2 rg g tol = .ok (tp, false))
    (h' : xy2tp x' y' r1 r2 rg' g' tol' = .ok (tp', false)) :
    r1 * r2 * |Real.cos (radians tp.2) - Real.cos (radians tp'.2)| ≤ (r1 + r2) * (dist2 (x, y) (x', y') + 2 * contraction) := by
  have hc := contraction_pos
  refine (tips_cos tp tp' (by linarith) (by linarith)).trans ?_
  exact mul_le_mul_of_nonneg_left (reached h1 h2 h h') (by linarith)

theorem cos_gap {a p q : ℝ} (ha : 0 < a) (hp : a ≤ p ∧ p ≤ Real.pi - a) (hq : a ≤ q ∧ q ≤ Real.pi - a) :
    2 / Real.pi * Real.sin a * |p - q| ≤ |Real.cos p - Real.cos q| := by
  have hpi := Real.pi_pos
  have ha2 : a ≤ Real.pi / 2 := by linarith
  rw [Real.cos_sub_cos, abs_mul, abs_mul]
  have hm : Real.sin a ≤ Real.sin ((p + q) / 2) := by
    rcases le_total ((p + q) / 2) (Real.pi / 2) with hle | hle
    · exact Real.sin_le_sin_of_le_of_le_pi_div_two (by linarith) hle (by linarith)
    · rw [← Real.sin_pi_sub ((p + q) / 2)]
      exact Real.sin_le_sin_of_le_of_le_pi_div_two (by linarith) (by linarith) (by linarith)
  have hs : 0 ≤ Real.sin a := Real.sin_nonneg_of_nonneg_of_le_pi ha.le (by linarith)
  have hd : |(p - q) / 2| ≤ Real.pi / 2 := by
    rw [abs_le]
    constructor <;> linarith
  have h3 := Real.mul_abs_le_abs_sin hd
  rw [abs_div, abs_two] at h3
  rw [abs_of_nonneg (hs.trans hm)]
  have h4 : Real.sin a * (2 / Real.pi * (|p - q| / 2)) ≤ Real.sin ((p + q) / 2) * |Real.sin ((p - q) / 2)| :=
    mul_le_mul hm h3 (by positivity) (hs.trans hm)
  norm_num
  have e : 2 / Real.pi * Real.sin a * |p - q| = 2 * (Real.sin a * (2 / Real.pi * (|p - q| / 2))) := by ring
  rw [e]
  linarith

/-- **C129** If phi is at least `a` degrees from 0 and 180 for both positions, its error is at most
`90 (r1+r2) / (r1 r2 sin a)` degrees times the distance. -/
theorem C129_phi {x y r1 r2 : ℝ} (h1 : contraction ≤ r1) (h2 : contraction ≤ r2) {x' y' : ℝ} {rg rg' : Ranges} {g g' : Option ℝ}
    {tol tol' : ℝ} {tp tp' : ℝ × ℝ} (h : xy2tp x y r1 r2 rg g tol = .ok (tp, false))
    (h' : xy2tp x' y' r1 r2 rg' g' tol' = .ok (tp', false)) {a : ℝ} (ha : 0 < a)
    (hp : a ≤ tp.2 ∧ tp.2 ≤ 180 - a) (hp' : a ≤ tp'.2 ∧ tp'.2 ≤ 180 - a) :
    r1 * r2 * Real.sin (radians a) * |tp.2 - tp'.2| ≤ 90 * (r1 + r2) * (dist2 (x, y) (x', y') + 2 * contraction) := by
  have hc := contraction_pos
  have hpi := Real.pi_pos
  have b := C129_cos_phi h1 h2 h h'
  have mono : ∀ s t : ℝ, s ≤ t → radians s ≤ radians t := fun s t hst => mul_le_mul_of_nonneg_right hst (by positivity)
  have e180 : ∀ t, radians (180 - t) = Real.pi - radians t := fun t => by unfold radians; ring
  have k := cos_gap (a := radians a) (p := radians tp.2) (q := radians tp'.2) (mul_pos ha (by positivity))
    ⟨mono _ _ hp.1, by rw [← e180]; exact mono _ _ hp.2⟩ ⟨mono _ _ hp'.1, by rw [← e180]; exact mono _ _ hp'.2⟩
  have e : |radians tp.2 - radians tp'.2| = Real.pi / 180 * |tp.2 - tp'.2| := by
    rw [← radians_abs]
    congr 1
    unfold radians
    ring
  rw [e] at k
  have e2 : 2 / Real.pi * Real.sin (radians a) * (Real.pi / 180 * |tp.2 - tp'.2|) = Real.sin (radians a) * |tp.2 - tp'.2| / 90 := by
    have hne := hpi.ne'
    generalize Real.sin (radians a) = s
    field_simp
    ring
  rw [e2] at k
  have := mul_le_mul_of_nonneg_left k (mul_nonneg (by linarith : 0 ≤ r1) (by linarith : 0 ≤ r2))
  linarith

/-- **C129** The error of theta: if the answers are at most half a turn apart, the radius of the position times it is at most 90 degrees times
the distance plus the second arm times the error of phi. -/
theorem C129_theta {x y r1 r2 : ℝ} (h1 : contraction ≤ r1) (h2 : contraction ≤ r2) {x' y' : ℝ} {rg rg' : Ranges} {g g' : Option ℝ}
    {tol tol' : ℝ} {tp tp' : ℝ × ℝ} (h : xy2tp x y r1 r2 rg g tol = .ok (tp, false))
    (h' : xy2tp x' y' r1 r2 rg' g' tol' = .ok (tp', false)) (ht : |tp.1 - tp'.1| ≤ 180) :
    (radius (x, y) - contraction) * |tp.1 - tp'.1| ≤
      90 * (dist2 (x, y) (x', y') + 2 * contraction + r2 * (Real.pi / 180 * |tp.2 - tp'.2|)) := by
  have hc := contraction_pos
  have hd := reached h1 h2 h h'
  have a := C01_unflagged_reaches h1 h2 h
  rw [dist2_eq] at a hd
  rw [radius_eq]
  have hr : ‖toC (x, y)‖ - contraction ≤ ‖(r1 : ℂ) + r2 * u tp.2‖ := by
    rw [← norm_tip]
    have := norm_sub_norm_le (toC (x, y)) (toC (tp2xy tp r1 r2))
    rw [norm_sub_rev] at this
    linarith
  rw [toC_tp2xy, toC_tp2xy] at hd
  have e : (u tp.1 - u tp'.1) * (r1 + r2 * u tp.2) =
      ((r1 : ℂ) * u tp.1 + r2 * (u tp.1 * u tp.2) - (r1 * u tp'.1 + r2 * (u tp'.1 * u tp'.2))) + -(r2 * (u tp'.1 * (u tp.2 - u tp'.2))) := by
    ring
  have k := congrArg norm e
  rw [norm_mul] at k
  have k2 := norm_add_le ((r1 : ℂ) * u tp.1 + r2 * (u tp.1 * u tp.2) - (r1 * u tp'.1 + r2 * (u tp'.1 * u tp'.2)))
    (-(r2 * (u tp'.1 * (u tp.2 - u tp'.2))))
  rw [norm_neg, norm_mul, norm_mul, norm_u, one_mul, Complex.norm_real, Real.norm_of_nonneg (by linarith : 0 ≤ r2)] at k2
  have k3 := mul_le_mul_of_nonneg_left (chord_le tp.2 tp'.2) (by linarith : 0 ≤ r2)
  have k4 := chord_ge tp.1 tp'.1 ht
  have k5 := mul_le_mul_of_nonneg_right k4 (norm_nonneg ((r1 : ℂ) + r2 * u tp.2))
  have k6 := mul_le_mul_of_nonneg_right hr (by positivity : 0 ≤ |tp.1 - tp'.1| / 90)
  linarith

/-- **C129** (finding) Near full stretch the error of phi is not proportional to that of the position: the angle for a position at a distance
`d` from the rim is at least the root of `d (2 (r1+r2) - d) / (r1 r2)` (radians). For arms of 3 mm and `d` = 0.01 mm it is over 6.5 degrees. -/
theorem C129_stretched (tp : ℝ × ℝ) {r1 r2 d : ℝ} (h1 : 0 ≤ r1) (h2 : 0 ≤ r2) (hr : radius (tp2xy tp r1 r2) = r1 + r2 - d) :
    d * (2 * (r1 + r2) - d) ≤ r1 * r2 * radians tp.2 ^ 2 := by
  rw [radius_eq, norm_tip] at hr
  have e := normSq_link r1 r2 tp.2
  rw [hr] at e
  have hcos := Real.one_sub_sq_div_two_le_cos (x := radians tp.2)
  have := mul_le_mul_of_nonneg_left hcos (mul_nonneg h1 h2)
  nlinarith

/-- Answers of `xy2tp` for two positions with phi 90 and 60 degrees. -/
example : ∃ x y x' y' tp tp', xy2tp x y 3 3 ⟨(-190, 190), (-20, 200)⟩ (some 0) 30 = .ok (tp, false) ∧
    xy2tp x' y' 3 3 ⟨(-190, 190), (-20, 200)⟩ (some 0) 30 = .ok (tp', false) ∧ (30 ≤ tp.2 ∧ tp.2 ≤ 180 - 30) ∧
    (30 ≤ tp'.2 ∧ tp'.2 ≤ 180 - 30) ∧ |tp.1 - tp'.1| ≤ 180 := by
  have hc : contraction ≤ 1 / 100 := by unfold contraction epsilon; norm_num
  have hc0 := contraction_pos
  have key : ∀ p : ℝ, 60 ≤ p → p ≤ 90 → xy2tp (tp2xy (0, p) 3 3).1 (tp2xy (0, p) 3 3).2 3 3 ⟨(-190, 190), (-20, 200)⟩ (some 0) 30 =
      .ok ((0, p), false) := by
    intro p hp hp'
    have hpi := Real.pi_pos
    have hcos : 0 ≤ Real.cos (radians p) := Real.cos_nonneg_of_neg_pi_div_two_le_of_le (by unfold radians; nlinarith)
      (by unfold radians; nlinarith)
    have hcos' : Real.cos (radians p) ≤ 1 / 2 := by
      rw [← Real.cos_pi_div_three]
      exact Real.cos_le_cos_of_nonneg_of_le_pi (by positivity) (by unfold radians; nlinarith) (by unfold radians; nlinarith)
    have e := normSq_link 3 3 p
    have hn : 0 ≤ ‖((3 : ℝ) : ℂ) + ((3 : ℝ) : ℂ) * u p‖ := norm_nonneg _
    refine C05_guess_round_trip (by linarith) (by linarith) (by norm_num [width]) (by norm_num [width]) (by norm_num)
      (by norm_num [InRange]) ⟨by norm_num; linarith, by norm_num; linarith⟩ ?_ ?_
    · rw [radius_eq, norm_tip, sub_self, abs_zero]
      nlinarith
    · rw [radius_eq, norm_tip]
      nlinarith
  exact ⟨_, _, _, _, _, _, key 90 (by norm_num) (by norm_num), key 60 (by norm_num) (by norm_num), by norm_num, by norm_num, by norm_num⟩

end Verif.Props.AngleErrors
