import Verif.Props.Xy2tp

/-!
# Property C04: where the arms go for a target out of reach (`transform/xy2tp.py` lines 59-78)
-/

namespace Verif.Props
open Verif.Py Verif.Model.Xy2tp Verif.Spec Verif.Lemmas.Xy2tp

/-- C04: with ranges that do not bind, a target at or beyond the outer rim sends the arms in its direction to a radius smaller than the length of
the stretched arms by `10/2^52`; one at or inside the inner rim to a radius larger than that of the folded arms by `10/2^52`. -/
theorem C04_rim {x y r1 r2 : ℝ} (h1 : 10 / 2 ^ 52 ≤ r1) (h2 : 10 / 2 ^ 52 ≤ r2)
    {rg : Ranges} (ht : 360 ≤ width rg.t) (hp : min rg.p.1 rg.p.2 ≤ 0 ∧ 180 ≤ max rg.p.1 rg.p.2)
    {tol : ℝ} {tp : ℝ × ℝ} {fl : Bool} (h : xy2tp x y r1 r2 rg none tol = .ok (tp, fl)) (rho : ℝ)
    (hr : (r1 + r2 ≤ radius (x, y) ∧ rho = r1 + r2 - 10 / 2 ^ 52) ∨ (radius (x, y) ≤ |r1 - r2| ∧ rho = |r1 - r2| + 10 / 2 ^ 52)) :
    radius (tp2xy tp r1 r2) = rho ∧ radius (x, y) * (tp2xy tp r1 r2).1 = rho * x ∧ radius (x, y) * (tp2xy tp r1 r2).2 = rho * y := by
  have hcv : contraction = 10 / 2 ^ 52 := by
    unfold contraction epsilon
    norm_num
  have hc := contraction_pos
  rw [← hcv] at h1 h2 hr
  rw [xy2tp_none (by linarith) (by linarith)] at h
  injection h with h
  injection h with ha hb
  have hprim : (mkOpt (rawPrimary x y r1 r2) rg).rangeFail = false := by
    have hφ := rawPrimary_phi x y r1 r2
    show (_ || _) = false
    rw [wrap_full (by unfold width at ht; linarith), wrap_id (by linarith [hp.1, hφ.1])
      (by linarith [hp.2, hφ.2])]
    rfl
  have htip : toC (tp2xy tp r1 r2) = aim x y r1 r2 := by
    rw [← ha, mkOpt_tip r1 r2 hprim, rawPrimary_tip h1 h2]
  have hgap : |r1 - r2| + contraction ≤ r1 + r2 - contraction := by
    rcases abs_cases (r1 - r2) with ⟨h, _⟩ | ⟨h, _⟩ <;> rw [h] <;> linarith
  have hrad : radius (x, y) = hypot x y := by
    rw [radius_eq, hypot_eq]
  have hclamp : clampHypot (hypot x y) r1 r2 = rho := by
    unfold clampHypot
    dsimp only
    rcases hr with ⟨hr, e⟩ | ⟨hr, e⟩
    · rw [e, if_pos (by linarith)]
    · rw [hrad] at hr
      rw [e]
      split_ifs with h3 h4
      · linarith
      · rfl
      · exact absurd (by linarith) h4
  have hrho : 0 ≤ rho := by
    rw [← hclamp]
    exact (aim_pos h1 h2).le
  refine ⟨?_, ?_⟩
  · rw [radius_eq, htip]
    unfold aim
    rw [hclamp, norm_mul, Complex.norm_exp_ofReal_mul_I, mul_one, Complex.norm_real, Real.norm_eq_abs, abs_of_nonneg hrho]
  · have e : toC (x, y) = (hypot x y : ℝ) * Complex.exp (atan2 y x * Complex.I) := by
      rw [hypot_eq]
      exact (Complex.norm_mul_exp_arg_mul_I _).symm
    have key : ((hypot x y : ℝ) : ℂ) * toC (tp2xy tp r1 r2) = (rho : ℂ) * toC (x, y) := by
      rw [htip, e]
      unfold aim
      rw [hclamp]
      ring
    rw [hrad]
    have k1 := congrArg Complex.re key
    have k2 := congrArg Complex.im key
    rw [Complex.re_ofReal_mul, Complex.re_ofReal_mul] at k1
    rw [Complex.im_ofReal_mul, Complex.im_ofReal_mul] at k2
    exact ⟨k1, k2⟩

/-- A target out of reach (`C04_rim`). -/
example : ∃ (rg : Ranges) (tp : ℝ × ℝ) (fl : Bool), (10 / 2 ^ 52 : ℝ) ≤ 3 ∧ 360 ≤ width rg.t ∧ (min rg.p.1 rg.p.2 ≤ 0 ∧ 180 ≤ max rg.p.1 rg.p.2) ∧
    xy2tp 30 40 3 3 rg none 30 = .ok (tp, fl) ∧ 3 + 3 ≤ radius (30, 40) := by
  obtain ⟨tp, fl, h⟩ := (C01_total 30 40 3 3 ⟨(-180, 180), (-20, 200)⟩ none 30).2 (by norm_num)
  refine ⟨_, tp, fl, by norm_num, ?_, ?_, h, ?_⟩
  · unfold width
    norm_num
  · norm_num
  · have : radius (30, 40) = 50 := by
      unfold radius
      rw [show ((30:ℝ), (40:ℝ)).1 ^ 2 + ((30:ℝ), (40:ℝ)).2 ^ 2 = 50 ^ 2 by norm_num]
      exact Real.sqrt_sq (by norm_num)
    rw [this]
    norm_num

end Verif.Props
