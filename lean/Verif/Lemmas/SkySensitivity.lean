import Verif.Lemmas.SkyRoundTrip
import Mathlib.Analysis.Convex.SpecificFunctions.Deriv

/-!
# Errors in the tangent plane carried to the sky
-/

namespace Verif.Lemmas.SkySensitivity
open Verif.Py Verif.Model.Trig Verif.Model.Radec2tan Verif.Spec Verif.Lemmas.Trig Verif.Lemmas.Sky Verif.Lemmas.Refraction
  Verif.Lemmas.Radec2tan Verif.Lemmas.SkyRoundTrip

/-- A map that keeps products keeps distances. -/
theorem gap_of_dot {f : V3 → V3} (h : ∀ a b, dot (f a) (f b) = dot a b) (a b : V3) : gap (f a) (f b) = gap a b := by
  have e : ∀ a b : V3, gap a b ^ 2 = dot a a - 2 * dot a b + dot b b := by
    intro a b
    rw [gap_sq]
    unfold dot
    ring
  have h1 := e (f a) (f b)
  rw [h, h, h, ← e] at h1
  exact (pow_left_inj₀ (gap_nonneg _ _) (gap_nonneg _ _) (by norm_num)).1 h1

/-! ## From the plane to the sphere -/

theorem plane_gap {x y x' y' e : ℝ} (h : x ^ 2 + y ^ 2 ≤ 0.035 ^ 2) (h' : x' ^ 2 + y' ^ 2 ≤ 0.035 ^ 2) (he : 0 ≤ e)
    (hd : (x - x') ^ 2 + (y - y') ^ 2 ≤ e ^ 2) :
    gap ⟨x, y, Real.sqrt (1 - x ^ 2 - y ^ 2)⟩ ⟨x', y', Real.sqrt (1 - x' ^ 2 - y' ^ 2)⟩ ≤ 1.0007 * e := by
  apply gap_le (by positivity)
  simp only
  norm_num at h h'
  obtain ⟨z, hz⟩ : ∃ z, z = Real.sqrt (1 - x ^ 2 - y ^ 2) := ⟨_, rfl⟩
  obtain ⟨z', hz'⟩ : ∃ z', z' = Real.sqrt (1 - x' ^ 2 - y' ^ 2) := ⟨_, rfl⟩
  rw [← hz, ← hz']
  have hz2 : z ^ 2 = 1 - x ^ 2 - y ^ 2 := by rw [hz]; exact Real.sq_sqrt (by linarith)
  have hz2' : z' ^ 2 = 1 - x' ^ 2 - y' ^ 2 := by rw [hz']; exact Real.sq_sqrt (by linarith)
  have hz0 : 0.999 ≤ z := by rw [hz]; apply Real.le_sqrt_of_sq_le; norm_num; linarith
  have hz0' : 0.999 ≤ z' := by rw [hz']; apply Real.le_sqrt_of_sq_le; norm_num; linarith
  clear hz hz'
  have hm : ((z - z') * (z + z')) ^ 2 ≤ e ^ 2 * 0.0049 := by
    have e1 : (z - z') * (z + z') = -((x - x') * (x + x') + (y - y') * (y + y')) := by linear_combination hz2 - hz2'
    have e2 : (x + x') ^ 2 + (y + y') ^ 2 ≤ 0.0049 := by norm_num; nlinarith [sq_nonneg (x - x'), sq_nonneg (y - y')]
    rw [e1, neg_sq]
    have e3 : ((x - x') * (x + x') + (y - y') * (y + y')) ^ 2 ≤ ((x - x') ^ 2 + (y - y') ^ 2) * ((x + x') ^ 2 + (y + y') ^ 2) := by
      nlinarith [sq_nonneg ((x - x') * (y + y') - (y - y') * (x + x'))]
    refine e3.trans (mul_le_mul hd e2 (by positivity) (by positivity))
  have hs : 3.99 ≤ (z + z') ^ 2 := by
    have := pow_le_pow_left₀ (by norm_num) (add_le_add hz0 hz0') 2
    refine le_trans (by norm_num) this
  have hzz : (z - z') ^ 2 ≤ e ^ 2 * 0.0013 := by
    rw [mul_pow] at hm
    norm_num at hm hs ⊢
    nlinarith [sq_nonneg (z - z')]
  norm_num at hzz ⊢
  nlinarith [sq_nonneg e]

/-! ## Refraction undone -/

theorem low {x : ℝ} (h0 : 10 ≤ x) (h1 : x ≤ 90) : 9.9 ≤ x - d x ∧ x - d x ≤ 90 := by
  have hK := K_lt
  have hK0 := K_pos
  have s10 := sind_10
  have hs := sind_mono (by norm_num) h0 h1
  have hc : cosd x ≤ 1 := Real.cos_le_one _
  have hc0 := cosd_nonneg (by linarith) h1
  have hd : d x ≤ 127 / 10000 / (173 / 1000) := by
    unfold d
    apply div_le_div₀ (by norm_num) _ (by norm_num) (by linarith)
    nlinarith
  have hd0 := d_nonneg (by linarith) h1
  norm_num at hd ⊢
  constructor <;> linarith

theorem sind_low : 0.171 ≤ sind 9.9 := by
  have hp := pi_bounds
  unfold sind radians
  have h := Real.sin_gt_sub_cube (x := 9.9 * (Real.pi / 180)) (by linarith)
  have h1 : 0.17278 < 9.9 * (Real.pi / 180) := by linarith
  have h2 : 9.9 * (Real.pi / 180) < 0.1728 := by linarith
  have h3 : (9.9 * (Real.pi / 180)) ^ 3 < 0.1728 ^ 3 := by gcongr
  norm_num at h1 h2 h3 h ⊢
  linarith

theorem q_low : q 9.9 ≤ 0.0076 := (q_le (by norm_num) sind_low).trans (by norm_num)

theorem undo_lip {a b : ℝ} (ha : 10 ≤ a) (hab : a ≤ b) (hb : b ≤ 90) :
    0 ≤ undoRefraction b - undoRefraction a ∧ undoRefraction b - undoRefraction a ≤ 1.0077 * (b - a) := by
  rw [undo_eq, undo_eq]
  have l1 := d_lip (t := 9.9) (by norm_num) (by linarith) hab hb
  have la := low ha (hab.trans hb)
  have lb := low (ha.trans hab) hb
  have l2 := d_lip (t := 9.9) (x := a - d a) (y := b - d b) (by norm_num) la.1 (by linarith [l1.1]) lb.2
  have hq := q_low
  have hq0 := q_pos (t := 9.9) (by norm_num) (by norm_num)
  have h1 : q 9.9 * (b - a) ≤ 0.0076 * (b - a) := mul_le_mul_of_nonneg_right hq (by linarith)
  have h2 : q 9.9 * (b - d b - (a - d a)) ≤ 0.0076 * (b - d b - (a - d a)) := mul_le_mul_of_nonneg_right hq (by linarith [l1.1])
  norm_num at h1 h2 ⊢
  constructor <;> linarith [l1.1, l1.2, l2.1, l2.2]

theorem undo_range {a : ℝ} (ha : 10 ≤ a) (hb : a ≤ 90) : 9 ≤ undoRefraction a ∧ undoRefraction a ≤ 90 := by
  have l := low ha hb
  rw [undo_eq]
  have h0 := d_nonneg (x := a - d a) (by linarith [l.1]) l.2
  have h1 := d_nonneg (x := a) (by linarith) hb
  have hd : d (a - d a) ≤ 127 / 10000 / 0.171 := by
    unfold d
    have hs := sind_mono (by norm_num) l.1 l.2
    have hsl := sind_low
    have hK := K_lt
    have hK0 := K_pos
    have hc : cosd (a - K * cosd a / sind a) ≤ 1 := Real.cos_le_one _
    have hc0 : 0 ≤ cosd (a - K * cosd a / sind a) := cosd_nonneg (by have := l.1; unfold d at this; linarith) l.2
    unfold d at hs
    apply div_le_div₀ (by norm_num) _ (by norm_num) (hsl.trans hs)
    nlinarith
  norm_num at hd
  constructor <;> linarith

theorem undo_cos {a : ℝ} (ha : 10 ≤ a) (hb : a ≤ 90) : cosd (undoRefraction a) ≤ 1.0077 * cosd a := by
  have l := low ha hb
  have hK := K_lt
  have hK0 := K_pos
  have hp := pi_bounds
  have hk : K * (Real.pi / 180) ≤ 22168 / 10 ^ 8 := by
    have h1 : Real.pi / 180 ≤ 3.1416 / 180 := by linarith
    calc K * (Real.pi / 180) ≤ 127 / 10000 * (3.1416 / 180) := by gcongr
      _ ≤ _ := by norm_num
  have hk0 : 0 ≤ K * (Real.pi / 180) := by positivity
  have hca := cosd_nonneg (x := a) (by linarith) hb
  have small' : ∀ x : ℝ, 0 ≤ x → sind x ≤ x * (Real.pi / 180) := by
    intro x hx
    unfold sind radians
    exact Real.sin_le (by positivity)
  have step : ∀ x e : ℝ, 0 ≤ e → 0 ≤ cosd x → 0 ≤ sind x → cosd (x - e) ≤ cosd x + e * (Real.pi / 180) * sind x := by
    intro x e he hc hs
    rw [cosd_sub]
    have h1 : cosd e ≤ 1 := Real.cos_le_one _
    have h2 := small' e he
    have h3 : cosd x * cosd e ≤ cosd x * 1 := mul_le_mul_of_nonneg_left h1 hc
    have h4 : sind x * sind e ≤ sind x * (e * (Real.pi / 180)) := mul_le_mul_of_nonneg_left h2 hs
    linarith
  have hsa : 0 < sind a := sind_pos (by linarith) (by linarith)
  have hda := d_nonneg (x := a) (by linarith) hb
  have h1 := step a (d a) hda hca hsa.le
  have e1 : d a * (Real.pi / 180) * sind a = K * (Real.pi / 180) * cosd a := by
    unfold d
    field_simp
  rw [e1] at h1
  have hs := sind_mono (by norm_num) l.1 l.2
  have hsl := sind_low
  have hds := d_nonneg (x := a - d a) (by linarith [l.1]) l.2
  have h2 := step a (d (a - d a)) hds hca hsa.le
  have hcs := cosd_nonneg (x := a - d a) (by linarith [l.1]) l.2
  have h3 : d (a - d a) * (Real.pi / 180) * sind a ≤ K * (Real.pi / 180) * cosd (a - d a) / 0.171 := by
    have e2 : d (a - d a) = K * cosd (a - d a) / sind (a - d a) := rfl
    rw [e2]
    have hs1 : sind a ≤ 1 := Real.sin_le_one _
    have h4 : K * cosd (a - d a) / sind (a - d a) ≤ K * cosd (a - d a) / 0.171 :=
      div_le_div_of_nonneg_left (by positivity) (by norm_num) (hsl.trans hs)
    calc K * cosd (a - d a) / sind (a - d a) * (Real.pi / 180) * sind a ≤ K * cosd (a - d a) / 0.171 * (Real.pi / 180) * 1 := by
          gcongr
      _ = _ := by ring
  rw [undo_eq]
  have h5 : K * (Real.pi / 180) * cosd (a - d a) ≤ 22168 / 10 ^ 8 * (1.001 * cosd a) := by
    apply mul_le_mul hk _ hcs (by norm_num)
    have := mul_le_mul_of_nonneg_right hk hca
    norm_num at this ⊢
    linarith
  norm_num at h5 h3 ⊢
  linarith

theorem cos_scale {x y F : ℝ} (hF : 1 ≤ F) (hx0 : 0 ≤ x) (hx : x ≤ Real.pi) (hy0 : 0 ≤ y) (hy : y ≤ Real.pi) (h : y ≤ F * x) :
    1 - Real.cos y ≤ F ^ 2 * (1 - Real.cos x) := by
  have hp := Real.pi_pos
  have half : ∀ z, 1 - Real.cos z = 2 * Real.sin (z / 2) ^ 2 := by
    intro z
    have := Real.cos_two_mul (z / 2)
    have h2 := Real.sin_sq_add_cos_sq (z / 2)
    rw [mul_div_cancel₀ _ (two_ne_zero)] at this
    linarith
  rw [half, half]
  have hF0 : 0 < F := by linarith
  have h1 : Real.sin (y / 2) ≤ F * Real.sin (x / 2) := by
    have hcc : ConcaveOn ℝ (Set.Icc 0 Real.pi) Real.sin := strictConcaveOn_sin_Icc.concaveOn
    obtain ⟨_, hcc⟩ := hcc
    have m1 : y / 2 ∈ Set.Icc 0 Real.pi := ⟨by linarith, by linarith⟩
    have m2 : (0 : ℝ) ∈ Set.Icc 0 Real.pi := ⟨le_rfl, hp.le⟩
    have b1 : 0 ≤ 1 / F := by positivity
    have b2 : 0 ≤ 1 - 1 / F := by rw [sub_nonneg, div_le_one hF0]; exact hF
    have hc := hcc m1 m2 b1 b2 (by ring)
    simp only [smul_eq_mul, Real.sin_zero, mul_zero, add_zero] at hc
    have hm : Real.sin (1 / F * (y / 2)) ≤ Real.sin (x / 2) := by
      apply Real.sin_le_sin_of_le_of_le_pi_div_two
      · have : 0 ≤ 1 / F * (y / 2) := by positivity
        linarith
      · linarith
      · rw [one_div, inv_mul_le_iff₀ hF0]
        linarith
    have := hc.trans hm
    rw [one_div, inv_mul_le_iff₀ hF0] at this
    exact this
  have h0 : 0 ≤ Real.sin (y / 2) := Real.sin_nonneg_of_nonneg_of_le_pi (by linarith) (by linarith)
  have := pow_le_pow_left₀ h0 h1 2
  rw [mul_pow] at this
  linarith

theorem gap_polar (z1 a1 z2 a2 : ℝ) :
    gap (xyz (z1, a1)) (xyz (z2, a2)) ^ 2 = 2 * (1 - cosd (a2 - a1)) + 2 * (cosd a1 * cosd a2) * (1 - cosd (z2 - z1)) := by
  rw [gap_unit (xyz_unit _) (xyz_unit _)]
  unfold dot xyz getXYZ
  simp only [cosd_sub]
  ring

/-- Undoing the refraction enlarges distances by at most 0.77 percent, from 10 degrees up. -/
theorem undo_gap_lip {z1 a1 z2 a2 : ℝ} (h1 : 10 ≤ a1) (h1' : a1 ≤ 90) (h2 : 10 ≤ a2) (h2' : a2 ≤ 90) :
    gap (xyz (z1, undoRefraction a1)) (xyz (z2, undoRefraction a2)) ≤ 1.0077 * gap (xyz (z1, a1)) (xyz (z2, a2)) := by
  have hp := Real.pi_pos
  apply le_of_sq_le_sq _ (mul_nonneg (by norm_num) (gap_nonneg _ _))
  rw [mul_pow, gap_polar, gap_polar]
  have u1 := undo_range h1 h1'
  have u2 := undo_range h2 h2'
  have c1 := undo_cos h1 h1'
  have c2 := undo_cos h2 h2'
  have p1 := cosd_nonneg (x := undoRefraction a1) (by linarith [u1.1]) u1.2
  have p2 := cosd_nonneg (x := undoRefraction a2) (by linarith [u2.1]) u2.2
  have p1' := cosd_nonneg (x := a1) (by linarith) h1'
  have p2' := cosd_nonneg (x := a2) (by linarith) h2'
  have hz : 0 ≤ 1 - cosd (z2 - z1) := by have : cosd (z2 - z1) ≤ 1 := Real.cos_le_one _; linarith
  have hprod : cosd (undoRefraction a1) * cosd (undoRefraction a2) ≤ 1.0077 * cosd a1 * (1.0077 * cosd a2) :=
    mul_le_mul c1 c2 p2 (by positivity)
  have hA := mul_le_mul_of_nonneg_right hprod hz
  have key : ∀ a b : ℝ, 10 ≤ a → a ≤ b → b ≤ 90 →
      1 - cosd (undoRefraction b - undoRefraction a) ≤ 1.0077 ^ 2 * (1 - cosd (b - a)) := by
    intro a b ha hab hb
    have hl := undo_lip ha hab hb
    have ua := undo_range ha (hab.trans hb)
    have ub := undo_range (ha.trans hab) hb
    unfold cosd radians
    apply cos_scale (by norm_num)
    · have : 0 ≤ b - a := by linarith
      positivity
    · nlinarith
    · have := hl.1
      positivity
    · nlinarith [ua.1, ub.2]
    · have := mul_le_mul_of_nonneg_right hl.2 (by positivity : 0 ≤ Real.pi / 180)
      linarith
  have hB : 1 - cosd (undoRefraction a2 - undoRefraction a1) ≤ 1.0077 ^ 2 * (1 - cosd (a2 - a1)) := by
    rcases le_total a1 a2 with h | h
    · exact key a1 a2 h1 h h2'
    · have hk := key a2 a1 h2 h h1'
      have en : ∀ x y : ℝ, cosd (x - y) = cosd (y - x) := by
        intro x y
        rw [cosd_sub, cosd_sub]
        ring
      rw [en, en a2 a1]
      exact hk
  linarith

/-! ## Altitudes -/

theorem alt_range {h : ℝ × ℝ} (hz : 0 ≤ (horizon.app (xyz h)).z) : 0 ≤ (hadec2altaz h).1 ∧ (hadec2altaz h).1 ≤ 90 := by
  have hu := horizon_unit (xyz_unit h)
  have hlon := xyz_lonlat hu
  have hs : sind (getLONLAT (horizon.app (xyz h))).2 = (horizon.app (xyz h)).z := congrArg V3.z hlon
  have hrr := lonlat_range (horizon.app (xyz h))
  have h0 : 0 ≤ (getLONLAT (horizon.app (xyz h))).2 := by
    by_contra hc
    rw [not_le] at hc
    have := sind_pos (x := -(getLONLAT (horizon.app (xyz h))).2) (by linarith) (by linarith [hrr.2.2.1])
    rw [sind_neg] at this
    linarith
  have ht := alt_of_dir (h := h) (az := (getLONLAT (horizon.app (xyz h))).1) (a := (getLONLAT (horizon.app (xyz h))).2) h0 hrr.2.2.2
    (by rw [xyz_altaz h]; exact hlon.symm)
  rw [ht]
  exact ⟨h0, hrr.2.2.2⟩

theorem sind_11 : sind 10 + 0.01 ≤ sind 11 := by
  rw [show (11 : ℝ) = 10 + 1 by norm_num, sind_add]
  have s1 := sind_1
  have c10 : 0.98 ≤ cosd 10 := by
    have h1 := sq_cosd_sind 10
    have h2 : sind 10 ≤ 0.175 := by
      have h := small (a := 10) (by norm_num)
      have := Real.pi_lt_d6
      have h3 := le_abs_self (sind 10)
      norm_num at this ⊢
      linarith
    have h3 : 0 ≤ sind 10 := le_trans (by norm_num) sind_10.le
    have h4 := cosd_nonneg (x := 10) (by norm_num) (by norm_num)
    norm_num at h2 ⊢
    nlinarith
  have c1 : 0.999 ≤ cosd 1 := by
    have h1 := sq_cosd_sind 1
    have h2 : sind 1 ≤ 0.0175 := by
      have h := small (a := 1) (by norm_num)
      have := Real.pi_lt_d6
      have h3 := le_abs_self (sind 1)
      norm_num at this ⊢
      linarith
    have h3 : 0 ≤ sind 1 := le_trans (by norm_num) s1.le
    have h4 := cosd_nonneg (x := 1) (by norm_num) (by norm_num)
    norm_num at h2 ⊢
    nlinarith
  have h10 : sind 10 ≤ 0.2 := by
    have h := small (a := 10) (by norm_num)
    have := Real.pi_lt_d6
    have h3 := le_abs_self (sind 10)
    norm_num at this ⊢
    linarith
  have h3 : 0 ≤ sind 10 := le_trans (by norm_num) sind_10.le
  norm_num at *
  nlinarith

theorem sind_ge_10 {x : ℝ} (h0 : 0 ≤ x) (h : sind 10 < sind x) : 10 ≤ x := by
  by_contra hc
  rw [not_le] at hc
  have := sind_mono h0 hc.le (by norm_num)
  linarith

end Verif.Lemmas.SkySensitivity
