import Verif.Lemmas.Sky
import Mathlib.Analysis.SpecialFunctions.Trigonometric.Bounds
import Mathlib.Analysis.Real.Pi.Bounds

namespace Verif.Lemmas.Refraction
open Verif.Py Verif.Model.Trig Verif.Model.Radec2tan Verif.Lemmas.Trig Verif.Lemmas.Sky

/-- Refraction coefficient in degrees. -/
noncomputable def K : ℝ := REFRACTION_AT_30DEG_ELEVATION / 3600 * tand 30

noncomputable def d (x : ℝ) : ℝ := K * cosd x / sind x

theorem apply_eq (x : ℝ) : applyRefraction x = x + d x := by
  unfold applyRefraction d tand
  rw [Real.tan_eq_sin_div_cos (radians x), div_div_eq_mul_div]
  rfl

theorem undo_eq (a : ℝ) : undoRefraction a = a - d (a - d a) := by
  have : undoRefraction a = (undoRefractionStep (undoRefractionStep (a, 0))).1 := rfl
  rw [this]
  unfold undoRefractionStep
  simp only [apply_eq]
  ring_nf

theorem tand30 : tand 30 = 1 / Real.sqrt 3 := by
  unfold tand
  rw [show radians 30 = Real.pi / 6 by unfold radians; ring, Real.tan_pi_div_six]

theorem K_pos : 0 < K := by
  unfold K; rw [tand30]; unfold REFRACTION_AT_30DEG_ELEVATION; positivity

theorem K_lt : K < 127 / 10000 := by
  unfold K; rw [tand30]; unfold REFRACTION_AT_30DEG_ELEVATION
  have h3 : 1.732 < Real.sqrt 3 := by
    rw [Real.lt_sqrt (by norm_num)]; norm_num
  have : 1 / Real.sqrt 3 < 1 / 1.732 := by
    apply one_div_lt_one_div_of_lt (by norm_num) h3
  calc 79 / 3600 * (1 / Real.sqrt 3) < 79 / 3600 * (1 / 1.732) := by gcongr
    _ < 127 / 10000 := by norm_num

theorem sind_mono {x y : ℝ} (h0 : 0 ≤ x) (hxy : x ≤ y) (hy : y ≤ 90) : sind x ≤ sind y := by
  have := Real.pi_pos
  unfold sind radians
  apply Real.sin_le_sin_of_le_of_le_pi_div_two <;> nlinarith

theorem sind_pos {x : ℝ} (h0 : 0 < x) (h1 : x < 180) : 0 < sind x := by
  have := Real.pi_pos
  unfold sind radians
  apply Real.sin_pos_of_pos_of_lt_pi <;> nlinarith

theorem cosd_nonneg {x : ℝ} (h0 : -90 ≤ x) (h1 : x ≤ 90) : 0 ≤ cosd x := by
  have := Real.pi_pos
  unfold cosd radians
  apply Real.cos_nonneg_of_mem_Icc
  constructor <;> nlinarith

theorem d_nonneg {x : ℝ} (h0 : 0 < x) (h1 : x ≤ 90) : 0 ≤ d x := by
  unfold d
  have := sind_pos h0 (by linarith)
  have := cosd_nonneg (by linarith) h1
  have := K_pos
  positivity

theorem d_pos {x : ℝ} (h0 : 0 < x) (h1 : x < 90) : 0 < d x := by
  unfold d
  have := sind_pos h0 (by linarith)
  have := cosd_pos (by linarith) h1
  have := K_pos
  positivity

theorem d_90 : d 90 = 0 := by unfold d; rw [cosd_90]; simp

theorem d_sub {x y : ℝ} (hx : sind x ≠ 0) (hy : sind y ≠ 0) :
    d x - d y = K * sind (y - x) / (sind x * sind y) := by
  unfold d
  rw [sind_sub]
  field_simp

/-- Relative change of the refraction per degree at altitude t. -/
noncomputable def q (t : ℝ) : ℝ := K * (Real.pi / 180) / sind t ^ 2

theorem q_pos {t : ℝ} (h0 : 0 < t) (h1 : t < 180) : 0 < q t := by
  unfold q
  have := sind_pos h0 h1
  have := K_pos
  have := Real.pi_pos
  positivity

theorem d_lip {t x y : ℝ} (ht : 0 < t) (hx : t ≤ x) (hxy : x ≤ y) (hy : y ≤ 90) :
    0 ≤ d x - d y ∧ d x - d y ≤ q t * (y - x) := by
  have st := sind_pos ht (by linarith)
  have sx := sind_mono ht.le hx (by linarith)
  have sy := sind_mono ht.le (hx.trans hxy) hy
  have hK := K_pos
  have hpi := Real.pi_pos
  rw [d_sub (by linarith) (by linarith)]
  have hs0 : 0 ≤ sind (y - x) := by
    unfold sind radians
    apply Real.sin_nonneg_of_nonneg_of_le_pi
    · apply mul_nonneg <;> [linarith; positivity]
    · nlinarith
  have hs1 : sind (y - x) ≤ (y - x) * (Real.pi / 180) := by
    unfold sind radians
    apply Real.sin_le
    apply mul_nonneg <;> [linarith; positivity]
  have hden : sind t ^ 2 ≤ sind x * sind y := by nlinarith
  have hd0 : 0 < sind t ^ 2 := by positivity
  constructor
  · have : 0 < sind x * sind y := lt_of_lt_of_le hd0 hden
    positivity
  · unfold q
    calc K * sind (y - x) / (sind x * sind y) ≤ K * sind (y - x) / sind t ^ 2 := by
          gcongr
      _ ≤ K * ((y - x) * (Real.pi / 180)) / sind t ^ 2 := by gcongr
      _ = K * (Real.pi / 180) / sind t ^ 2 * (y - x) := by ring

theorem pi_bounds : 3.1415 < Real.pi ∧ Real.pi < 3.1416 := ⟨Real.pi_gt_d4, Real.pi_lt_d4⟩

theorem sind_1 : 1744 / 100000 < sind 1 := by
  have hp := pi_bounds
  unfold sind radians
  rw [one_mul]
  have h := Real.sin_gt_sub_cube (x := Real.pi / 180) (by linarith)
  have h1 : 0.01745 < Real.pi / 180 := by linarith
  have h2 : Real.pi / 180 < 0.01746 := by linarith
  have h3 : (Real.pi / 180) ^ 3 < 0.01746 ^ 3 := by gcongr
  norm_num at h1 h2 h3 ⊢
  linarith

theorem sind_10 : 173 / 1000 < sind 10 := by
  have hp := pi_bounds
  unfold sind radians
  have h := Real.sin_gt_sub_cube (x := 10 * (Real.pi / 180)) (by linarith)
  have h1 : 0.1745 < 10 * (Real.pi / 180) := by linarith
  have h2 : 10 * (Real.pi / 180) < 0.17454 := by linarith
  have h3 : (10 * (Real.pi / 180)) ^ 3 < 0.17454 ^ 3 := by gcongr
  norm_num at h1 h2 h3 ⊢
  linarith

theorem sind_30 : sind 30 = 1 / 2 := by
  unfold sind
  rw [show radians 30 = Real.pi / 6 by unfold radians; ring, Real.sin_pi_div_six]

theorem q_le {t s : ℝ} (h0 : 0 < s) (h : s ≤ sind t) : q t ≤ 22168 / 10 ^ 8 / s ^ 2 := by
  unfold q
  have hK := K_lt
  have hK0 := K_pos
  have hp := pi_bounds
  have : K * (Real.pi / 180) ≤ 22168 / 10 ^ 8 := by
    have h1 : Real.pi / 180 ≤ 3.1416 / 180 := by linarith
    calc K * (Real.pi / 180) ≤ 127 / 10000 * (3.1416 / 180) := by
          gcongr
      _ ≤ _ := by norm_num
  gcongr

theorem q_lt_one {t : ℝ} (h1 : 1 ≤ t) (h2 : t ≤ 90) : q t < 1 := by
  have h := sind_mono (by norm_num) h1 h2
  have h' := q_le (t := t) (s := 1744 / 100000) (by norm_num) (by linarith [sind_1])
  norm_num at h'
  linarith

theorem apply_sub {x y : ℝ} (hx : 1 ≤ x) (hxy : x < y) (hy : y ≤ 90) :
    0 < applyRefraction y - applyRefraction x := by
  rw [apply_eq, apply_eq]
  have h := (d_lip (by linarith : (0:ℝ) < x) le_rfl hxy.le hy).2
  have h2 := q_lt_one hx (by linarith : x ≤ 90)
  nlinarith

theorem apply_le_90 {x : ℝ} (hx : 1 ≤ x) (hy : x ≤ 90) : applyRefraction x ≤ 90 := by
  rcases eq_or_lt_of_le hy with h | h
  · rw [h, apply_eq, d_90]; simp
  · have := apply_sub hx h le_rfl
    rw [apply_eq 90, d_90] at this
    linarith

theorem undo_apply {t : ℝ} (h1 : 1 ≤ t) (h2 : t ≤ 90) :
    0 ≤ undoRefraction (applyRefraction t) - t ∧
    undoRefraction (applyRefraction t) - t ≤ q t ^ 2 * d t := by
  have ht : 0 < t := by linarith
  have ha : applyRefraction t ≤ 90 := apply_le_90 h1 h2
  have hd := d_nonneg ht h2
  have hat : t ≤ applyRefraction t := by rw [apply_eq]; linarith
  have l1 := d_lip ht le_rfl hat ha
  have hda := d_nonneg (ht.trans_le hat) ha
  have he : applyRefraction t - d (applyRefraction t) = t + (d t - d (applyRefraction t)) := by
    conv_lhs => rw [apply_eq t]
    rw [apply_eq t]; ring
  have l2 := d_lip ht le_rfl (y := applyRefraction t - d (applyRefraction t))
    (by rw [he]; linarith) (by linarith)
  have hu : undoRefraction (applyRefraction t) - t =
      d t - d (applyRefraction t - d (applyRefraction t)) := by
    rw [undo_eq]
    conv_lhs => rw [apply_eq t]
    rw [apply_eq t]; ring
  rw [hu]
  refine ⟨l2.1, l2.2.trans ?_⟩
  have hq := q_pos ht (by linarith)
  have e2 : applyRefraction t - d (applyRefraction t) - t = d t - d (applyRefraction t) := by
    rw [he]; ring
  rw [e2]
  have e3 : applyRefraction t - t = d t := by rw [apply_eq]; ring
  rw [e3] at l1
  calc q t * (d t - d (applyRefraction t)) ≤ q t * (q t * d t) := by
        gcongr; exact l1.2
    _ = _ := by ring

end Verif.Lemmas.Refraction
