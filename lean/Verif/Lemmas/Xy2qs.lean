import Verif.Lemmas.Xy2qsCert
import Verif.Lemmas.Trig
import Mathlib.Tactic.FieldSimp

namespace Verif.Lemmas.Xy2qs
open Verif.Lemmas.Poly Verif.Model.Xy2qs Verif.Py Verif.Model.Trig Verif.Lemmas.Trig

theorem r2s_eq (r : ℝ) : r2s r = 400 * ev P (r / 400) := by rw [r2s, polyval_eq, P]
theorem s2r_eq (r : ℝ) : s2r r = 400 * ev G (r / 400) := by rw [s2r, polyval_eq, G]

theorem HD_bound : ((HD / 80000 : Int) : ℝ) ≤ HD / 80000 := by
  have h : (HD / 80000) * 80000 ≤ HD := Int.ediv_mul_le _ (by norm_num)
  have h' : (((HD / 80000 : Int)) : ℝ) * 80000 ≤ HD := by exact_mod_cast h
  rw [le_div_iff₀ (by norm_num)]; exact h'

theorem KD_bound : ((KD / 80000 : Int) : ℝ) ≤ KD / 80000 := by
  have h : (KD / 80000) * 80000 ≤ KD := Int.ediv_mul_le _ (by norm_num)
  have h' : (((KD / 80000 : Int)) : ℝ) * 80000 ≤ KD := by exact_mod_cast h
  rw [le_div_iff₀ (by norm_num)]; exact h'

theorem HD_pos : (0:ℝ) < (HD : ℝ) := by
  have : (0:Int) < HD := by decide +kernel
  exact_mod_cast this
theorem KD_pos : (0:ℝ) < (KD : ℝ) := by
  have : (0:Int) < KD := by decide +kernel
  exact_mod_cast this

theorem evH (t : ℝ) (h0 : 0 ≤ t) (h1 : t ≤ 69 / 64) : |ev G (ev P t) - t| ≤ 1 / 80000 := by
  have e : ev H t = ev G (ev P t) - t := by
    rw [H, ev_add, ev_comp]; simp only [ev]; push_cast; ring
  have hD := HD_pos
  have e2 := ev_evI (HD : ℚ) (by have := HD_pos; intro h; rw [Int.cast_eq_zero] at h; rw [h] at this; simp at this) H _ H_eq t
  rw [evI_zeros] at e2
  have hc := checkCells_sound (by norm_num) (by norm_num) H_bound t h0 (by push_cast; linarith)
  rw [← e, e2, abs_le]
  push_cast at hc ⊢
  have := HD_bound
  constructor
  · rw [le_div_iff₀ hD]; linarith
  · rw [div_le_iff₀ hD]; linarith

theorem evK (t : ℝ) (h0 : 0 ≤ t) (h1 : t ≤ 69 / 64) : |ev P (ev G t) - t| ≤ 1 / 80000 := by
  have e : ev K t = ev P (ev G t) - t := by
    rw [K, ev_add, ev_comp]; simp only [ev]; push_cast; ring
  have hD := KD_pos
  have e2 := ev_evI (KD : ℚ) (by have := KD_pos; intro h; rw [Int.cast_eq_zero] at h; rw [h] at this; simp at this) K _ K_eq t
  rw [evI_zeros] at e2
  have hc := checkCells_sound (by norm_num) (by norm_num) K_bound t h0 (by push_cast; linarith)
  rw [← e, e2, abs_le]
  push_cast at hc ⊢
  have := KD_bound
  constructor
  · rw [le_div_iff₀ hD]; linarith
  · rw [div_le_iff₀ hD]; linarith

theorem derivP (t : ℝ) (h0 : 0 ≤ t) (h1 : t ≤ 9 / 8) :
    99 / 100 ≤ ev (deriv P) t ∧ ev (deriv P) t ≤ 101 / 100 := by
  have e2 := ev_evI (10 ^ 15) (by norm_num) (deriv P) _ PD_eq t
  rw [evI_zeros] at e2
  have hc := checkCells_sound (by norm_num) (by norm_num) PD_bound t h0 (by push_cast; linarith)
  rw [e2]
  push_cast at hc ⊢
  constructor
  · rw [le_div_iff₀ (by positivity)]; linarith
  · rw [div_le_iff₀ (by positivity)]; linarith

theorem derivG (t : ℝ) (h0 : 0 ≤ t) (h1 : t ≤ 9 / 8) :
    99 / 100 ≤ ev (deriv G) t ∧ ev (deriv G) t ≤ 101 / 100 := by
  have e2 := ev_evI (10 ^ 15) (by norm_num) (deriv G) _ GD_eq t
  rw [evI_zeros] at e2
  have hc := checkCells_sound (by norm_num) (by norm_num) GD_bound t h0 (by push_cast; linarith)
  rw [e2]
  push_cast at hc ⊢
  constructor
  · rw [le_div_iff₀ (by positivity)]; linarith
  · rw [div_le_iff₀ (by positivity)]; linarith

/-- Mean value theorem for a polynomial with derivative in [0.99, 1.01]. -/
theorem slope (p : List ℚ) (hp : ∀ t, 0 ≤ t → t ≤ 9 / 8 → 99 / 100 ≤ ev (deriv p) t ∧
    ev (deriv p) t ≤ 101 / 100) (a b : ℝ) (h0 : 0 ≤ a) (hab : a ≤ b) (hb : b ≤ 9 / 8) :
    99 / 100 * (b - a) ≤ ev p b - ev p a ∧ ev p b - ev p a ≤ 101 / 100 * (b - a) := by
  rcases eq_or_lt_of_le hab with h | h
  · subst h; simp
  · obtain ⟨c, hc, e⟩ := exists_hasDerivAt_eq_slope (ev p) (ev (deriv p)) h
      (fun x _ => (ev_deriv p x).continuousAt.continuousWithinAt) (fun x _ => ev_deriv p x)
    rw [Set.mem_Ioo] at hc
    have hh := hp c (by linarith) (by linarith)
    rw [eq_div_iff (by linarith)] at e
    have hpos : 0 < b - a := by linarith
    constructor
    · nlinarith
    · nlinarith

theorem r2s_slope (a b : ℝ) (h0 : 0 ≤ a) (hab : a ≤ b) (hb : b ≤ 450) :
    99 / 100 * (b - a) ≤ r2s b - r2s a ∧ r2s b - r2s a ≤ 101 / 100 * (b - a) := by
  have h := slope P derivP (a / 400) (b / 400) (by positivity) (by linarith) (by linarith)
  rw [r2s_eq, r2s_eq]
  constructor <;> linarith

theorem s2r_slope (a b : ℝ) (h0 : 0 ≤ a) (hab : a ≤ b) (hb : b ≤ 450) :
    99 / 100 * (b - a) ≤ s2r b - s2r a ∧ s2r b - s2r a ≤ 101 / 100 * (b - a) := by
  have h := slope G derivG (a / 400) (b / 400) (by positivity) (by linarith) (by linarith)
  rw [s2r_eq, s2r_eq]
  constructor <;> linarith

theorem r2s_zero : r2s 0 = 0.003649100660 := by
  rw [r2s_eq]; norm_num [P, cR2s, ev]
theorem s2r_zero : s2r 0 = 0.0003903161456 := by
  rw [s2r_eq]; norm_num [G, cS2r, ev]

theorem r2s_pos {r : ℝ} (h0 : 0 ≤ r) (h : r ≤ 450) : 0 < r2s r := by
  have h1 := (r2s_slope 0 r le_rfl h0 h).1
  rw [r2s_zero] at h1
  norm_num at h1; linarith

theorem s2r_pos {r : ℝ} (h0 : 0 ≤ r) (h : r ≤ 450) : 0 < s2r r := by
  have h1 := (s2r_slope 0 r le_rfl h0 h).1
  rw [s2r_zero] at h1
  norm_num at h1; linarith

theorem s2r_r2s (r : ℝ) (h0 : 0 ≤ r) (h1 : r ≤ 431) : |s2r (r2s r) - r| ≤ 5 / 1000 := by
  have h := evH (r / 400) (by positivity) (by linarith)
  rw [r2s_eq, s2r_eq, mul_div_cancel_left₀ _ (by norm_num : (400:ℝ) ≠ 0)]
  rw [abs_le] at h ⊢
  constructor <;> linarith

theorem r2s_s2r (r : ℝ) (h0 : 0 ≤ r) (h1 : r ≤ 431) : |r2s (s2r r) - r| ≤ 5 / 1000 := by
  have h := evK (r / 400) (by positivity) (by linarith)
  rw [r2s_eq, s2r_eq, mul_div_cancel_left₀ _ (by norm_num : (400:ℝ) ≠ 0)]
  rw [abs_le] at h ⊢
  constructor <;> linarith

theorem r2s_le (r : ℝ) (h0 : 0 ≤ r) (h1 : r ≤ 431) : r2s r ≤ 450 := by
  have h := (r2s_slope 0 r le_rfl h0 (by linarith)).2
  rw [r2s_zero] at h; norm_num at h; linarith

end Verif.Lemmas.Xy2qs
