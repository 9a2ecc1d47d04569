import Verif.Model.FieldRotRate
import Verif.Spec.Angle
import Mathlib.Tactic.Linarith
import Mathlib.Tactic.Ring
import Mathlib.Tactic.NormNum
import Mathlib.Tactic.FieldSimp

namespace Verif.Props
open Verif.Py Verif.Model.FieldRotRate

namespace Frr

theorem hourAngle_spec (ra lst : ℝ) : -180 < hourAngle ra lst ∧ hourAngle ra lst ≤ 180 ∧
    ∃ k : ℤ, hourAngle ra lst = lst - ra + 360 * k := by
  have h1 := Int.floor_le ((lst - ra) / 360)
  have h2 := Int.lt_floor_add_one ((lst - ra) / 360)
  unfold hourAngle fmod
  dsimp only
  split_ifs with h
  · refine ⟨by linarith, by linarith, -⌊(lst - ra) / 360⌋ - 1, by push_cast; ring⟩
  · push Not at h
    refine ⟨by linarith, h, -⌊(lst - ra) / 360⌋, by push_cast; ring⟩

theorem hourAngle_unique {a b d : ℝ} (ha : -180 < a ∧ a ≤ 180 ∧ ∃ k : ℤ, a = d + 360 * k)
    (hb : -180 < b ∧ b ≤ 180 ∧ ∃ k : ℤ, b = d + 360 * k) : a = b := by
  obtain ⟨a1, a2, k, hk⟩ := ha
  obtain ⟨b1, b2, l, hl⟩ := hb
  have h1 : (k : ℝ) - l < 1 := by linarith
  have h2 : (-1 : ℝ) < (k : ℝ) - l := by linarith
  have h3 : k - l < 1 := by exact_mod_cast h1
  have h4 : -1 < k - l := by exact_mod_cast h2
  have : k = l := by omega
  rw [hk, hl, this]

theorem saturate_eq (v : ℝ) : saturate v = max (-1.5) (min 1.5 v) := by
  unfold saturate
  dsimp only
  by_cases h1 : v < -1.5
  · rw [if_pos h1, if_neg (by norm_num), min_eq_right (by linarith), max_eq_left h1.le]
  · rw [if_neg h1]
    push Not at h1
    split_ifs with h2
    · rw [min_eq_left h2.le, max_eq_right (by norm_num)]
    · push Not at h2
      rw [min_eq_right h2, max_eq_right h1]

end Frr
open Frr

/-- C56: the rate is refused exactly when a declination is unphysical. -/
theorem C56_error {n : ℕ} (ra dec : Fin n → ℝ) (lst : ℝ) :
    (rate ra dec lst = .error .valueError ↔ ∃ i, |dec i| > 90) ∧
    ((∀ i, |dec i| ≤ 90) → ∃ r, rate ra dec lst = .ok r) := by
  unfold rate
  constructor
  · constructor
    · intro h
      by_contra hc
      rw [if_neg hc] at h
      cases h
    · intro h; rw [if_pos h]
  · intro h
    rw [if_neg (by push Not; exact h)]
    exact ⟨_, rfl⟩

/-- C56: otherwise element `i` depends on element `i` of the input only; it is the fitted cubic in
hour angle (the representative in (-180, 180]) and declination, limited to ±1.5. -/
theorem C56_value {n : ℕ} (ra dec : Fin n → ℝ) (lst : ℝ) (r : Fin n → ℝ) (h : rate ra dec lst = .ok r) (i : Fin n) :
    ∃ ha, -180 < ha ∧ ha ≤ 180 ∧ (∃ k : ℤ, ha = lst - ra i + 360 * k) ∧
      r i = max (-1.5) (min 1.5 (-0.447 + 0.065 * (ha / 60) - 0.067 * ((dec i - 30) / 30) + 0.382 * (ha / 60) ^ 2
        + 0.021 * (ha / 60) * ((dec i - 30) / 30) - 0.121 * ((dec i - 30) / 30) ^ 2 - 0.031 * (ha / 60) ^ 3
        + 0.196 * (ha / 60) ^ 2 * ((dec i - 30) / 30) + 0.096 * (ha / 60) * ((dec i - 30) / 30) ^ 2
        - 0.043 * ((dec i - 30) / 30) ^ 3)) := by
  unfold rate at h
  split_ifs at h
  injection h with h
  subst h
  obtain ⟨h1, h2, h3⟩ := hourAngle_spec (ra i) lst
  exact ⟨_, h1, h2, h3, by dsimp only; rw [saturate_eq]; rfl⟩

/-- C56: the rate never exceeds 1.5 arcsec per minute. -/
theorem C56_bounded {n : ℕ} (ra dec : Fin n → ℝ) (lst : ℝ) (r : Fin n → ℝ) (h : rate ra dec lst = .ok r) (i : Fin n) :
    |r i| ≤ 1.5 := by
  obtain ⟨ha, -, -, -, h4⟩ := C56_value ra dec lst r h i
  rw [h4, abs_le]
  exact ⟨le_max_left _ _, max_le (by norm_num) (min_le_left _ _)⟩

/-- C56: full turns of RA and of sidereal time do not change the result. -/
theorem C56_periodic {n : ℕ} (ra dec : Fin n → ℝ) (lst : ℝ) (k : Fin n → ℤ) (l : ℤ) :
    rate (fun i => ra i + 360 * k i) dec (lst + 360 * l) = rate ra dec lst := by
  have key : ∀ i, hourAngle (ra i + 360 * k i) (lst + 360 * l) = hourAngle (ra i) lst := by
    intro i
    obtain ⟨h1, h2, m, h3⟩ := hourAngle_spec (ra i + 360 * k i) (lst + 360 * l)
    exact hourAngle_unique (d := lst - ra i) ⟨h1, h2, m + l - k i, by rw [h3]; push_cast; ring⟩ (hourAngle_spec (ra i) lst)
  unfold rate
  simp only [key]

/-- At the meridian and Dec 30 the rate is the constant term. -/
example : rate (n := 1) (fun _ => 10) (fun _ => 30) 370 = .ok fun _ => -0.447 := by
  have := C56_periodic (n := 1) (fun _ => 10) (fun _ => 30) 10 (fun _ => 0) 1
  norm_num at this
  rw [this]
  have h0 : hourAngle 10 10 = 0 := by unfold hourAngle fmod; norm_num
  unfold rate
  rw [if_neg (by push Not; intro _; rw [abs_of_pos] <;> norm_num)]
  simp only [h0]
  congr 1
  funext i
  rw [saturate_eq, poly]
  norm_num

end Verif.Props
