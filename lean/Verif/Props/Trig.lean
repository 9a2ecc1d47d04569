import Verif.Lemmas.Trig

/-!
# Property C13: angle normalisation (`trig.py`, `time.py`)
-/

namespace Verif.Props
open Verif.Py Verif.Model.Trig Verif.Lemmas.Trig Verif.Spec Verif.Lemmas.Xy2tp

/-- C13: `put360` returns the unique number of [0,360) that differs from the
argument by whole turns. -/
theorem C13_put360 (a v : ℝ) :
    put360 a = v ↔ (0 ≤ v ∧ v < 360 ∧ SameAngle v a) := by
  constructor
  · rintro rfl
    exact ⟨(put360_range a).1, (put360_range a).2, put360_same a⟩
  · rintro ⟨h0, h1, hs⟩
    exact same_unique (sameAngle_trans (put360_same a) (sameAngle_symm hs)) (put360_range a).1
      (put360_range a).2 h0 h1

/-- C13: `arctan2d y x` is the unique angle of [0,360) of the direction (x, y). -/
theorem C13_arctan2d (x y v : ℝ) (h : (x, y) ≠ (0, 0)) :
    arctan2d y x = v ↔ (0 ≤ v ∧ v < 360 ∧ x = radius (x, y) * Real.cos (v * Real.pi / 180) ∧
      y = radius (x, y) * Real.sin (v * Real.pi / 180)) := by
  have hr : radius (x, y) = hypot x y := rfl
  have hpos : 0 < hypot x y := by
    unfold hypot
    apply Real.sqrt_pos.2
    rcases lt_or_eq_of_le (add_nonneg (sq_nonneg x) (sq_nonneg y)) with h' | h'
    · exact h'
    · exfalso; apply h
      have hx : x = 0 := by nlinarith [sq_nonneg x, sq_nonneg y]
      have hy : y = 0 := by nlinarith [sq_nonneg x, sq_nonneg y]
      rw [hx, hy]
  have hc : ∀ a, Real.cos (a * Real.pi / 180) = cosd a := fun a => by
    unfold cosd radians; congr 1; ring
  have hs : ∀ a, Real.sin (a * Real.pi / 180) = sind a := fun a => by
    unfold sind radians; congr 1; ring
  rw [hr, hc, hs]
  constructor
  · rintro rfl
    exact ⟨(put360_range _).1, (put360_range _).2, (cosd_arctan2d x y).symm, (sind_arctan2d x y).symm⟩
  · rintro ⟨h0, h1, hx, hy⟩
    have e := arctan2d_polar hpos v
    rw [← hx, ← hy, put360_id h0 h1] at e
    exact e

/-- C13: sidereal time: in [0,360), and congruent to the value of the formula
(Greenwich mean sidereal time polynomial, longitude -111.59989°, tie-in
correction -0.16035388°) for every date. -/
theorem C13_mjd2lst (mjd : ℝ) : 0 ≤ mjd2lst mjd ∧ mjd2lst mjd < 360 ∧
    SameAngle (mjd2lst mjd)
      (280.46061837 + 360.98564736629 * (mjd - 51544.5)
        + ((mjd - 51544.5) / 36525) ^ 2 * 0.000387933 - ((mjd - 51544.5) / 36525) ^ 3 / 38710000
        - 111.59989 - 0.16035388) := by
  have e : mjd2lst mjd = put360 (280.46061837 + 360.98564736629 * (mjd - 51544.5)
        + ((mjd - 51544.5) / 36525) ^ 2 * 0.000387933 - ((mjd - 51544.5) / 36525) ^ 3 / 38710000
        - 111.59989 - 0.16035388) := by
    unfold mjd2lst put360
    dsimp only
    congr 1
    ring
  rw [e]
  exact ⟨(put360_range _).1, (put360_range _).2, put360_same _⟩

/-- C13: the average of two directions less than 180° apart is their bisector. -/
theorem C13_average (a d : ℝ) (h0 : -90 < d) (h1 : d < 90) :
    averageAnglesDeg (a - d) (a + d) = put360 a := by
  have hc : 0 < cosd d := by
    apply Real.cos_pos_of_mem_Ioo
    have := Real.pi_pos
    unfold radians
    constructor <;> nlinarith
  have e1 : ∀ x y : ℝ, radians (x + y) = radians x + radians y := fun x y => by unfold radians; ring
  have e2 : ∀ x y : ℝ, radians (x - y) = radians x - radians y := fun x y => by unfold radians; ring
  have h2 : sind (a - d) + sind (a + d) = 2 * cosd d * sind a := by
    unfold sind cosd; rw [e1, e2, Real.sin_add, Real.sin_sub]; ring
  have h3 : cosd (a - d) + cosd (a + d) = 2 * cosd d * cosd a := by
    unfold cosd; rw [e1, e2, Real.cos_add, Real.cos_sub]; ring
  unfold averageAnglesDeg
  rw [h2, h3]
  exact arctan2d_polar (by linarith) a

example : ((-3:ℝ), (4:ℝ)) ≠ (0, 0) := by
  intro h; rw [Prod.mk.injEq] at h; norm_num at h
example : averageAnglesDeg (350 : ℝ) 10 = 0 := by
  have h := C13_average 360 (10) (by norm_num) (by norm_num)
  have h2 : averageAnglesDeg (360 - 10) (360 + 10) = averageAnglesDeg 350 10 := by
    unfold averageAnglesDeg
    rw [show (360:ℝ) - 10 = 350 by norm_num, show (360:ℝ) + 10 = 370 by norm_num]
    have hs : SameAngle (370:ℝ) 10 := ⟨1, by norm_num⟩
    rw [sind_same hs, cosd_same hs]
  rw [← h2, h, C13_put360]
  exact ⟨by norm_num, by norm_num, ⟨-1, by norm_num⟩⟩

end Verif.Props
