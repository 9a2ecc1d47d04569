import Verif.Model.Fiberassign
import Verif.Props.Raytracefit
import Verif.Props.Radec2tan
import Verif.Props.Xy2qs
import Verif.Lemmas.ZhaoBurgePoly
import Mathlib.Analysis.SpecialFunctions.Trigonometric.Bounds

/-! # Property C57: coordinates for fibre assignment -/

namespace Verif.Props
open Verif.Py Verif.Model.Trig Verif.Model.Radec2tan Verif.Model.Raytracefit Verif.Model.Xy2qs
open Verif.Model.Fiberassign Verif.Spec
open Verif.Lemmas.Fvc2fp (mapM_ok)

namespace Fa

theorem turn_eq (d : ℝ) : (fun p : ℝ × ℝ => (cosd d * p.1 - sind d * p.2, sind d * p.1 + cosd d * p.2)) = turn d := by
  funext p; unfold turn cosd sind radians; rfl

theorem turn_eq' (d : ℝ) : (fun p : ℝ × ℝ => (cosd d * p.1 + sind d * p.2, -sind d * p.1 + cosd d * p.2)) = turn (-d) := by
  rw [← turn_eq]; funext p
  have h1 : cosd (-d) = cosd d := Verif.Lemmas.Sky.cosd_neg d
  have h2 : sind (-d) = -sind d := Verif.Lemmas.Sky.sind_neg d
  rw [h1, h2]
  ext <;> simp only <;> ring

end Fa
open Fa

/-! ## arguments -/

/-- C57: the arguments are checked before anything is computed: two arrays of different sizes
raise `AssertionError`; otherwise giving one ADC angle without the other raises `ValueError`;
otherwise leaving both out is the same as giving the default angles for the tile's hour angle
and declination.  The same holds for both directions. -/
theorem C57_arguments (t : RayTraceFit) (pm : Option DM2PM) (hc : Bool) (a b : List ℝ) (tile : ℝ × ℝ)
    (mjd ha f : ℝ) :
    (a.length ≠ b.length → ∀ adc1 adc2,
      radec2xyCs5 t pm hc a b tile mjd ha f adc1 adc2 = .error .assertionError ∧
      cs5Xy2radec t pm hc a b tile mjd ha f adc1 adc2 = .error .assertionError) ∧
    (a.length = b.length → ∀ v,
      radec2xyCs5 t pm hc a b tile mjd ha f (some v) none = .error .valueError ∧
      radec2xyCs5 t pm hc a b tile mjd ha f none (some v) = .error .valueError ∧
      cs5Xy2radec t pm hc a b tile mjd ha f (some v) none = .error .valueError ∧
      cs5Xy2radec t pm hc a b tile mjd ha f none (some v) = .error .valueError) ∧
    radec2xyCs5 t pm hc a b tile mjd ha f none none =
      radec2xyCs5 t pm hc a b tile mjd ha f (some (pmGetAdcAngles ha tile.2).1)
        (some (pmGetAdcAngles ha tile.2).2) ∧
    cs5Xy2radec t pm hc a b tile mjd ha f none none =
      cs5Xy2radec t pm hc a b tile mjd ha f (some (pmGetAdcAngles ha tile.2).1)
        (some (pmGetAdcAngles ha tile.2).2) := by
  refine ⟨fun h adc1 adc2 => ?_, fun h v => ?_, rfl, rfl⟩
  · unfold radec2xyCs5 cs5Xy2radec
    simp only [h, ne_eq, not_false_eq_true, if_true]
    exact ⟨rfl, rfl⟩
  · unfold radec2xyCs5 cs5Xy2radec
    simp only [h, ne_eq, not_true_eq_false, if_false]
    exact ⟨rfl, rfl, rfl, rfl⟩

/-! ## default ADC angles -/

/-- The zenith as (hour angle, declination): the latitude used by the default ADC angles. -/
noncomputable def zenith : ℝ × ℝ := (0, 31.9634)

/-- Unit vectors towards north and towards increasing hour angle (west) at a position. -/
noncomputable def northOf (p : ℝ × ℝ) : ℝ × ℝ × ℝ :=
  (-(Real.sin (p.2 * Real.pi / 180) * Real.cos (p.1 * Real.pi / 180)),
   -(Real.sin (p.2 * Real.pi / 180) * Real.sin (p.1 * Real.pi / 180)), Real.cos (p.2 * Real.pi / 180))
noncomputable def westOf (p : ℝ × ℝ) : ℝ × ℝ × ℝ :=
  (-Real.sin (p.1 * Real.pi / 180), Real.cos (p.1 * Real.pi / 180), 0)
/-- Inner product. -/
noncomputable def inner3 (a b : ℝ × ℝ × ℝ) : ℝ := a.1 * b.1 + a.2.1 * b.2.1 + a.2.2 * b.2.2

theorem zd_arg (ha dec : ℝ) : Real.cos (radians ha) * Real.cos (radians dec) * Real.cos (radians pmLatitude) +
    Real.sin (radians dec) * Real.sin (radians pmLatitude) = cosSep (ha, dec) zenith := by
  unfold cosSep skyDir zenith pmLatitude radians
  simp only [zero_mul, zero_div, Real.cos_zero, Real.sin_zero, mul_div_assoc]
  ring

theorem cosSep_bounds (p q : ℝ × ℝ) : -1 ≤ cosSep p q ∧ cosSep p q ≤ 1 := by
  have h1 : (skyDir p).1 ^ 2 + (skyDir p).2.1 ^ 2 + (skyDir p).2.2 ^ 2 = 1 := by
    unfold skyDir
    linear_combination Real.cos (p.2 * Real.pi / 180) ^ 2 * Real.sin_sq_add_cos_sq (p.1 * Real.pi / 180) +
      Real.sin_sq_add_cos_sq (p.2 * Real.pi / 180)
  have h2 : (skyDir q).1 ^ 2 + (skyDir q).2.1 ^ 2 + (skyDir q).2.2 ^ 2 = 1 := by
    unfold skyDir
    linear_combination Real.cos (q.2 * Real.pi / 180) ^ 2 * Real.sin_sq_add_cos_sq (q.1 * Real.pi / 180) +
      Real.sin_sq_add_cos_sq (q.2 * Real.pi / 180)
  unfold cosSep
  constructor
  · nlinarith [sq_nonneg ((skyDir p).1 + (skyDir q).1), sq_nonneg ((skyDir p).2.1 + (skyDir q).2.1),
      sq_nonneg ((skyDir p).2.2 + (skyDir q).2.2)]
  · nlinarith [sq_nonneg ((skyDir p).1 - (skyDir q).1), sq_nonneg ((skyDir p).2.1 - (skyDir q).2.1),
      sq_nonneg ((skyDir p).2.2 - (skyDir q).2.2)]

theorem adc_diff (p : ℝ × ℝ) : (pmGetAdcAngles p.1 p.2).1 - (pmGetAdcAngles p.1 p.2).2 =
    2 * ((-0.0183 - 0.3795 * Real.tan (min (Real.arccos (cosSep p zenith)) (Real.pi / 3)) -
      0.1939 * Real.tan (min (Real.arccos (cosSep p zenith)) (Real.pi / 3)) ^ 2) * (180 / Real.pi)) := by
  have hp := Real.pi_pos
  have h : radians (min (pmZd p.1 p.2 pmLatitude) 60) = min (Real.arccos (cosSep p zenith)) (Real.pi / 3) := by
    unfold pmZd
    rw [zd_arg]
    unfold radians degrees
    rw [min_mul_of_nonneg _ _ (by positivity)]
    congr 1
    · field_simp
    · ring
  unfold pmGetAdcAngles pmZd2deltaadc
  simp only
  rw [h]
  unfold degrees
  ring

/-- C57: the default ADC angles: the middle of the two is the parallactic angle (the position
angle of the zenith, measured from north towards east), and each is displaced from it by a
quadratic polynomial in the tangent of the zenith distance, taken at most at 60 degrees. -/
theorem C57_adc_angles (ha dec : ℝ) : ∃ zd psi ρ δ : ℝ,
    0 ≤ zd ∧ zd ≤ 180 ∧ Real.cos (zd * Real.pi / 180) = cosSep (ha, dec) zenith ∧
    -180 < psi ∧ psi ≤ 180 ∧ 0 ≤ ρ ∧
    ρ * Real.cos (psi * Real.pi / 180) = inner3 (skyDir zenith) (northOf (ha, dec)) ∧
    ρ * Real.sin (psi * Real.pi / 180) = -inner3 (skyDir zenith) (westOf (ha, dec)) ∧
    δ * (Real.pi / 180) = -0.0183 - 0.3795 * Real.tan (min zd 60 * Real.pi / 180) -
      0.1939 * Real.tan (min zd 60 * Real.pi / 180) ^ 2 ∧
    pmGetAdcAngles ha dec = (psi + δ, psi - δ) := by
  have hp := Real.pi_pos
  obtain ⟨hb1, hb2⟩ := cosSep_bounds (ha, dec) zenith
  have hn : inner3 (skyDir zenith) (northOf (ha, dec)) = Real.cos (radians dec) * Real.sin (radians pmLatitude) -
      Real.sin (radians dec) * Real.cos (radians pmLatitude) * Real.cos (radians ha) := by
    unfold inner3 skyDir northOf zenith pmLatitude radians
    simp only [zero_mul, zero_div, Real.cos_zero, Real.sin_zero, mul_div_assoc]
    ring
  have hw : -inner3 (skyDir zenith) (westOf (ha, dec)) = Real.sin (radians ha) * Real.cos (radians pmLatitude) := by
    unfold inner3 skyDir westOf zenith pmLatitude radians
    simp only [zero_mul, zero_div, Real.cos_zero, Real.sin_zero, mul_div_assoc]
    ring
  rw [hn, hw]
  generalize hY : Real.sin (radians ha) * Real.cos (radians pmLatitude) = Y
  generalize hX : Real.cos (radians dec) * Real.sin (radians pmLatitude) -
      Real.sin (radians dec) * Real.cos (radians pmLatitude) * Real.cos (radians ha) = X
  have hpsi : pmPsi ha dec pmLatitude = degrees (atan2 Y X) := by unfold pmPsi; rw [hX, hY]
  refine ⟨pmZd ha dec pmLatitude, pmPsi ha dec pmLatitude, hypot X Y,
    pmZd2deltaadc (pmZd ha dec pmLatitude) / 2, ?_, ?_, ?_, ?_, ?_, Real.sqrt_nonneg _, ?_, ?_, ?_, rfl⟩
  · unfold pmZd degrees; have := Real.arccos_nonneg (Real.cos (radians ha) * Real.cos (radians dec) *
      Real.cos (radians pmLatitude) + Real.sin (radians dec) * Real.sin (radians pmLatitude)); positivity
  · unfold pmZd degrees
    have := Real.arccos_le_pi (Real.cos (radians ha) * Real.cos (radians dec) *
      Real.cos (radians pmLatitude) + Real.sin (radians dec) * Real.sin (radians pmLatitude))
    rw [mul_div_assoc', div_le_iff₀ hp]; linarith
  · unfold pmZd
    rw [zd_arg]
    unfold degrees
    rw [show Real.arccos (cosSep (ha, dec) zenith) * (180 / Real.pi) * Real.pi / 180 =
      Real.arccos (cosSep (ha, dec) zenith) by field_simp]
    exact Real.cos_arccos hb1 hb2
  · rw [hpsi]; unfold degrees atan2
    have := Complex.neg_pi_lt_arg (Complex.mk X Y)
    rw [mul_div_assoc', lt_div_iff₀ hp]; linarith
  · rw [hpsi]; unfold degrees atan2
    have := Complex.arg_le_pi (Complex.mk X Y)
    rw [mul_div_assoc', div_le_iff₀ hp]; linarith
  · rw [hpsi, show degrees (atan2 Y X) * Real.pi / 180 = atan2 Y X by unfold degrees; field_simp,
      Verif.Lemmas.Trig.hypot_norm]
    unfold atan2
    exact Complex.norm_mul_cos_arg _
  · rw [hpsi, show degrees (atan2 Y X) * Real.pi / 180 = atan2 Y X by unfold degrees; field_simp,
      Verif.Lemmas.Trig.hypot_norm]
    unfold atan2
    exact Complex.norm_mul_sin_arg _
  · unfold pmZd2deltaadc degrees
    simp only
    rw [show radians (min (pmZd ha dec pmLatitude) 60) = min (pmZd ha dec pmLatitude) 60 * Real.pi / 180 by
      unfold radians; ring]
    field_simp
    ring

/-- C57: the difference of the two default ADC angles depends only on the distance from the
zenith, grows in size (is more negative) with that distance up to 60 degrees and is constant
from there on.  It is not zero at the zenith but -0.0366 radians, which is also its smallest
size. -/
theorem C57_adc_difference (p q : ℝ × ℝ) :
    let D := fun r : ℝ × ℝ => (pmGetAdcAngles r.1 r.2).1 - (pmGetAdcAngles r.1 r.2).2
    (cosSep p zenith = cosSep q zenith → D p = D q) ∧
    (1 / 2 ≤ cosSep q zenith → cosSep q zenith < cosSep p zenith → D q < D p) ∧
    (cosSep p zenith ≤ 1 / 2 → cosSep q zenith ≤ 1 / 2 → D p = D q) ∧
    (cosSep p zenith = 1 → D p = -0.0366 * (180 / Real.pi)) ∧
    D p ≤ -0.0366 * (180 / Real.pi) := by
  intro D
  have hD : ∀ r, D r = 2 * ((-0.0183 - 0.3795 * Real.tan (min (Real.arccos (cosSep r zenith)) (Real.pi / 3)) -
      0.1939 * Real.tan (min (Real.arccos (cosSep r zenith)) (Real.pi / 3)) ^ 2) * (180 / Real.pi)) := adc_diff
  have hp := Real.pi_pos
  have hk : 0 < 180 / Real.pi := by positivity
  have harc : Real.arccos (1 / 2) = Real.pi / 3 := by
    rw [← Real.cos_pi_div_three, Real.arccos_cos (by positivity) (by linarith)]
  have htan0 : ∀ r, 0 ≤ Real.tan (min (Real.arccos (cosSep r zenith)) (Real.pi / 3)) := fun r =>
    Real.tan_nonneg_of_nonneg_of_le_pi_div_two (le_min (Real.arccos_nonneg _) (by positivity))
      ((min_le_right _ _).trans (by linarith))
  refine ⟨fun h => by rw [hD, hD, h], fun h h' => ?_, fun h h' => ?_, fun h => ?_, ?_⟩
  · have h1 : Real.arccos (cosSep q zenith) ≤ Real.pi / 3 := by
      rw [← harc]; exact Real.antitone_arccos h
    have h2 : Real.arccos (cosSep p zenith) < Real.arccos (cosSep q zenith) :=
      Real.strictAntiOn_arccos ⟨(cosSep_bounds q zenith).1, (cosSep_bounds q zenith).2⟩
        ⟨(cosSep_bounds p zenith).1, (cosSep_bounds p zenith).2⟩ h'
    have h3 := htan0 p
    rw [hD, hD]
    rw [min_eq_left h1, min_eq_left (h2.le.trans h1)] at *
    have h4 : Real.tan (Real.arccos (cosSep p zenith)) < Real.tan (Real.arccos (cosSep q zenith)) := by
      apply Real.tan_lt_tan_of_nonneg_of_lt_pi_div_two (Real.arccos_nonneg _) (by linarith) h2
    nlinarith [mul_pos hk (sub_pos.2 h4), mul_nonneg hk.le (mul_nonneg (sub_pos.2 h4).le h3),
      mul_pos hk (mul_pos (sub_pos.2 h4) (sub_pos.2 h4))]
  · rw [hD, hD]
    have h1 : Real.pi / 3 ≤ Real.arccos (cosSep p zenith) := by
      rw [← harc]; exact Real.antitone_arccos h
    have h2 : Real.pi / 3 ≤ Real.arccos (cosSep q zenith) := by
      rw [← harc]; exact Real.antitone_arccos h'
    rw [min_eq_right h1, min_eq_right h2]
  · rw [hD, h, Real.arccos_one, min_eq_left (by positivity), Real.tan_zero]; ring
  · rw [hD]
    have := htan0 p
    nlinarith [mul_nonneg hk.le this, mul_nonneg hk.le (mul_nonneg this this)]

/-- The three cases occur: the zenith itself, a position 30 degrees and one 90 degrees away. -/
example : cosSep zenith zenith = 1 ∧ cosSep (0, 31.9634 - 30) zenith = Real.sqrt 3 / 2 ∧
    cosSep (0, 31.9634 - 90) zenith ≤ 1 / 2 := by
  have h : ∀ a b : ℝ, cosSep (0, a) (0, b) = Real.cos ((b - a) * Real.pi / 180) := by
    intro a b
    rw [show (b - a) * Real.pi / 180 = b * Real.pi / 180 - a * Real.pi / 180 by ring, Real.cos_sub]
    unfold cosSep skyDir
    simp only [zero_mul, zero_div, Real.cos_zero, Real.sin_zero]
    ring
  unfold zenith
  refine ⟨by rw [h]; simp, ?_, ?_⟩
  · rw [h, ← Real.cos_pi_div_six]; congr 1; ring
  · rw [h]
    rw [show (31.9634 - (31.9634 - 90)) * Real.pi / 180 = Real.pi / 2 by ring, Real.cos_pi_div_two]; norm_num

/-! ## field rotation -/

namespace Fa

/-- Pairs that take part in the field rotation measurement. -/
noncomputable def chosen (tile : ℝ × ℝ) (sky fp : List (ℝ × ℝ)) : List ((ℝ × ℝ) × (ℝ × ℝ)) :=
  ((sky.zip fp).filter fun q => decide (100 < q.2.1 ^ 2 + q.2.2 ^ 2)).map fun q =>
    (hadec2xy (-q.1.1, q.1.2) (-tile.1, tile.2), q.2)

theorem turn_sq (d : ℝ) (p : ℝ × ℝ) : (turn d p).1 ^ 2 + (turn d p).2 ^ 2 = p.1 ^ 2 + p.2 ^ 2 := by
  unfold turn
  simp only
  linear_combination (p.1 ^ 2 + p.2 ^ 2) * Real.sin_sq_add_cos_sq (d * (Real.pi / 180))

theorem chosen_turn (tile : ℝ × ℝ) (sky fp : List (ℝ × ℝ)) (d : ℝ) :
    chosen tile sky (fp.map (turn d)) = (chosen tile sky fp).map fun q => (q.1, turn d q.2) := by
  unfold chosen
  rw [List.zip_map_right, List.filter_map, List.map_map, List.map_map]
  congr 1
  refine List.filter_congr fun q _ => ?_
  have e := turn_sq d q.2
  show decide (100 < (turn d q.2).1 ^ 2 + (turn d q.2).2 ^ 2) = _
  rw [decide_eq_decide, e]

/-- `r` is `s` turned by the angle `a` (radians) and stretched. -/
def Turned (a : ℝ) (s r : ℝ × ℝ) : Prop :=
  ∃ k : ℝ, 0 < k ∧ r = (k * (Real.cos a * s.1 - Real.sin a * s.2), k * (Real.sin a * s.1 + Real.cos a * s.2))

theorem turned_turn {a : ℝ} {s r : ℝ × ℝ} (d : ℝ) (h : Turned a s r) : Turned (a + d * (Real.pi / 180)) s (turn d r) := by
  obtain ⟨k, hk, rfl⟩ := h
  refine ⟨k, hk, ?_⟩
  rw [Real.cos_add, Real.sin_add]
  unfold turn
  ext <;> simp only <;> ring

theorem measure_eq (tile : ℝ × ℝ) (sky fp : List (ℝ × ℝ)) (th : (ℝ × ℝ) × (ℝ × ℝ) → ℝ)
    (h : ∀ q ∈ chosen tile sky fp, Turned (th q) q.1 q.2) (hne : chosen tile sky fp ≠ []) :
    measureFieldrot tile sky fp =
      .ok (degrees (mean ((chosen tile sky fp).map fun q => Real.sin (th q)))) := by
  unfold measureFieldrot
  simp only
  rw [show (10 : ℝ) ^ 2 = 100 by norm_num]
  have e : (((sky.zip fp).filter fun q => decide (100 < q.2.1 ^ 2 + q.2.2 ^ 2)).mapM fun q =>
      rotTerm (-tile.1, tile.2) ((-q.1.1, q.1.2), q.2)) =
      .ok ((chosen tile sky fp).map fun q => Real.sin (th q)) := by
    rw [mapM_ok (g := fun q : (ℝ × ℝ) × (ℝ × ℝ) => Real.sin (th (hadec2xy (-q.1.1, q.1.2) (-tile.1, tile.2), q.2)))]
    · unfold chosen; rw [List.map_map]; rfl
    · intro q hq
      have hm : (hadec2xy (-q.1.1, q.1.2) (-tile.1, tile.2), q.2) ∈ chosen tile sky fp :=
        List.mem_map.2 ⟨q, hq, rfl⟩
      have hbig : 100 < q.2.1 ^ 2 + q.2.2 ^ 2 := by simpa using (List.mem_filter.1 hq).2
      obtain ⟨k, hk, hr⟩ := h _ hm
      unfold rotTerm
      simp only at hr ⊢
      generalize hadec2xy (-q.1.1, q.1.2) (-tile.1, tile.2) = s at *
      generalize hth : th (s, q.2) = a at *
      rw [hr] at hbig ⊢
      simp only at hbig ⊢
      have hcs := Real.sin_sq_add_cos_sq a
      have h1 : (k * (Real.cos a * s.1 - Real.sin a * s.2)) ^ 2 + (k * (Real.sin a * s.1 + Real.cos a * s.2)) ^ 2 =
          k ^ 2 * (s.1 ^ 2 + s.2 ^ 2) := by
        linear_combination k ^ 2 * (s.1 ^ 2 + s.2 ^ 2) * hcs
      rw [h1] at hbig ⊢
      have hs : 0 < s.1 ^ 2 + s.2 ^ 2 := by
        by_contra hcon
        have : s.1 ^ 2 + s.2 ^ 2 = 0 := le_antisymm (not_lt.1 hcon) (by positivity)
        rw [this, mul_zero] at hbig
        norm_num at hbig
      have h2 : Real.sqrt (k ^ 2 * (s.1 ^ 2 + s.2 ^ 2) * (s.1 ^ 2 + s.2 ^ 2)) = k * (s.1 ^ 2 + s.2 ^ 2) := by
        rw [show k ^ 2 * (s.1 ^ 2 + s.2 ^ 2) * (s.1 ^ 2 + s.2 ^ 2) = (k * (s.1 ^ 2 + s.2 ^ 2)) ^ 2 by ring,
          Real.sqrt_sq (by positivity)]
      rw [h2, if_neg (by positivity)]
      congr 1
      rw [div_eq_iff (by positivity)]
      ring
  rw [e]
  simp only [bind, Except.bind, List.map_eq_nil_iff, hne, if_false, pure, Except.pure]

theorem rotateTo_eq (tile : ℝ × ℝ) (sky tmp : List (ℝ × ℝ)) (f : ℝ) :
    rotateTo tile sky tmp f = (do let m ← measureFieldrot tile sky tmp; return tmp.map (turn (f - m))) := by
  unfold rotateTo
  simp only [turn_eq]

theorem mean_close (l : List ((ℝ × ℝ) × (ℝ × ℝ))) (hne : l ≠ []) (f g : (ℝ × ℝ) × (ℝ × ℝ) → ℝ) (B : ℝ)
    (h : ∀ q ∈ l, |f q - g q| ≤ B) : |mean (l.map f) - mean (l.map g)| ≤ B := by
  unfold mean
  rw [List.length_map, List.length_map]
  have hl : (0:ℝ) < l.length := by exact_mod_cast List.length_pos_iff.2 hne
  rw [← sub_div, abs_div, abs_of_pos hl, div_le_iff₀ hl]
  clear hne hl
  induction l with
  | nil => simp
  | cons a l ih =>
    have h1 := h a (by simp)
    have h2 := ih fun q hq => h q (by simp [hq])
    simp only [List.map_cons, List.sum_cons, List.length_cons]
    push_cast
    calc |f a + (l.map f).sum - (g a + (l.map g).sum)| = |(f a - g a) + ((l.map f).sum - (l.map g).sum)| := by
          congr 1; ring
      _ ≤ |f a - g a| + |(l.map f).sum - (l.map g).sum| := abs_add_le _ _
      _ ≤ B * (l.length + 1) := by linarith

theorem mean_add (l : List ((ℝ × ℝ) × (ℝ × ℝ))) (hne : l ≠ []) (f : (ℝ × ℝ) × (ℝ × ℝ) → ℝ) (c : ℝ) :
    mean (l.map fun q => f q + c) = mean (l.map f) + c := by
  have hl : (0:ℝ) < l.length := by exact_mod_cast List.length_pos_iff.2 hne
  have : (l.map fun q => f q + c).sum = (l.map f).sum + c * l.length := by
    clear hne hl
    induction l with
    | nil => simp
    | cons a l ih => simp only [List.map_cons, List.sum_cons, ih, List.length_cons]; push_cast; ring
  unfold mean
  rw [List.length_map, List.length_map, this]
  field_simp

theorem sin_close (x : ℝ) : |x - Real.sin x| ≤ |x| ^ 3 / 6 := by
  have key : ∀ y : ℝ, 0 ≤ y → |y - Real.sin y| ≤ y ^ 3 / 6 := by
    intro y hy
    rw [abs_of_nonneg (by linarith [Real.sin_le hy])]
    have := Real.sin_ge_sub_cube hy
    linarith
  rcases le_total 0 x with h | h
  · rw [abs_of_nonneg h]; exact key x h
  · have := key (-x) (by linarith)
    rw [Real.sin_neg] at this
    rw [abs_of_nonpos h, ← abs_neg]
    rw [show -(x - Real.sin x) = -x - -Real.sin x by ring]
    exact this

end Fa

/-- C57: the requested field rotation enters only as a final rotation of all points about the
centre: asking for `f + δ` instead of `f` turns all results by `δ` (so radii and mutual
distances do not depend on it), and fails in the same cases with the same error. -/
theorem C57_fieldrot (t : RayTraceFit) (pm : Option DM2PM) (hc : Bool) (ra dec : List ℝ) (tile : ℝ × ℝ)
    (mjd ha f δ : ℝ) (adc1 adc2 : Option ℝ) :
    radec2xyCs5 t pm hc ra dec tile mjd ha (f + δ) adc1 adc2 =
      (do let q ← radec2xyCs5 t pm hc ra dec tile mjd ha f adc1 adc2; return q.map (turn δ)) := by
  unfold radec2xyCs5
  have hr : ∀ sky tmp, rotateTo tile sky tmp (f + δ) =
      (do let q ← rotateTo tile sky tmp f; return q.map (turn δ)) := by
    intro sky tmp
    rw [rotateTo_eq, rotateTo_eq]
    cases measureFieldrot tile sky tmp with
    | error e => rfl
    | ok m =>
      simp only [bind, Except.bind, pure, Except.pure, List.map_map]
      congr 1
      refine List.map_congr_left fun p _ => ?_
      simp only [Function.comp]
      rw [← turn_add]
      congr 1; ring
  simp only [hr]
  split_ifs
  · rfl
  · cases pm <;> simp only [pure_bind, bind_assoc]

/-- C57: the points are turned so that their mean position angle relative to the sky is the
requested field rotation, up to the third power of the angles before the turn: `th q` is the
angle (radians) between the sky offset of a target from the tile centre and its point in the
focal plane, at most `A` in size; then all points are turned by one angle `d`, and the mean of
the angles afterwards differs from the request by at most `A³/6`; the rotation that the code
itself measures afterwards (mean of the sines) is close to the request as well. -/
theorem C57_realised (tile : ℝ × ℝ) (sky tmp : List (ℝ × ℝ)) (f : ℝ) (th : (ℝ × ℝ) × (ℝ × ℝ) → ℝ) (A : ℝ)
    (h : ∀ q ∈ chosen tile sky tmp, Turned (th q) q.1 q.2 ∧ |th q| ≤ A) (hne : chosen tile sky tmp ≠ []) :
    ∃ d m : ℝ, rotateTo tile sky tmp f = .ok (tmp.map (turn d)) ∧
      |mean ((chosen tile sky tmp).map fun q => th q + d * (Real.pi / 180)) - f * (Real.pi / 180)| ≤ A ^ 3 / 6 ∧
      measureFieldrot tile sky (tmp.map (turn d)) = .ok m ∧
      |m * (Real.pi / 180) - f * (Real.pi / 180)| ≤ (A ^ 3 + (2 * A + |f * (Real.pi / 180)|) ^ 3) / 6 := by
  have hm := measure_eq tile sky tmp th (fun q hq => (h q hq).1) hne
  set l := chosen tile sky tmp with hl
  set M := mean (l.map fun q => Real.sin (th q)) with hM
  have hpi := Real.pi_pos
  have hdeg : degrees M * (Real.pi / 180) = M := by unfold degrees; field_simp
  have hA : 0 ≤ A := by
    obtain ⟨q, hq⟩ := List.exists_mem_of_ne_nil _ hne
    exact (abs_nonneg _).trans (h q hq).2
  have hd : (f - degrees M) * (Real.pi / 180) = f * (Real.pi / 180) - M := by rw [sub_mul, hdeg]
  have h1 : |mean (l.map th) - M| ≤ A ^ 3 / 6 := by
    refine mean_close l hne _ _ _ fun q hq => (sin_close _).trans ?_
    have := pow_le_pow_left₀ (abs_nonneg _) (h q hq).2 3
    linarith
  have hMA : |M| ≤ A := by
    have h0 := mean_close l hne (fun q => Real.sin (th q)) (fun _ => 0) A (fun q hq => by
      rw [sub_zero]
      exact (Real.abs_sin_le_abs).trans (h q hq).2)
    have hz : mean (l.map fun _ : (ℝ × ℝ) × (ℝ × ℝ) => (0:ℝ)) = 0 := by unfold mean; simp
    rw [hz, sub_zero] at h0
    exact h0
  -- the angles after the turn
  have hm' : measureFieldrot tile sky (tmp.map (turn (f - degrees M))) =
      .ok (degrees (mean (l.map fun q => Real.sin (th q + (f * (Real.pi / 180) - M))))) := by
    have hc := chosen_turn tile sky tmp (f - degrees M)
    have hinj : ∀ q : (ℝ × ℝ) × (ℝ × ℝ), (q.1, turn (-(f - degrees M)) (turn (f - degrees M) q.2)) = q := by
      intro q; rw [turn_undo']
    rw [measure_eq tile sky (tmp.map (turn (f - degrees M)))
      (fun r => th (r.1, turn (-(f - degrees M)) r.2) + (f - degrees M) * (Real.pi / 180))]
    · rw [hc, List.map_map, ← hl]
      congr 4
      funext q
      simp only [Function.comp, hinj, hd]
    · intro r hr
      rw [hc] at hr
      obtain ⟨q, hq, rfl⟩ := List.mem_map.1 hr
      simp only [hinj]
      exact turned_turn _ (h q hq).1
    · rw [hc]; simpa using hne
  refine ⟨f - degrees M, _, ?_, ?_, hm', ?_⟩
  · rw [rotateTo_eq, hm]; rfl
  · rw [hd, mean_add l hne]
    rw [show mean (l.map th) + (f * (Real.pi / 180) - M) - f * (Real.pi / 180) = mean (l.map th) - M by ring]
    exact h1
  · have hdeg' : ∀ x, degrees x * (Real.pi / 180) = x := fun x => by unfold degrees; field_simp
    rw [hdeg']
    set D := f * (Real.pi / 180) with hD
    have h2 : |mean (l.map fun q => th q + (D - M)) - mean (l.map fun q => Real.sin (th q + (D - M)))| ≤
        (2 * A + |D|) ^ 3 / 6 := by
      refine mean_close l hne _ _ _ fun q hq => (sin_close _).trans ?_
      have h3 : |th q + (D - M)| ≤ 2 * A + |D| := by
        have := (h q hq).2
        calc |th q + (D - M)| ≤ |th q| + |D - M| := abs_add_le _ _
          _ ≤ |th q| + (|D| + |M|) := by
            have := abs_sub D M
            linarith
          _ ≤ _ := by linarith
      have := pow_le_pow_left₀ (abs_nonneg _) h3 3
      linarith
    rw [mean_add l hne] at h2
    rw [abs_le] at *
    constructor <;> linarith [h1.1, h1.2, h2.1, h2.2]

/-- Two targets one and two degrees north of the tile centre, seen 100 and 200 mm from the
centre in exactly the direction they have on the sky, meet the hypotheses with `A = 0`. -/
example : ∃ (tile : ℝ × ℝ) (sky tmp : List (ℝ × ℝ)) (th : (ℝ × ℝ) × (ℝ × ℝ) → ℝ) (A : ℝ),
    (∀ q ∈ chosen tile sky tmp, Turned (th q) q.1 q.2 ∧ |th q| ≤ A) ∧ (chosen tile sky tmp).length = 2 := by
  have hx : ∀ d : ℝ, hadec2xy (-0, d) (-0, 0) = (0, sind d) := by
    intro d
    unfold hadec2xy getXYZ M3.app dot
    simp only [neg_zero, Verif.Lemmas.Sky.cosd_zero, Verif.Lemmas.Sky.sind_zero]
    ext <;> simp
  have hp := Real.pi_pos
  have h1 : 0 < sind 1 := Verif.Lemmas.Refraction.sind_pos (by norm_num) (by norm_num)
  have h2 : 0 < sind 2 := Verif.Lemmas.Refraction.sind_pos (by norm_num) (by norm_num)
  refine ⟨(0, 0), [(0, 1), (0, 2)], [(0, 100), (0, 200)], fun _ => 0, 0, ?_, ?_⟩
  · intro q hq
    refine ⟨?_, by simp⟩
    simp only [chosen, List.zip_cons_cons, List.zip_nil_right, List.mem_map, List.mem_filter, List.mem_cons,
      List.not_mem_nil, or_false] at hq
    obtain ⟨r, ⟨rfl | rfl, -⟩, rfl⟩ := hq
    · rw [hx]; refine ⟨100 / sind 1, by positivity, ?_⟩
      simp only [Real.cos_zero, Real.sin_zero]
      ext
      · simp
      · simp only; field_simp; simp
    · rw [hx]; refine ⟨200 / sind 2, by positivity, ?_⟩
      simp only [Real.cos_zero, Real.sin_zero]
      ext
      · simp
      · simp only; field_simp; simp
  · simp only [chosen, List.length_map]
    rw [List.filter_eq_self.2]
    · rfl
    · intro q hq
      simp only [List.zip_cons_cons, List.zip_nil_right, List.mem_cons, List.not_mem_nil, or_false] at hq
      rcases hq with rfl | rfl <;> norm_num

/-! ## there and back -/

/-- `C57_steps` in terms of the model's environment. -/
theorem steps_env (t : RayTraceFit) (pm : Option DM2PM) (hc : Bool) (a b : List ℝ) (hab : a.length = b.length)
    (tile adc tel : ℝ × ℝ) (mjd ha f : ℝ) (adc1 adc2 : Option ℝ)
    (hadc : adcAngles ha tile.2 adc1 adc2 = .ok adc) (htel : (Env.mk t hc mjd (ha + tile.1)).tune adc tile = .ok tel) :
    let e := Env.mk t hc mjd (ha + tile.1)
    radec2xyCs5 t pm hc a b tile mjd ha f adc1 adc2 = (do
      let raw ← e.sky2fp adc tel (a.zip b)
      let raw ← (match pm with | some m => m.dm2pm raw | none => pure raw)
      let m ← measureFieldrot tile (a.zip b) raw
      return raw.map (turn (f - m))) ∧
    cs5Xy2radec t pm hc a b tile mjd ha f adc1 adc2 = (do
      let fp ← (match pm with | some m => m.pm2dm (a.zip b) | none => pure (a.zip b))
      let tmp ← e.fp2sky adc tel fp
      let m ← measureFieldrot tile tmp fp
      e.fp2sky adc tel (fp.map (turn (m - f)))) := by
  intro e
  have h1 : ∀ m : ℝ, -(f - m) = m - f := fun m => by ring
  constructor
  · unfold radec2xyCs5
    simp only [hab, ne_eq, not_true_eq_false, if_false, hadc, htel, bind, Except.bind, rotateTo_eq]
    cases pm <;> rfl
  · unfold cs5Xy2radec
    simp only [hab, ne_eq, not_true_eq_false, if_false, hadc, htel, bind, Except.bind, turn_eq', h1]
    cases pm <;> rfl

/-- C57: what the two routines do in terms of one telescope pointing, the same for both:
forwards, sky to focal plane, optional change to platemaker coordinates, rotation by the
requested minus the measured field rotation; backwards, the change of coordinates first, then
the rotation by the measured (on the intermediate sky positions) minus the requested field
rotation, then focal plane to sky. -/
theorem C57_steps (t : RayTraceFit) (pm : Option DM2PM) (hc : Bool) (a b : List ℝ) (hab : a.length = b.length)
    (tile adc tel : ℝ × ℝ) (mjd ha f : ℝ) (adc1 adc2 : Option ℝ)
    (hadc : adcAngles ha tile.2 adc1 adc2 = .ok adc) (htel : (Env.mk t hc mjd (ha + tile.1)).tune adc tile = .ok tel) :
    let sw : Switches := { precession := true, aberration := true, polarMisalignment := true, hardcoded := hc }
    let toSky : List (ℝ × ℝ) → Except PyErr (List (ℝ × ℝ)) := fun fp => do
      let tan ← t.fp2tan fp adc.1 adc.2
      return tan.map fun q => tan2radec sw q tel mjd (ha + tile.1) 0
    radec2xyCs5 t pm hc a b tile mjd ha f adc1 adc2 = (do
      let raw ← t.tan2fp ((a.zip b).map fun p => radec2tan sw p tel mjd (ha + tile.1) 0) adc.1 adc.2
      let raw ← (match pm with | some m => m.dm2pm raw | none => pure raw)
      let m ← measureFieldrot tile (a.zip b) raw
      return raw.map (turn (f - m))) ∧
    cs5Xy2radec t pm hc a b tile mjd ha f adc1 adc2 = (do
      let fp ← (match pm with | some m => m.pm2dm (a.zip b) | none => pure (a.zip b))
      let tmp ← toSky fp
      let m ← measureFieldrot tile tmp fp
      toSky (fp.map (turn (m - f)))) := by
  intro sw toSky
  exact steps_env t pm hc a b hab tile adc tel mjd ha f adc1 adc2 hadc htel

/-- C57: without the platemaker transformation, going to the focal plane and back (all
intermediate errors included) returns the sky position of the focal plane points before the
field rotation, turned by the difference of the two measurements of the field rotation.  So it
is the inverse, as far as the optics are, exactly when the two measurements agree. -/
theorem C57_round_trip (t : RayTraceFit) (hc : Bool) (ra dec : List ℝ) (hl : ra.length = dec.length)
    (tile : ℝ × ℝ) (mjd ha f : ℝ) (adc1 adc2 : Option ℝ) :
    let e := Env.mk t hc mjd (ha + tile.1)
    (do let out ← radec2xyCs5 t none hc ra dec tile mjd ha f adc1 adc2
        cs5Xy2radec t none hc (out.map Prod.fst) (out.map Prod.snd) tile mjd ha f adc1 adc2) = (do
      let adc ← adcAngles ha tile.2 adc1 adc2
      let tel ← e.tune adc tile
      let raw ← e.sky2fp adc tel (ra.zip dec)
      let m ← measureFieldrot tile (ra.zip dec) raw
      let tmp ← e.fp2sky adc tel (raw.map (turn (f - m)))
      let m' ← measureFieldrot tile tmp (raw.map (turn (f - m)))
      e.fp2sky adc tel (raw.map (turn (m' - m)))) := by
  intro e
  have hz : ∀ l : List (ℝ × ℝ), (l.map Prod.fst).zip (l.map Prod.snd) = l := by
    intro l; induction l with
    | nil => rfl
    | cons q l ih => simp [ih]
  cases hadc : adcAngles ha tile.2 adc1 adc2 with
  | error x =>
    unfold radec2xyCs5
    simp only [hl, ne_eq, not_true_eq_false, if_false, hadc, bind, Except.bind]
  | ok adc =>
  cases htel : e.tune adc tile with
  | error x =>
    unfold radec2xyCs5
    simp only [hl, ne_eq, not_true_eq_false, if_false, hadc, bind, Except.bind]
    rw [htel]
  | ok tel =>
  rw [(steps_env t none hc ra dec hl tile adc tel mjd ha f adc1 adc2 hadc htel).1]
  simp only [bind, Except.bind, pure, Except.pure]
  rw [htel]
  simp only
  cases e.sky2fp adc tel (ra.zip dec) with
  | error x => rfl
  | ok raw =>
  simp only
  cases measureFieldrot tile (ra.zip dec) raw with
  | error x => rfl
  | ok m =>
  simp only
  rw [(steps_env t none hc _ _ (by simp) tile adc tel mjd ha f adc1 adc2 hadc htel).2]
  simp only [hz, bind, Except.bind, pure, Except.pure]
  cases e.fp2sky adc tel (raw.map (turn (f - m))) with
  | error x => rfl
  | ok tmp =>
  simp only
  cases measureFieldrot tile tmp (raw.map (turn (f - m))) with
  | error x => rfl
  | ok m' =>
  simp only
  rw [List.map_map]
  congr 1
  refine List.map_congr_left fun p _ => ?_
  simp only [Function.comp]
  rw [← turn_add]
  congr 1; ring

/-- A change of coordinates by a shift along X: `dm2pm` adds `420 c`, `pm2dm` subtracts it. -/
noncomputable def shiftPm (c : ℝ) : DM2PM := ⟨[0], [c], [-c]⟩

theorem shift_eval (c : ℝ) (p : ℝ × ℝ) : zbShift [0] [c] p = .ok (p.1 + 420 * c, p.2) := by
  have h1 : ∀ x y, Verif.Model.ZhaoBurge.getZ 1 x y = 1 := by
    intro x y; rw [Verif.Lemmas.ZhaoBurge.getZ_1]; simp [Verif.Lemmas.ZhaoBurge.ev, Verif.Lemmas.ZhaoBurge.Zp]
  unfold zbShift Verif.Model.ZhaoBurge.getZhaoBurgeXY
  simp only [List.zip_cons_cons, List.zip_nil_right, List.foldlM_cons, List.foldlM_nil,
    Verif.Model.ZhaoBurge.getZhaoBurgeTerm, bind, Except.bind, pure, Except.pure, h1]
  congr 2
  · ring
  · ring

/-- C57 (finding): with the platemaker transformation the way back is not the inverse of the
way there, even when `pm2dm` is the exact inverse of `dm2pm`: the change of coordinates is
undone before the rotation instead of after it.  For a shift along X, two different points
that are turned by `δ` on the way there come back to themselves, whatever the angle `δ'` of
the rotation on the way back, only if `δ` is a whole number of turns. -/
theorem C57_platemaker_order (c : ℝ) (hc : c ≠ 0) :
    (∀ pts : List (ℝ × ℝ), (do let q ← (shiftPm c).dm2pm pts; (shiftPm c).pm2dm q) = .ok pts) ∧
    ∀ (p q : ℝ × ℝ) (δ δ' : ℝ), p ≠ q →
      (do let l ← (shiftPm c).dm2pm [p, q]
          let l ← (shiftPm c).pm2dm (l.map (turn δ))
          return l.map (turn δ')) = (.ok [p, q] : Except PyErr (List (ℝ × ℝ))) → SameAngle δ 0 := by
  have hf : ∀ pts : List (ℝ × ℝ), (shiftPm c).dm2pm pts = .ok (pts.map fun p => (p.1 + 420 * c, p.2)) :=
    fun pts => mapM_ok fun p _ => shift_eval c p
  have hb : ∀ pts : List (ℝ × ℝ), (shiftPm c).pm2dm pts = .ok (pts.map fun p => (p.1 + 420 * -c, p.2)) :=
    fun pts => mapM_ok fun p _ => shift_eval (-c) p
  refine ⟨fun pts => ?_, fun p q δ δ' hpq h => ?_⟩
  · simp only [hf, hb, bind, Except.bind, List.map_map]
    congr 1
    conv_rhs => rw [← List.map_id pts]
    refine List.map_congr_left fun p _ => ?_
    simp only [Function.comp, id]
    ext <;> simp only <;> ring
  · simp only [hf, hb, bind, Except.bind, pure, Except.pure, List.map_map, List.map_cons, List.map_nil,
      Function.comp] at h
    injection h with h
    simp only [List.cons.injEq, and_true] at h
    obtain ⟨h1, h2⟩ := h
    have e : ∀ r : ℝ × ℝ, turn δ' ((turn δ (r.1 + 420 * c, r.2)).1 + 420 * -c, (turn δ (r.1 + 420 * c, r.2)).2) =
        ((turn (δ' + δ) r).1 + (turn (δ' + δ) (420 * c, 0)).1 - (turn δ' (420 * c, 0)).1,
         (turn (δ' + δ) r).2 + (turn (δ' + δ) (420 * c, 0)).2 - (turn δ' (420 * c, 0)).2) := by
      intro r
      rw [turn_add, turn_add]
      unfold turn
      ext <;> simp only <;> ring
    rw [e] at h1 h2
    -- the difference of the two points is not turned
    have hC : ∀ (α : ℝ) (v : ℝ × ℝ), v ≠ 0 → turn α v = v → SameAngle α 0 := by
      intro α v hv ht
      have hu := Verif.Lemmas.Xy2tp.u_same (a := α) (b := 0)
      rw [← hu]
      have hv' : Verif.Lemmas.Xy2tp.toC v ≠ 0 := fun h0 => hv (Verif.Lemmas.Xy2tp.toC_inj (by rw [h0]; rfl))
      have h3 : Verif.Lemmas.Xy2tp.u α * Verif.Lemmas.Xy2tp.toC v = Verif.Lemmas.Xy2tp.toC (turn α v) := by
        apply Complex.ext
        · rw [Complex.mul_re, Verif.Lemmas.Xy2tp.re_u, Verif.Lemmas.Xy2tp.im_u]; rfl
        · rw [Complex.mul_im, Verif.Lemmas.Xy2tp.re_u, Verif.Lemmas.Xy2tp.im_u]
          show Real.cos (radians α) * v.2 + Real.sin (radians α) * v.1 = _
          rw [add_comm]; rfl
      have h4 : Verif.Lemmas.Xy2tp.u α * Verif.Lemmas.Xy2tp.toC v = 1 * Verif.Lemmas.Xy2tp.toC v := by
        rw [h3, ht, one_mul]
      have h5 := mul_right_cancel₀ hv' h4
      rw [h5]
      have := Verif.Lemmas.Xy2tp.u_turn 0
      simpa using this.symm
    have hd : turn (δ' + δ) (p - q) = p - q := by
      have h11 := congrArg Prod.fst h1
      have h12 := congrArg Prod.snd h1
      have h21 := congrArg Prod.fst h2
      have h22 := congrArg Prod.snd h2
      have hl : turn (δ' + δ) (p - q) = turn (δ' + δ) p - turn (δ' + δ) q := by
        unfold turn
        ext
        · simp only [Prod.fst_sub, Prod.snd_sub]; ring
        · simp only [Prod.fst_sub, Prod.snd_sub]; ring
      rw [hl]
      ext
      · simp only [Prod.fst_sub]; simp only at h11 h21; linarith
      · simp only [Prod.snd_sub]; simp only at h12 h22; linarith
    have hs := hC _ _ (sub_ne_zero.2 hpq) hd
    have ht : turn (δ' + δ) = turn 0 := turn_same hs
    rw [ht] at h1
    simp only [turn_zero] at h1
    have h11 := congrArg Prod.fst h1
    have h12 := congrArg Prod.snd h1
    have h6 : turn δ' (420 * c, 0) = (420 * c, 0) := by
      ext
      · simp only at h11 ⊢; linarith
      · simp only at h12 ⊢; linarith
    have h7 := hC δ' (420 * c, 0) (by
      intro h0
      have := congrArg Prod.fst h0
      simp only [Prod.fst_zero] at this
      exact hc (by linarith)) h6
    obtain ⟨k, hk⟩ := hs
    obtain ⟨n, hn⟩ := h7
    exact ⟨k - n, by push_cast; linarith⟩

/-! ## pointing -/

/-- C57: a step of the pointing adjustment moves the telescope by the solution of the linear
system made of the focal plane position `f0` of the tile centre and its numerical derivatives:
first order in the step, the tile centre moves to the origin.  It fails with `LinAlgError`
exactly when the derivatives are linearly dependent. -/
theorem C57_pointing_step (e : Env) (adc tile tel f0 fr fd : ℝ × ℝ)
    (h0 : e.sky2fp1 adc tel tile = .ok f0)
    (hr : e.sky2fp1 adc tel (tile.1 + 1 / 3600, tile.2) = .ok fr)
    (hd : e.sky2fp1 adc tel (tile.1, tile.2 + 1 / 3600) = .ok fd) :
    let Jr := (3600 * (fr.1 - f0.1), 3600 * (fr.2 - f0.2))
    let Jd := (3600 * (fd.1 - f0.1), 3600 * (fd.2 - f0.2))
    (Jr.1 * Jd.2 - Jr.2 * Jd.1 = 0 → e.tuneStep adc tile tel = .error .linAlgError) ∧
    (Jr.1 * Jd.2 - Jr.2 * Jd.1 ≠ 0 → ∃ tel', e.tuneStep adc tile tel = .ok tel' ∧
      ∀ v : ℝ × ℝ, v = tel' ↔
        Jr.1 * (v.1 - tel.1) + Jd.1 * (v.2 - tel.2) = f0.1 ∧ Jr.2 * (v.1 - tel.1) + Jd.2 * (v.2 - tel.2) = f0.2) := by
  intro Jr Jd
  have hJ : ∀ a b : ℝ, (a - b) / (1 / 3600) = 3600 * (a - b) := fun a b => by ring
  have hdet : (!![Jr.1, Jd.1; Jr.2, Jd.2] : Matrix (Fin 2) (Fin 2) ℝ).det = Jr.1 * Jd.2 - Jr.2 * Jd.1 := by
    rw [Matrix.det_fin_two_of]; ring
  have hstep : e.tuneStep adc tile tel = (do
      let Jinv ← linInv !![Jr.1, Jd.1; Jr.2, Jd.2]
      return (tel.1 + Jinv.mulVec ![f0.1, f0.2] 0, tel.2 + Jinv.mulVec ![f0.1, f0.2] 1)) := by
    unfold Env.tuneStep
    simp only [h0, hr, hd, bind, Except.bind, hJ]
    rfl
  constructor
  · intro h
    rw [hstep]; unfold linInv; rw [if_pos (by rw [hdet]; exact h)]; rfl
  · intro h
    refine ⟨_, by rw [hstep]; unfold linInv; rw [if_neg (by rw [hdet]; exact h)]; rfl, fun v => ?_⟩
    rw [Matrix.inv_def, hdet, Matrix.adjugate_fin_two_of, Ring.inverse_eq_inv']
    simp only [Matrix.mulVec, Matrix.smul_apply, Matrix.of_apply, Matrix.cons_val', Matrix.cons_val_zero,
      Matrix.cons_val_one, Pi.smul_apply, dotProduct, Fin.sum_univ_two, smul_eq_mul, Prod.ext_iff,
      Matrix.cons_val_fin_one]
    generalize hD : Jr.1 * Jd.2 - Jr.2 * Jd.1 = D at *
    constructor
    · rintro ⟨e1, e2⟩
      rw [e1, e2]
      constructor <;> (field_simp; rw [← hD]; ring)
    · rintro ⟨e1, e2⟩
      constructor
      · rw [← e1, ← e2]; field_simp; rw [← hD]; ring
      · rw [← e1, ← e2]; field_simp; rw [← hD]; ring

/-- C57: if the optics map the axis to the origin for the ADC angles in use, the pointing that
both routines use is the tile centre itself, and the tile centre is at the origin. -/
theorem C57_pointing_neutral (e : Env) (adc tile tel : ℝ × ℝ)
    (hax : e.fit.tan2fp [(0, 0)] adc.1 adc.2 = .ok [(0, 0)]) (h : e.tune adc tile = .ok tel) :
    tel = tile ∧ e.sky2fp1 adc tel tile = .ok (0, 0) := by
  have h00 : e.sky2fp1 adc tile tile = .ok (0, 0) := by
    unfold Env.sky2fp1 Env.sky2fp
    simp only [List.map_cons, List.map_nil, C19_pointing_origin]
    rw [hax]; rfl
  have hone : ∀ tel', e.tuneStep adc tile tile = .ok tel' → tel' = tile := by
    intro tel' h'
    unfold Env.tuneStep at h'
    rw [h00] at h'
    obtain ⟨f0, hf0, h'⟩ := Lemmas.bind_ok h'
    obtain rfl : (0, 0) = f0 := by injection hf0
    obtain ⟨fr, -, h'⟩ := Lemmas.bind_ok h'
    obtain ⟨fd, -, h'⟩ := Lemmas.bind_ok h'
    obtain ⟨Ji, -, h'⟩ := Lemmas.bind_ok h'
    injection h' with h'
    rw [← h']
    have hz : Ji.mulVec ![((0:ℝ), (0:ℝ)).1, ((0:ℝ), (0:ℝ)).2] = 0 := by
      have : (![((0:ℝ), (0:ℝ)).1, ((0:ℝ), (0:ℝ)).2] : Fin 2 → ℝ) = 0 := by
        funext i; fin_cases i <;> rfl
      rw [this, Matrix.mulVec_zero]
    rw [hz]
    ext <;> simp
  unfold Env.tune at h
  obtain ⟨t1, h1, h2⟩ := Lemmas.bind_ok h
  rw [hone _ h1] at h2
  have := hone _ h2
  exact ⟨this, by rw [this]; exact h00⟩

/-- A fit without distortion or offsets maps the axis to the origin, for all ADC angles. -/
example (adc : ℝ × ℝ) : (RayTraceFit.mk [] fun _ => .ok ⟨1, 0, 0, 0, []⟩).tan2fp [(0, 0)] adc.1 adc.2 = .ok [(0, 0)] := by
  unfold RayTraceFit.tan2fp RayTraceFit.interpolateCoeffs
  simp [reduceTan, Verif.Model.ZhaoBurge.transform, Verif.Model.ZhaoBurge.getZhaoBurgeXY,
    Verif.Model.Fvc2fp.expandFp, bind, Except.bind, pure, Except.pure]

/-! ## flat coordinates -/

/-- C57: the flat variants: forwards, every point of the CS5 result keeps its direction and
gets the arc length for its radius; backwards, the points handed to the CS5 routine are within
5 micron of the CS5 points they came from (radii up to 431 mm). -/
theorem C57_flat (t : RayTraceFit) (pm : Option DM2PM) (hc : Bool) (a b : List ℝ) (tile : ℝ × ℝ)
    (mjd ha f : ℝ) (adc1 adc2 : Option ℝ) :
    (∃ g : ℝ × ℝ → ℝ × ℝ, (∀ p, ∃ k : ℝ, p = (radius p * Real.cos k, radius p * Real.sin k) ∧
        g p = (r2s (radius p) * Real.cos k, r2s (radius p) * Real.sin k)) ∧
      radec2xyFlat t pm hc a b tile mjd ha f adc1 adc2 =
        (do let l ← radec2xyCs5 t pm hc a b tile mjd ha f adc1 adc2; return l.map g) ∧
      ∀ pts : List (ℝ × ℝ), (∀ p ∈ pts, radius p ≤ 431) →
        ∃ back : ℝ × ℝ → ℝ × ℝ, (∀ p ∈ pts, dist2 (back p) p ≤ 5 / 1000) ∧
          flatXy2radec t pm hc (pts.map fun p => (g p).1) (pts.map fun p => (g p).2) tile mjd ha f adc1 adc2 =
            cs5Xy2radec t pm hc (pts.map fun p => (back p).1) (pts.map fun p => (back p).2) tile mjd ha f adc1 adc2) := by
  refine ⟨fun p => ptl2flat p.1 p.2, fun p => ⟨atan2 p.2 p.1, ?_, rfl⟩, rfl, fun pts hpts =>
    ⟨fun p => flat2ptl (ptl2flat p.1 p.2).1 (ptl2flat p.1 p.2).2, fun p hp => ?_, ?_⟩⟩
  · have hr : radius p = ‖Complex.mk p.1 p.2‖ := Verif.Lemmas.Trig.hypot_norm p.1 p.2
    rw [hr]
    unfold atan2
    ext
    · exact (Complex.norm_mul_cos_arg (Complex.mk p.1 p.2)).symm
    · exact (Complex.norm_mul_sin_arg (Complex.mk p.1 p.2)).symm
  · simp only
    rw [(C12_uv_flat p.1 p.2 (hpts p hp)).2]
    obtain ⟨_, _, _, _, _, _, _, _, _, _, _, h⟩ := C12_qs_round_trip p.1 p.2 (hpts p hp)
    exact h
  · unfold flatXy2radec bcast2
    rw [if_pos (by simp)]
    simp only [bind, Except.bind]
    have hz : List.zipWith (fun a b => flat2ptl a b) (pts.map fun p => (ptl2flat p.1 p.2).1)
        (pts.map fun p => (ptl2flat p.1 p.2).2) =
        pts.map fun p => flat2ptl (ptl2flat p.1 p.2).1 (ptl2flat p.1 p.2).2 := by
      clear hpts
      induction pts with
      | nil => rfl
      | cons p l ih => simp only [List.map_cons, List.zipWith_cons_cons, ih]
    rw [hz, List.map_map, List.map_map]
    rfl

end Verif.Props
