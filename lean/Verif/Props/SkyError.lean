import Verif.Lemmas.SkySensitivity
import Verif.Props.SkyRoundTrip
import Verif.Props.FieldModel

/-!
# Property C126: errors in the tangent plane carried to the sky (`transform/radec2tan.py`)
-/

namespace Verif.Props
open Verif.Py Verif.Model.Trig Verif.Model.Radec2tan Verif.Spec Verif.Lemmas.Trig Verif.Lemmas.Sky
  Verif.Lemmas.Refraction Verif.Lemmas.Radec2tan Verif.Lemmas.SkyRoundTrip Verif.Lemmas.SkySensitivity

/-- An angle in radians is larger than a chord. -/
theorem sep_of_chord {p q : ℝ × ℝ} {g x : ℝ} (h : gap (xyz p) (xyz q) ≤ g) (hg : g * 1.00001 ≤ x) (hx1 : x ≤ 0.01) :
    Real.cos x ≤ cosSep p q := by
  have hg0 := (gap_nonneg (xyz p) (xyz q)).trans h
  have hgc := gap_cosSep p q
  have hs := pow_le_pow_left₀ (gap_nonneg _ _) h 2
  have hx0 : 0 ≤ x := le_trans (by positivity) hg
  have hb := Real.cos_bound (x := x) (by rw [abs_of_nonneg hx0]; linarith [show (0.01 : ℝ) < 1 by norm_num])
  rw [abs_of_nonneg hx0] at hb
  have hb2 := (abs_le.1 hb).2
  have h4 : x ^ 4 ≤ 1e-4 * x ^ 2 := by
    have : x ^ 2 ≤ 0.01 ^ 2 := pow_le_pow_left₀ hx0 hx1 2
    have h5 := mul_le_mul_of_nonneg_right this (sq_nonneg x)
    norm_num at h5 ⊢
    linarith
  have hg2 : (g * 1.00001) ^ 2 ≤ x ^ 2 := pow_le_pow_left₀ (by positivity) hg 2
  norm_num at hg2 hb2 h4 ⊢
  nlinarith [sq_nonneg g, sq_nonneg x]

theorem cosd_low' {d z e : ℝ} (h0 : -90 ≤ d) (h1 : d ≤ 90) (hz : |z| ≤ cosd 10) (he : |sind d - z| ≤ e) (he1 : e ≤ 1.3e-3) : 0.165 ≤ cosd d := by
  have hc := cosd_nonneg h0 h1
  have hcs := sq_cosd_sind d
  have h10 := sq_cosd_sind 10
  have s10 := sind_10
  have c10 : cosd 10 ≤ 1 := Real.cos_le_one _
  have hs : |sind d| ≤ cosd 10 + 1.3e-3 := by
    have := abs_sub_abs_le_abs_sub (sind d) z
    linarith
  have hs2 := pow_le_pow_left₀ (abs_nonneg _) hs 2
  rw [sq_abs] at hs2
  have hs3 : (173 / 1000 : ℝ) ^ 2 ≤ sind 10 ^ 2 := pow_le_pow_left₀ (by norm_num) s10.le 2
  norm_num at hs2 hs3 ⊢
  nlinarith

/-- Aberration undone for a position not far from one with aberration. -/
theorem undo_far (x P : ℝ × ℝ) (mjd e : ℝ) (h0 : -90 ≤ x.2) (h1 : x.2 ≤ 90) (hd : |(applyAberration P mjd).2| ≤ 80)
    (he : gap (xyz x) (xyz (applyAberration P mjd)) ≤ e) (he1 : e ≤ 1.1e-3) :
    gap (xyz (undoAberration x mjd)) (xyz P) ≤ 1.0002 * e + 1.34e-7 := by
  have ha := norm_E (xyz_unit (apex mjd))
  have hx := norm_E (xyz_unit x)
  have hP := norm_E (xyz_unit P)
  have hq := aberration_moved x mjd
  have hr : SkyRange (applyAberration x mjd) := lonlat_range _
  have hz : |sind (applyAberration P mjd).2| ≤ cosd 10 := by
    have e80 : cosd 10 = sind 80 := by rw [show (80 : ℝ) = 90 - 10 by norm_num, sind_sub, sind_90, cosd_90]; ring
    rw [abs_le] at hd
    have m1 : ∀ d : ℝ, -80 ≤ d → d ≤ 80 → sind d ≤ sind 80 := by
      intro d hd1 hd2
      rcases le_total 0 d with h | h
      · exact sind_mono h hd2 (by norm_num)
      · have h2 := sind_mono (x := 0) (y := -d) le_rfl (by linarith) (by linarith)
        rw [sind_neg, sind_zero] at h2
        have h3 := sind_mono (x := 0) (y := 80) le_rfl (by norm_num) (by norm_num)
        rw [sind_zero] at h3
        linarith
    rw [e80, abs_le]
    have m2 := m1 (-(applyAberration P mjd).2) (by linarith [hd.2]) (by linarith [hd.1])
    rw [sind_neg] at m2
    exact ⟨by linarith, m1 _ hd.1 hd.2⟩
  have hz1 := gap_z (xyz x) (xyz (applyAberration P mjd))
  have hmove : gap (xyz x) (xyz (applyAberration x mjd)) ≤ κ + κ ^ 2 / 2 := by
    rw [gap_comm]
    unfold gap
    rw [hq]
    exact moved_near ha hx
  have hz2 := gap_z (xyz (applyAberration x mjd)) (xyz (applyAberration P mjd))
  have hz3 := gap_triangle (xyz (applyAberration x mjd)) (xyz x) (xyz (applyAberration P mjd))
  rw [gap_comm _ (xyz x)] at hz3
  have hk : κ + κ ^ 2 / 2 ≤ 9.937e-5 := by unfold κ; norm_num
  have c1 : 0.165 ≤ cosd x.2 := cosd_low' h0 h1 hz (hz1.trans he) (he1.trans (by norm_num))
  have c2 : 0.165 ≤ cosd (applyAberration x mjd).2 :=
    cosd_low' hr.2.2.1 hr.2.2.2 hz (hz2.trans (hz3.trans (add_le_add (hmove.trans hk) (he.trans he1)))) (by norm_num)
  have hm := mirror x.1 x.2 (applyAberration x mjd).1 (applyAberration x mjd).2 0.165 ((9.937e-5) ^ 2) (by norm_num) c1 c2
    (pow_le_pow_left₀ (gap_nonneg _ _) (hmove.trans hk) 2)
  have hm' : ‖E (xyz (undoAberration x mjd)) - ((2 : ℝ) • E (xyz x) - E (xyz (applyAberration x mjd)))‖ ≤ 1.04e-7 := by
    apply le_of_sq_le_sq _ (by norm_num)
    refine hm.trans (by norm_num)
  have hu := undone ha hx hP
  rw [← hq] at hu
  have hg : ‖E (xyz x) - moved (E (xyz (apex mjd))) (E (xyz P))‖ ≤ e := by
    rw [← aberration_moved]
    exact he
  have t := norm_sub_le_norm_sub_add_norm_sub (E (xyz (undoAberration x mjd))) ((2 : ℝ) • E (xyz x) - E (xyz (applyAberration x mjd))) (E (xyz P))
  have hn0 := norm_nonneg (E (xyz x) - moved (E (xyz (apex mjd))) (E (xyz P)))
  generalize ‖E (xyz x) - moved (E (xyz (apex mjd))) (E (xyz P))‖ = n at *
  have hnum : 2 * κ * (κ + κ ^ 2 / 2) + κ ^ 2 ≤ 3e-8 := by unfold κ; norm_num
  have hnum2 : 2 * κ * n ≤ 0.0002 * n := mul_le_mul_of_nonneg_right (by unfold κ; norm_num) hn0
  unfold gap
  norm_num at *
  linarith

/-- What is left on the sky by a difference of the directions at the mount. -/
theorem tail_gap (sw : Switches) (p w : ℝ × ℝ) (mjd lst e : ℝ) (hw : -90 ≤ w.2 ∧ w.2 ≤ 90)
    (hg : gap (xyz w) (xyz (mount sw lst (apparent sw mjd p))) ≤ e) (he1 : e ≤ 1.02e-3)
    (hd : sw.aberration = true → |(apparent sw mjd p).2| ≤ 80) :
    let h := if sw.polarMisalignment = true then getLONLAT ((polmisInv sw).app (getXYZ w.1 w.2)) else w
    let m := if sw.aberration = true then undoAberration (lst - h.1, h.2) mjd else (lst - h.1, h.2)
    gap (xyz (if sw.precession = true then undoPrecessionFromIcrs m mjd else m)) (xyz p) ≤ 1.0002 * (e + 2.1e-8) + 1.34e-7 := by
  have he0 := (gap_nonneg _ _).trans hg
  intro h m
  obtain ⟨k, hk⟩ : ∃ k, k = h := ⟨_, rfl⟩
  have gB : gap (xyz k) (xyz (lst - (apparent sw mjd p).1, (apparent sw mjd p).2)) ≤ e + 2.1e-8 := by
    unfold mount at hg
    dsimp only at hg
    rw [hk]
    unfold h
    split_ifs at hg ⊢ with hp
    · exact mount_back sw _ _ (xyz_unit _) (xyz_unit _) e hg (he1.trans (by norm_num))
    · exact hg.trans (by norm_num)
  have hkr : -90 ≤ k.2 ∧ k.2 ≤ 90 := by
    rw [hk]
    unfold h
    split_ifs
    · exact ⟨(lonlat_range _).2.2.1, (lonlat_range _).2.2.2⟩
    · exact hw
  have gC : gap (xyz (lst - k.1, k.2)) (xyz (apparent sw mjd p)) ≤ e + 2.1e-8 := by
    have := gap_lst lst k (lst - (apparent sw mjd p).1, (apparent sw mjd p).2)
    simp only [sub_sub_cancel] at this
    rw [this]
    exact gB
  obtain ⟨P, hP⟩ : ∃ P, P = if sw.precession = true then applyPrecessionFromIcrs p mjd else p := ⟨_, rfl⟩
  have hap : apparent sw mjd p = if sw.aberration = true then applyAberration P mjd else P := by rw [hP]; rfl
  have gD : gap (xyz m) (xyz P) ≤ 1.0002 * (e + 2.1e-8) + 1.34e-7 := by
    rw [hap] at gC hd
    unfold m
    rw [← hk]
    split_ifs at gC hd ⊢ with hb
    · exact undo_far _ P mjd _ hkr.1 hkr.2 (hd hb) gC (by norm_num at he1 ⊢; linarith)
    · refine gC.trans ?_
      norm_num
      linarith
  by_cases hpr : sw.precession = true
  · simp only [hpr, if_true] at hP ⊢
    have hinv : xyz p = xyz (undoPrecessionFromIcrs (applyPrecessionFromIcrs p mjd) mjd) := by
      unfold undoPrecessionFromIcrs applyPrecessionFromIcrs
      rw [xyz_precession_add, show (mjd - ICRS_MJD) / DAYS_PER_YEAR + (ICRS_MJD - mjd) / DAYS_PER_YEAR = 0 by ring]
      exact (xyz_precession_zero p).symm
    rw [hinv, ← hP]
    unfold undoPrecessionFromIcrs
    rw [xyz_precession, xyz_precession, gap_orth (vecX_orth _), gap_orth (vecZ_orth _), gap_orth (vecX_orth _)]
    exact gD
  · simp only [hpr, if_false, Bool.false_eq_true] at hP ⊢
    rw [← hP]
    exact gD

/-- The distance on the sky for a point of the tangent plane measured with an error. -/
theorem error_gap (sw : Switches) (p tel q : ℝ × ℝ) (mjd lst hexrot t az r ε : ℝ) (ht : hadec2altaz (mount sw lst (apparent sw mjd p)) = (t, az))
    (h1 : 11 ≤ t) (h2 : t ≤ 90)
    (hv : 0 ≤ cosSep (refract (mount sw lst (apparent sw mjd p))) (refract (mount sw lst (apparent sw mjd tel))))
    (hd : sw.aberration = true → |(apparent sw mjd p).2| ≤ 80)
    (hp : (radec2tan sw p tel mjd lst hexrot).1 ^ 2 + (radec2tan sw p tel mjd lst hexrot).2 ^ 2 ≤ 0.035 ^ 2)
    (hq : q.1 ^ 2 + q.2 ^ 2 ≤ 0.035 ^ 2) (hε : 0 ≤ ε) (hε1 : ε ≤ 1e-3)
    (he : (q.1 - (radec2tan sw p tel mjd lst hexrot).1) ^ 2 + (q.2 - (radec2tan sw p tel mjd lst hexrot).2) ^ 2 ≤ ε ^ 2)
    (hr : |undoRefraction (applyRefraction t) - t| * (Real.pi / 180) ≤ r) (hr1 : r ≤ 1e-7) :
    gap (xyz (tan2radec sw q tel mjd lst hexrot)) (xyz p) ≤ 1.0002 * (1.0077 * (1.0007 * ε) + r + 2.1e-8) + 1.34e-7 := by
  have hr0 : 0 ≤ r := le_trans (by have := Real.pi_pos; positivity) hr
  unfold radec2tan at hp he
  dsimp only at hp he
  unfold tan2radec
  dsimp only
  obtain ⟨h, hh⟩ : ∃ h, h = mount sw lst (apparent sw mjd p) := ⟨_, rfl⟩
  obtain ⟨T, hT⟩ : ∃ T, T = refract (mount sw lst (apparent sw mjd tel)) := ⟨_, rfl⟩
  rw [← hh, ← hT] at hp he hv
  rw [← hh] at ht
  rw [← hT]
  have hcs := sq_cosd_sind hexrot
  obtain ⟨X, hX⟩ : ∃ X : ℝ × ℝ, X = (cosd hexrot * q.1 + sind hexrot * q.2, -sind hexrot * q.1 + cosd hexrot * q.2) := ⟨_, rfl⟩
  rw [← hX]
  have hX2 : X.1 ^ 2 + X.2 ^ 2 ≤ 0.035 ^ 2 := by
    have e : X.1 ^ 2 + X.2 ^ 2 = q.1 ^ 2 + q.2 ^ 2 := by
      rw [hX]
      simp only
      linear_combination (q.1 ^ 2 + q.2 ^ 2) * hcs
    rw [e]
    exact hq
  obtain ⟨Y, hY⟩ : ∃ Y, Y = hadec2xy (refract h) T := ⟨_, rfl⟩
  rw [← hY] at hp he
  have hY2 : Y.1 ^ 2 + Y.2 ^ 2 ≤ 0.035 ^ 2 := by
    refine le_trans (le_of_eq ?_) hp
    linear_combination (-(Y.1 ^ 2 + Y.2 ^ 2)) * hcs
  have hXY : (X.1 - Y.1) ^ 2 + (X.2 - Y.2) ^ 2 ≤ ε ^ 2 := by
    refine le_trans (le_of_eq ?_) he
    rw [hX]
    simp only
    have e1 := sq_cosd_sind hexrot
    generalize cosd hexrot = c at *
    generalize sind hexrot = s at *
    linear_combination (q.1 ^ 2 + q.2 ^ 2 - Y.1 ^ 2 - Y.2 ^ 2) * e1
  -- the observed directions
  have hYdir : xyz (xy2hadec Y T) = xyz (refract h) := by
    rw [hY]
    exact (skyDir_iff _ _).1 (C17_inverse (refract h) T hv).1
  have hobs : gap (xyz (xy2hadec X T)) (xyz (refract h)) ≤ 1.0007 * ε := by
    rw [← hYdir, xyz_xy2hadec (hX2.trans (by norm_num)), xyz_xy2hadec (hY2.trans (by norm_num)), gap_of_dot (frameInv_dot T)]
    exact plane_gap hX2 hY2 hε hXY
  have hrf : xyz (refract h) = horizon.app (xyz (az, applyRefraction t)) := by
    unfold refract
    rw [ht, xyz_hadec]
  obtain ⟨b, hb⟩ : ∃ b, b = hadec2altaz (xy2hadec X T) := ⟨_, rfl⟩
  have hbx : xyz (b.2, b.1) = horizon.app (xyz (xy2hadec X T)) := by rw [hb]; exact xyz_altaz _
  have hba : gap (xyz (b.2, b.1)) (xyz (az, applyRefraction t)) ≤ 1.0007 * ε := by
    rw [hbx, ← horizon_self (xyz (az, applyRefraction t)), ← hrf, gap_horizon]
    exact hobs
  -- altitudes
  have ha11 : 11 ≤ applyRefraction t := by
    rw [apply_eq]
    have := d_nonneg (by linarith : 0 < t) h2
    linarith
  have ha90 : applyRefraction t ≤ 90 := apply_le_90 (by linarith) h2
  have hsz : sind 10 < sind b.1 := by
    have g1 := gap_z (xyz (b.2, b.1)) (xyz (az, applyRefraction t))
    have g2 : |sind b.1 - sind (applyRefraction t)| ≤ 1.0007 * ε := g1.trans hba
    have g3 := sind_mono (by norm_num) ha11 ha90
    have g4 := sind_11
    rw [abs_le] at g2
    have g5 := g2.1
    norm_num at g4 g5 hε1
    linarith
  have hz0 : 0 ≤ (horizon.app (xyz (xy2hadec X T))).z := by
    rw [← hbx]
    exact (le_trans (by norm_num) sind_10.le).trans hsz.le
  have hbr := alt_range hz0
  rw [← hb] at hbr
  have hb10 := sind_ge_10 hbr.1 hsz
  have hl := undo_gap_lip (z1 := b.2) (z2 := az) hb10 hbr.2 (by linarith) ha90
  -- at the mount
  rw [← hb]
  have hfin : gap (xyz (altaz2hadec (undoRefraction b.1, b.2))) (xyz h) ≤ 1.0077 * (1.0007 * ε) + r := by
    have h3 := xyz_altaz h
    rw [ht] at h3
    rw [xyz_hadec, ← horizon_self (xyz h), ← h3, gap_horizon]
    have tr := gap_triangle (xyz (b.2, undoRefraction b.1)) (xyz (az, undoRefraction (applyRefraction t))) (xyz (az, t))
    refine tr.trans (add_le_add (hl.trans (mul_le_mul_of_nonneg_left hba (by norm_num))) ?_)
    apply le_of_sq_le_sq _ hr0
    rw [gap_unit (xyz_unit _) (xyz_unit _), dot_alt]
    have hc := Real.one_sub_sq_div_two_le_cos (x := radians (undoRefraction (applyRefraction t) - t))
    have hrr : radians (undoRefraction (applyRefraction t) - t) ^ 2 ≤ r ^ 2 := by
      rw [← sq_abs]
      refine pow_le_pow_left₀ (abs_nonneg _) (le_trans (le_of_eq ?_) hr) 2
      unfold radians
      rw [abs_mul, abs_of_pos (by have := Real.pi_pos; positivity : 0 < Real.pi / 180)]
    change 2 - 2 * Real.cos (radians _) ≤ _
    linarith
  rw [hh] at hfin
  exact tail_gap sw p _ mjd lst _ (arcsind_range _) hfin (by norm_num at hε1 hr1 ⊢; linarith) hd

/-- **C126** A point of the tangent plane within a distance `ε` (in radians, at most 0.001) of that of a target, both inside the field,
is carried to a position on the sky within `1.01 ε` and 0.033 arcseconds of the target from altitude 30 degrees up, 0.053 arcseconds from
altitude 11 degrees up: no combination of the corrections enlarges an error by more than one percent. -/
theorem C126_error (sw : Switches) (p tel q : ℝ × ℝ) (mjd lst hexrot t az ε : ℝ)
    (ht : hadec2altaz (mount sw lst (apparent sw mjd p)) = (t, az)) (h2 : t ≤ 90)
    (hv : 0 ≤ cosSep (refract (mount sw lst (apparent sw mjd p))) (refract (mount sw lst (apparent sw mjd tel))))
    (hd : sw.aberration = true → |(apparent sw mjd p).2| ≤ 80)
    (hp : (radec2tan sw p tel mjd lst hexrot).1 ^ 2 + (radec2tan sw p tel mjd lst hexrot).2 ^ 2 ≤ 0.035 ^ 2)
    (hq : q.1 ^ 2 + q.2 ^ 2 ≤ 0.035 ^ 2) (hε : 0 ≤ ε) (hε1 : ε ≤ 1e-3)
    (he : (q.1 - (radec2tan sw p tel mjd lst hexrot).1) ^ 2 + (q.2 - (radec2tan sw p tel mjd lst hexrot).2) ^ 2 ≤ ε ^ 2) :
    (30 ≤ t → Real.cos (1.01 * ε + 0.033 / 3600 * (Real.pi / 180)) ≤ cosSep (tan2radec sw q tel mjd lst hexrot) p) ∧
    (11 ≤ t → Real.cos (1.01 * ε + 0.053 / 3600 * (Real.pi / 180)) ≤ cosSep (tan2radec sw q tel mjd lst hexrot) p) := by
  obtain ⟨-, u10, u30⟩ := C20_undo t h2
  have hp0 := Real.pi_pos
  have hp1 := Real.pi_gt_d6
  have hp2 := Real.pi_lt_d6
  constructor
  · intro h
    have hr : |undoRefraction (applyRefraction t) - t| * (Real.pi / 180) ≤ 4.9e-10 := by
      refine (mul_le_mul_of_nonneg_right (u30 h) (by positivity)).trans ?_
      norm_num at hp2 ⊢
      linarith
    refine sep_of_chord (error_gap sw p tel q mjd lst hexrot t az _ ε ht (by linarith) h2 hv hd hp hq hε hε1 he hr (by norm_num)) ?_ ?_
    · norm_num at hp1 ⊢
      linarith
    · norm_num at hp2 hε1 ⊢
      linarith
  · intro h
    have hr : |undoRefraction (applyRefraction t) - t| * (Real.pi / 180) ≤ 9.7e-8 := by
      refine (mul_le_mul_of_nonneg_right (u10 (by linarith)) (by positivity)).trans ?_
      norm_num at hp2 ⊢
      linarith
    refine sep_of_chord (error_gap sw p tel q mjd lst hexrot t az _ ε ht h h2 hv hd hp hq hε hε1 he hr (by norm_num)) ?_ ?_
    · norm_num at hp1 ⊢
      linarith
    · norm_num at hp2 hε1 ⊢
      linarith

/-- **C126** Two targets that get the same tangent plane coordinates are within 0.064 arcseconds of each other on the sky, from altitude
30 degrees up. -/
theorem C126_distinct (sw : Switches) (p p' tel : ℝ × ℝ) (mjd lst hexrot : ℝ)
    (ht : ∀ x, x = p ∨ x = p' → 30 ≤ (hadec2altaz (mount sw lst (apparent sw mjd x))).1 ∧ (hadec2altaz (mount sw lst (apparent sw mjd x))).1 ≤ 90 ∧
      0 ≤ cosSep (refract (mount sw lst (apparent sw mjd x))) (refract (mount sw lst (apparent sw mjd tel))) ∧
      (sw.aberration = true → |(apparent sw mjd x).2| ≤ 80))
    (hsame : radec2tan sw p tel mjd lst hexrot = radec2tan sw p' tel mjd lst hexrot) :
    Real.cos (0.064 / 3600 * (Real.pi / 180)) ≤ cosSep p p' := by
  have hp2 := Real.pi_lt_d6
  have hp0 := Real.pi_pos
  have one : ∀ x, x = p ∨ x = p' → gap (xyz (tan2radec sw (radec2tan sw x tel mjd lst hexrot) tel mjd lst hexrot)) (xyz x) ≤ 4.9e-10 + 2.1e-8 + 1.3e-7 := by
    intro x hx
    obtain ⟨a1, a2, a3, a4⟩ := ht x hx
    obtain ⟨-, -, u30⟩ := C20_undo _ a2
    refine round_gap sw x tel mjd lst hexrot (hadec2altaz (mount sw lst (apparent sw mjd x))).1 (hadec2altaz (mount sw lst (apparent sw mjd x))).2 _ rfl (by linarith) a2 a3 a4 ?_ (by norm_num)
    refine (mul_le_mul_of_nonneg_right (u30 a1) (by positivity)).trans ?_
    norm_num at hp2 ⊢
    linarith
  have o1 := one p (Or.inl rfl)
  have o2 := one p' (Or.inr rfl)
  rw [← hsame] at o2
  rw [gap_comm] at o1
  exact sep_of_gap ((gap_triangle _ _ _).trans (add_le_add o1 o2)) (by norm_num) (by norm_num)

/-- Scales near one change lengths by little. -/
theorem scale_len {a b c x y : ℝ} (ha : |a - 1| ≤ 0.005) (hb : |b - 1| ≤ 0.005) (hc : |c| ≤ 0.005) :
    (a * x + c * y) ^ 2 + (c * x + b * y) ^ 2 ≤ 1.0201 * (x ^ 2 + y ^ 2) ∧ 0.97 * (x ^ 2 + y ^ 2) ≤ (a * x + c * y) ^ 2 + (c * x + b * y) ^ 2 := by
  rw [abs_le] at ha hb hc
  have e : (a * x + c * y) ^ 2 + (c * x + b * y) ^ 2 = (a ^ 2 + c ^ 2) * x ^ 2 + (c * (a + b)) * (2 * x * y) + (c ^ 2 + b ^ 2) * y ^ 2 := by ring
  have hxy : |2 * x * y| ≤ x ^ 2 + y ^ 2 := by
    rw [abs_le]
    constructor <;> nlinarith [sq_nonneg (x + y), sq_nonneg (x - y)]
  have hcc : |c * (a + b)| ≤ 0.01005 := by
    have hc' : |c| ≤ 0.005 := abs_le.2 hc
    have hab : |a + b| ≤ 2.01 := by
      rw [abs_le]
      norm_num at *
      constructor <;> linarith [ha.1, ha.2, hb.1, hb.2]
    rw [abs_mul]
    refine (mul_le_mul hc' hab (abs_nonneg _) (by norm_num)).trans (by norm_num)
  have hm : |c * (a + b) * (2 * x * y)| ≤ 0.01005 * (x ^ 2 + y ^ 2) := by
    rw [abs_mul]
    exact mul_le_mul hcc hxy (abs_nonneg _) (by norm_num)
  rw [abs_le] at hm
  have sqr : ∀ a : ℝ, -0.005 ≤ a - 1 → a - 1 ≤ 0.005 → 0.990025 ≤ a ^ 2 ∧ a ^ 2 ≤ 1.010025 := by
    intro a h1 h2
    norm_num at h1 h2 ⊢
    constructor <;> nlinarith
  have sa := sqr a ha.1 ha.2
  have sb := sqr b hb.1 hb.2
  have sc : 0 ≤ c ^ 2 ∧ c ^ 2 ≤ 0.000025 := by
    have h1 := hc.1
    have h2 := hc.2
    norm_num at h1 h2 ⊢
    constructor <;> nlinarith
  have px := sq_nonneg x
  have py := sq_nonneg y
  have u1 : (a ^ 2 + c ^ 2) * x ^ 2 ≤ 1.01005 * x ^ 2 := mul_le_mul_of_nonneg_right ((add_le_add sa.2 sc.2).trans (by norm_num)) px
  have u2 : (c ^ 2 + b ^ 2) * y ^ 2 ≤ 1.01005 * y ^ 2 := mul_le_mul_of_nonneg_right ((add_le_add sc.2 sb.2).trans (by norm_num)) py
  have l1 : 0.99 * x ^ 2 ≤ (a ^ 2 + c ^ 2) * x ^ 2 := mul_le_mul_of_nonneg_right (le_trans (by norm_num) (add_le_add sa.1 sc.1)) px
  have l2 : 0.99 * y ^ 2 ≤ (c ^ 2 + b ^ 2) * y ^ 2 := mul_le_mul_of_nonneg_right (le_trans (by norm_num) (add_le_add sc.1 sb.1)) py
  rw [e]
  have m1 := hm.1
  have m2 := hm.2
  norm_num at u1 u2 l1 l2 m1 m2 ⊢
  constructor <;> linarith

open Verif.Model.FieldFit Verif.Model.SimpleCorr in
/-- **C126** A target taken to the focal plane by a fitted field and back comes back within 1.03 times the error of the optical model there
and back in the tangent plane, and 0.033 arcseconds, from altitude 30 degrees up, when the scales fitted are within half a percent of one. -/
theorem C126_field (sw : Switches) (env : Env) (f : Field) (p x : ℝ × ℝ) (m l h t az sxx syy sxy zp δ : ℝ)
    (e1 : env.radec2tan = radec2tan sw) (e2 : env.tan2radec = tan2radec sw)
    (f1 : f.mjd = some m) (f2 : f.lst = some l) (f3 : f.hexrot = some h)
    (s1 : f.sxx = some sxx) (s2 : f.syy = some syy) (s3 : f.sxy = some sxy) (s4 : f.zp = some zp)
    (b1 : |sxx - 1| ≤ 0.005) (b2 : |syy - 1| ≤ 0.005) (b3 : |sxy| ≤ 0.005)
    (ht : hadec2altaz (mount sw l (apparent sw m p)) = (t, az)) (ht1 : 30 ≤ t) (ht2 : t ≤ 90)
    (hv : 0 ≤ cosSep (refract (mount sw l (apparent sw m p))) (refract (mount sw l (apparent sw m (f.ra, f.dec)))))
    (hd : sw.aberration = true → |(apparent sw m p).2| ≤ 80)
    (hp : (radec2tan sw p (f.ra, f.dec) m l h).1 ^ 2 + (radec2tan sw p (f.ra, f.dec) m l h).2 ^ 2 ≤ 0.033 ^ 2)
    (hδ : 0 ≤ δ) (hδ1 : δ ≤ 9e-4)
    (hopt : ∀ q : ℝ × ℝ, q.1 ^ 2 + q.2 ^ 2 ≤ 0.035 ^ 2 →
      ((env.fp2tan (env.tan2fp q)).1 - q.1) ^ 2 + ((env.fp2tan (env.tan2fp q)).2 - q.2) ^ 2 ≤ δ ^ 2)
    (hx : radec2fp env f p = .ok (some x)) :
    ∃ y, fp2radec env f x = .ok (some y) ∧ Real.cos (1.03 * δ + 0.033 / 3600 * (Real.pi / 180)) ≤ cosSep y p := by
  have hsc : scales f = some (sxx, syy, sxy, zp) := by unfold scales; rw [s1, s2, s3, s4]; rfl
  unfold radec2fp at hx
  rw [f1, f2, f3, hsc] at hx
  simp only [Option.map_some, Except.ok.injEq, Option.some.injEq] at hx
  unfold fp2radec
  rw [f1, f2, f3, hsc]
  refine ⟨_, rfl, ?_⟩
  simp only
  rw [e2]
  rw [e1] at hx
  obtain ⟨Q, hQ⟩ : ∃ Q, Q = radec2tan sw p (f.ra, f.dec) m l h := ⟨_, rfl⟩
  rw [← hQ] at hp hx
  let c : Corr := ⟨0, 0, sxx, syy, sxy, zp, 0, 0⟩
  have a1 : ∀ q : ℝ × ℝ, q.1 ^ 2 + q.2 ^ 2 ≤ 1 → inst2sky sxx syy sxy zp q = Verif.Model.SimpleCorr.apply c q.1 q.2 := by
    intro q hd
    unfold inst2sky TanCorr.apply Verif.Model.SimpleCorr.apply
    simp only [tan_id (q.1, q.2) hd]
    simp [c]
  have a2 : ∀ q : ℝ × ℝ, q.1 ^ 2 + q.2 ^ 2 ≤ 1 → sky2inst sxx syy sxy zp q = Verif.Model.SimpleCorr.applyInverse c q.1 q.2 := by
    intro q hd
    unfold sky2inst TanCorr.applyInverse Verif.Model.SimpleCorr.applyInverse
    simp only [tan_id (q.1, q.2) hd]
    simp [c]
  have hdet : c.sxx * c.syy - c.sxy ^ 2 ≠ 0 := by
    have b1' := abs_le.1 b1
    have b2' := abs_le.1 b2
    have b3' := abs_le.1 b3
    have : 0 < sxx * syy - sxy ^ 2 := by
      obtain ⟨u1, -⟩ := b1'
      obtain ⟨u2, -⟩ := b2'
      obtain ⟨u3, u4⟩ := b3'
      norm_num at u1 u2 u3 u4
      nlinarith
    exact this.ne'
  obtain ⟨s, hs⟩ : ∃ s, s = sky2inst sxx syy sxy zp Q := ⟨_, rfl⟩
  rw [← hs] at hx
  have hQs : Verif.Model.SimpleCorr.apply c s.1 s.2 = Q := by
    rw [hs, a2 Q (hp.trans (by norm_num))]
    exact (C21_inverse c hdet Q.1 Q.2).2
  have hcs := sq_cosd_sind zp
  have len : ∀ u v : ℝ × ℝ, (Verif.Model.SimpleCorr.apply c u.1 u.2).1 - (Verif.Model.SimpleCorr.apply c v.1 v.2).1 =
      sxx * (cosd zp * (u.1 - v.1) - sind zp * (u.2 - v.2)) + sxy * (sind zp * (u.1 - v.1) + cosd zp * (u.2 - v.2)) ∧
      (Verif.Model.SimpleCorr.apply c u.1 u.2).2 - (Verif.Model.SimpleCorr.apply c v.1 v.2).2 =
      sxy * (cosd zp * (u.1 - v.1) - sind zp * (u.2 - v.2)) + syy * (sind zp * (u.1 - v.1) + cosd zp * (u.2 - v.2)) := by
    intro u v
    unfold Verif.Model.SimpleCorr.apply rot2deg
    simp only [c]
    constructor <;> ring
  have rotlen : ∀ a b : ℝ, (cosd zp * a - sind zp * b) ^ 2 + (sind zp * a + cosd zp * b) ^ 2 = a ^ 2 + b ^ 2 := by
    intro a b
    linear_combination (a ^ 2 + b ^ 2) * hcs
  have hz0 : Verif.Model.SimpleCorr.apply c 0 0 = (0, 0) := by
    unfold Verif.Model.SimpleCorr.apply rot2deg
    simp [c]
  have hslen : s.1 ^ 2 + s.2 ^ 2 ≤ 0.0336 ^ 2 := by
    have h1 := len s (0, 0)
    simp only [hz0, sub_zero, hQs] at h1
    have h2 := (scale_len (x := cosd zp * s.1 - sind zp * s.2) (y := sind zp * s.1 + cosd zp * s.2) b1 b2 b3).2
    rw [rotlen, ← h1.1, ← h1.2] at h2
    norm_num at h2 hp ⊢
    linarith
  have hd1 := hopt s (hslen.trans (by norm_num))
  rw [hx] at hd1
  obtain ⟨s', hs'⟩ : ∃ s', s' = env.fp2tan x := ⟨_, rfl⟩
  rw [← hs'] at hd1 ⊢
  have hδ2 : δ ^ 2 ≤ (9e-4) ^ 2 := pow_le_pow_left₀ hδ hδ1 2
  have tri : ∀ {a b c d r g : ℝ}, 0 ≤ r → 0 ≤ g → a ^ 2 + b ^ 2 ≤ r ^ 2 → (c - a) ^ 2 + (d - b) ^ 2 ≤ g ^ 2 → c ^ 2 + d ^ 2 ≤ (r + g) ^ 2 := by
    intro a b c d r g hr hg h1 h2
    have hcs2 : (a * (c - a) + b * (d - b)) ^ 2 ≤ (r * g) ^ 2 := by
      have h3 : (a * (c - a) + b * (d - b)) ^ 2 ≤ (a ^ 2 + b ^ 2) * ((c - a) ^ 2 + (d - b) ^ 2) := by
        nlinarith [sq_nonneg (a * (d - b) - b * (c - a))]
      rw [mul_pow]
      exact h3.trans (mul_le_mul h1 h2 (by positivity) (by positivity))
    have h4 := (abs_le_of_sq_le_sq' hcs2 (by positivity)).2
    nlinarith
  have hs'len : s'.1 ^ 2 + s'.2 ^ 2 ≤ 1 := by
    refine (tri (by norm_num) (by norm_num) hslen (hd1.trans hδ2)).trans (by norm_num)
  rw [a1 s' hs'len]
  obtain ⟨q, hq⟩ : ∃ q, q = Verif.Model.SimpleCorr.apply c s'.1 s'.2 := ⟨_, rfl⟩
  rw [← hq]
  have herr : (q.1 - Q.1) ^ 2 + (q.2 - Q.2) ^ 2 ≤ (1.0101 * δ) ^ 2 := by
    have h1 := len s' s
    rw [← hq, hQs] at h1
    have h2 := (scale_len (x := cosd zp * (s'.1 - s.1) - sind zp * (s'.2 - s.2)) (y := sind zp * (s'.1 - s.1) + cosd zp * (s'.2 - s.2)) b1 b2 b3).1
    rw [rotlen, ← h1.1, ← h1.2] at h2
    norm_num at h2 ⊢
    nlinarith
  have hδ3 : 1.0101 * δ ≤ 1e-3 := by norm_num at hδ1 ⊢; linarith
  have hqlen : q.1 ^ 2 + q.2 ^ 2 ≤ 0.035 ^ 2 := by
    refine (tri (by norm_num) (by norm_num) hp (herr.trans (pow_le_pow_left₀ (by positivity) hδ3 2))).trans (by norm_num)
  rw [hQ] at herr hp
  have h0 := (C126_error sw p (f.ra, f.dec) q m l h t az (1.0101 * δ) ht ht2 hv hd (hp.trans (by norm_num)) hqlen (by positivity) hδ3 herr).1 ht1
  refine le_trans ?_ h0
  have hpi := Real.pi_pos
  have hp2 := Real.pi_lt_d6
  apply Real.cos_le_cos_of_nonneg_of_le_pi (by positivity)
  · have := Real.pi_gt_three
    norm_num at hδ1 hp2 ⊢
    linarith
  · norm_num
    linarith

/-- A pointing at the zenith with every correction on, and a point measured with an error of 0.001, meet the hypotheses. -/
example : ∃ (sw : Switches) (p tel q : ℝ × ℝ) (mjd lst hexrot t az ε : ℝ), sw.precession = true ∧ sw.aberration = true ∧
    sw.polarMisalignment = true ∧ hadec2altaz (mount sw lst (apparent sw mjd p)) = (t, az) ∧ 30 ≤ t ∧ t ≤ 90 ∧
    0 ≤ cosSep (refract (mount sw lst (apparent sw mjd p))) (refract (mount sw lst (apparent sw mjd tel))) ∧
    |(apparent sw mjd p).2| ≤ 80 ∧
    (radec2tan sw p tel mjd lst hexrot).1 ^ 2 + (radec2tan sw p tel mjd lst hexrot).2 ^ 2 ≤ 0.035 ^ 2 ∧
    q.1 ^ 2 + q.2 ^ 2 ≤ 0.035 ^ 2 ∧ 0 < ε ∧ ε ≤ 1e-3 ∧
    (q.1 - (radec2tan sw p tel mjd lst hexrot).1) ^ 2 + (q.2 - (radec2tan sw p tel mjd lst hexrot).2) ^ 2 ≤ ε ^ 2 := by
  obtain ⟨sw, p, tel, mjd, lst, t, az, rfl, h1, h2, h3, h4, h5, h6, h7, h8⟩ := zenith_case
  have h0 : radec2tan sw tel tel mjd lst 20 = (0, 0) := by
    unfold radec2tan
    dsimp only
    rw [C17_pointing_origin]
    simp
  refine ⟨sw, tel, tel, (1e-3, 0), mjd, lst, 20, t, az, 1e-3, h1, h2, h3, h4, h5, h6, h7, h8, ?_⟩
  rw [h0]
  norm_num

end Verif.Props
