import Verif.Lemmas.Radec2tan

/-!
# Properties C19, C20, C61: sky to tangent plane (`transform/radec2tan.py`)
-/

namespace Verif.Props
open Verif.Py Verif.Model.Trig Verif.Model.Radec2tan Verif.Spec Verif.Lemmas.Trig Verif.Lemmas.Sky
  Verif.Lemmas.Refraction Verif.Lemmas.Radec2tan

/-! ## C19 -/

/-- C19: the pointing maps to the origin, whatever the switches. -/
theorem C19_pointing_origin (sw : Switches) (tel : ℝ × ℝ) (mjd lst hexrot : ℝ) :
    radec2tan sw tel tel mjd lst hexrot = (0, 0) := by
  have h : ∀ t : ℝ × ℝ, hadec2xy t t = (0, 0) := by
    intro tel
    rw [hadec2xy_eq]
    have h1 := sq_cosd_sind tel.1
    unfold frame M3.app dot xyz getXYZ
    simp only [Prod.mk.injEq]
    constructor
    · ring
    · linear_combination (-(sind tel.2) * cosd tel.2) * h1
  unfold radec2tan
  simp only [h]
  simp

/-- C19: the hexapod angle rotates every output about the origin by exactly that
angle (counter-clockwise), and distances from the pointing are unaffected. -/
theorem C19_hexrot (sw : Switches) (p tel : ℝ × ℝ) (mjd lst hexrot : ℝ) :
    radec2tan sw p tel mjd lst hexrot =
      (Real.cos (hexrot * Real.pi / 180) * (radec2tan sw p tel mjd lst 0).1
        - Real.sin (hexrot * Real.pi / 180) * (radec2tan sw p tel mjd lst 0).2,
       Real.sin (hexrot * Real.pi / 180) * (radec2tan sw p tel mjd lst 0).1
        + Real.cos (hexrot * Real.pi / 180) * (radec2tan sw p tel mjd lst 0).2) := by
  rw [cosd_eq, sind_eq]
  unfold radec2tan
  simp only [cosd_zero, sind_zero]
  simp

/-- C19: `tan2radec` undoes the hexapod rotation exactly: the sky position found
does not depend on the hexapod angle used in both directions. -/
theorem C19_hexrot_undone (sw : Switches) (p tel : ℝ × ℝ) (mjd lst hexrot : ℝ) :
    tan2radec sw (radec2tan sw p tel mjd lst hexrot) tel mjd lst hexrot =
      tan2radec sw (radec2tan sw p tel mjd lst 0) tel mjd lst 0 := by
  have h := C19_hexrot sw p tel mjd lst hexrot
  rw [cosd_eq, sind_eq] at h
  rw [h]
  generalize radec2tan sw p tel mjd lst 0 = q
  obtain ⟨e1, e2⟩ := rot_undo (cosd hexrot) (sind hexrot) q.1 q.2 (sq_cosd_sind hexrot)
  unfold tan2radec
  simp only [e1, e2, cosd_zero, sind_zero]
  simp

/-- C19: outputs are in the unit disc. -/
theorem C19_disc (sw : Switches) (p tel : ℝ × ℝ) (mjd lst hexrot : ℝ) :
    radius (radec2tan sw p tel mjd lst hexrot) ≤ 1 := by
  rw [C19_hexrot, cosd_eq, sind_eq]
  have hs := sq_cosd_sind hexrot
  have h0 : (radec2tan sw p tel mjd lst 0).1 ^ 2 + (radec2tan sw p tel mjd lst 0).2 ^ 2 ≤ 1 := by
    unfold radec2tan
    simp only [cosd_zero, sind_zero]
    generalize refract (mount sw lst (apparent sw mjd p)) = h
    generalize refract (mount sw lst (apparent sw mjd tel)) = t
    have hu : dot (xyz h) (xyz h) = 1 := (unit_dot _).1 (xyz_unit h)
    have hf := frame_dot t (xyz h) (xyz h)
    rw [hu] at hf
    unfold dot at hf
    rw [hadec2xy_eq]
    simp only
    nlinarith [sq_nonneg ((frame t).app (xyz h)).z]
  unfold radius
  rw [Real.sqrt_le_left (by norm_num), one_pow]
  generalize (radec2tan sw p tel mjd lst 0).1 = x at *
  generalize (radec2tan sw p tel mjd lst 0).2 = y at *
  simp only
  calc _ = (x ^ 2 + y ^ 2) * (cosd hexrot ^ 2 + sind hexrot ^ 2) := by ring
    _ ≤ 1 := by rw [hs, mul_one]; exact h0

/-- C19: with aberration and polar misalignment off (precession on or off), going
to the tangent plane and back moves a target only by the residual of undoing
refraction: the separation of the result from the original is exactly
`undo(apply(alt)) - alt`, bounded in C20.  Hypotheses: the target is at altitude
1..90 degrees, and its refracted direction is on the hemisphere of the refracted
pointing. -/
theorem C19_round_trip (sw : Switches) (ha : sw.aberration = false) (hp : sw.polarMisalignment = false)
    (p tel : ℝ × ℝ) (mjd lst hexrot t az : ℝ)
    (ht : hadec2altaz (lst - (apparent sw mjd p).1, (apparent sw mjd p).2) = (t, az))
    (h1 : 1 ≤ t) (h2 : t ≤ 90)
    (hv : 0 ≤ cosSep (refract (lst - (apparent sw mjd p).1, (apparent sw mjd p).2))
      (refract (lst - (apparent sw mjd tel).1, (apparent sw mjd tel).2))) :
    cosSep (tan2radec sw (radec2tan sw p tel mjd lst hexrot) tel mjd lst hexrot) p =
      Real.cos ((undoRefraction (applyRefraction t) - t) * Real.pi / 180) := by
  rw [C19_hexrot_undone, cosd_eq]
  have hq : ∀ p, apparent sw mjd p = if sw.precession then applyPrecessionFromIcrs p mjd else p := by
    intro p; unfold apparent; simp [ha]
  have hm : ∀ p : ℝ × ℝ, mount sw lst p = (lst - p.1, p.2) := by
    intro p; unfold mount; simp [hp]
  -- the position before undoing precession
  have key : ∀ r : ℝ × ℝ, xyz r = horizon.app (xyz (az, undoRefraction (applyRefraction t))) →
      cosSep (lst - r.1, r.2) (apparent sw mjd p) = cosd (undoRefraction (applyRefraction t) - t) := by
    intro r hr
    have e : cosSep (lst - r.1, r.2) (apparent sw mjd p) =
        cosSep r (lst - (apparent sw mjd p).1, (apparent sw mjd p).2) := by
      have := cosSep_lst lst r (lst - (apparent sw mjd p).1, (apparent sw mjd p).2)
      rw [← this]
      simp only [sub_sub_cancel]
    rw [e, cosSep_eq, hr]
    have h3 := xyz_altaz (lst - (apparent sw mjd p).1, (apparent sw mjd p).2)
    rw [ht] at h3
    rw [← horizon_self (xyz (lst - (apparent sw mjd p).1, (apparent sw mjd p).2)), ← h3, horizon_dot, dot_alt]
  have hround := refract_round ht h1 h2 hv
  dsimp only at hround
  unfold tan2radec radec2tan
  simp only [hm, hp, ha, cosd_zero, sind_zero, one_mul, zero_mul, sub_zero, add_zero, zero_add, neg_zero,
    Bool.false_eq_true, if_false]
  have hk := key _ hround
  by_cases hpr : sw.precession = true
  · simp only [hpr, if_true] at hk hq ⊢
    rw [hq] at hk
    have hinv : xyz p = xyz (undoPrecessionFromIcrs (applyPrecessionFromIcrs p mjd) mjd) := by
      unfold undoPrecessionFromIcrs applyPrecessionFromIcrs
      rw [xyz_precession_add,
        show (mjd - ICRS_MJD) / DAYS_PER_YEAR + (ICRS_MJD - mjd) / DAYS_PER_YEAR = 0 by ring]
      exact (xyz_precession_zero p).symm
    rw [cosSep_congr rfl hinv]
    unfold undoPrecessionFromIcrs at *
    rw [cosSep_precession]
    simp only [hq] at hk ⊢
    exact hk
  · simp only [hpr, if_false, Bool.false_eq_true] at hk hq ⊢
    simp only [hq] at hk ⊢
    exact hk

/-- A target at altitude 45°, azimuth 180°, pointing at itself, meets the hypotheses. -/
example : ∃ (sw : Switches) (p tel : ℝ × ℝ) (mjd lst t az : ℝ), sw.aberration = false ∧
    sw.polarMisalignment = false ∧
    hadec2altaz (lst - (apparent sw mjd p).1, (apparent sw mjd p).2) = (t, az) ∧ 1 ≤ t ∧ t ≤ 90 ∧
    0 ≤ cosSep (refract (lst - (apparent sw mjd p).1, (apparent sw mjd p).2))
      (refract (lst - (apparent sw mjd tel).1, (apparent sw mjd tel).2)) := by
  refine ⟨⟨false, false, false, false⟩, (-(altaz2hadec (45, 180)).1, (altaz2hadec (45, 180)).2),
    (-(altaz2hadec (45, 180)).1, (altaz2hadec (45, 180)).2), 59000, 0, 45,
    (hadec2altaz (altaz2hadec (45, 180))).2, rfl, rfl, ?_, by norm_num, by norm_num, ?_⟩
  · have e : ∀ q : ℝ × ℝ, apparent ⟨false, false, false, false⟩ 59000 q = q := fun q => by
      simp [apparent]
    rw [e]
    simp only [zero_sub, neg_neg]
    have h : (hadec2altaz (altaz2hadec (45, 180))).1 = 45 := by
      apply alt_of_dir (az := 180) (by norm_num) (by norm_num)
      rw [xyz_altaz, xyz_hadec, horizon_self]
    exact Prod.ext h rfl
  · rw [cosSep_eq]
    have := (unit_dot _).1 (xyz_unit (refract (0 - (apparent ⟨false, false, false, false⟩ 59000
      (-(altaz2hadec (45, 180)).1, (altaz2hadec (45, 180)).2)).1, (apparent ⟨false, false, false, false⟩ 59000
      (-(altaz2hadec (45, 180)).1, (altaz2hadec (45, 180)).2)).2)))
    rw [this]; norm_num

/-! ## C20 -/

/-- C20: below the zenith refraction raises, above the horizon; at 30° by exactly
79 arcsec; it decreases with altitude and vanishes at the zenith. -/
theorem C20_raises (x : ℝ) (h0 : 0 < x) (h1 : x ≤ 90) :
    x ≤ applyRefraction x ∧ (x < 90 → x < applyRefraction x) ∧
    applyRefraction 30 = 30 + 79 / 3600 ∧ applyRefraction 90 = 90 ∧
    (∀ y, x ≤ y → y ≤ 90 → applyRefraction y - y ≤ applyRefraction x - x) ∧
    (x < 90 → applyRefraction x - x = 79 / 3600 * Real.tan (Real.pi / 6) / Real.tan (x * Real.pi / 180)) := by
  refine ⟨?_, ?_, ?_, ?_, ?_, ?_⟩
  · rw [apply_eq]; linarith [d_nonneg h0 h1]
  · intro h; rw [apply_eq]; linarith [d_pos h0 h]
  · unfold applyRefraction REFRACTION_AT_30DEG_ELEVATION
    have : tand 30 ≠ 0 := by rw [tand30]; positivity
    rw [mul_div_assoc, div_self this, mul_one]
  · rw [apply_eq, d_90, add_zero]
  · intro y hxy hy
    rw [apply_eq, apply_eq]
    have := (d_lip h0 le_rfl hxy hy).1
    linarith
  · intro _
    unfold applyRefraction REFRACTION_AT_30DEG_ELEVATION tand radians
    rw [show 30 * (Real.pi / 180) = Real.pi / 6 by ring, show x * (Real.pi / 180) = x * Real.pi / 180 by ring]
    ring

/-- C20: from 1° up the order of altitudes is kept (strictly) and the result stays
at most 90°. -/
theorem C20_order (x y : ℝ) (hx : 1 ≤ x) (hxy : x < y) (hy : y ≤ 90) :
    applyRefraction x < applyRefraction y ∧ applyRefraction y ≤ 90 :=
  ⟨by linarith [apply_sub hx hxy hy], apply_le_90 (by linarith) hy⟩

/-- Finding: the order of altitudes is not kept near the horizon: 0.1° is sent
above 1°. -/
theorem C20_order_fails_at_horizon : applyRefraction 1 < applyRefraction 0.1 := by
  rw [apply_eq, apply_eq]
  have hK := K_lt
  have hK0 : 126 / 10000 < K := by
    unfold K REFRACTION_AT_30DEG_ELEVATION
    rw [tand30]
    have : Real.sqrt 3 < 1.7321 := by
      rw [Real.sqrt_lt' (by norm_num)]; norm_num
    have h3 : (0:ℝ) < Real.sqrt 3 := by positivity
    have : (0.577:ℝ) < 1 / Real.sqrt 3 := by
      rw [lt_div_iff₀ h3]; linarith
    linarith
  have h1 : d 1 < 1 := by
    unfold d
    have hs := sind_1
    have hc : cosd 1 ≤ 1 := Real.cos_le_one _
    have hc0 := cosd_nonneg (x := 1) (by norm_num) (by norm_num)
    rw [div_lt_one (by linarith)]
    nlinarith
  have h2 : 5 < d 0.1 := by
    unfold d
    have hp := Real.pi_lt_d6
    have hp0 := Real.pi_gt_d6
    have hr : radians 0.1 < 0.00175 := by unfold radians; norm_num at hp ⊢; linarith
    have hr0 : 0 < radians 0.1 := by unfold radians; positivity
    have hs : sind 0.1 < 0.00175 := lt_trans (Real.sin_lt hr0) hr
    have hs0 := sind_pos (x := 0.1) (by norm_num) (by norm_num)
    have hc : 0.99 < cosd 0.1 := by
      have := Real.one_sub_sq_div_two_le_cos (x := radians 0.1)
      change 0.99 < Real.cos (radians 0.1)
      nlinarith
    rw [lt_div_iff₀ hs0]
    nlinarith
  linarith

/-- C20: undoing refraction never ends below the true altitude, and is off by less
than 0.02 arcsec from 10° up and less than 0.0001 arcsec from 30° up. -/
theorem C20_undo (t : ℝ) (h2 : t ≤ 90) :
    (1 ≤ t → 0 ≤ undoRefraction (applyRefraction t) - t) ∧
    (10 ≤ t → |undoRefraction (applyRefraction t) - t| ≤ 0.02 / 3600) ∧
    (30 ≤ t → |undoRefraction (applyRefraction t) - t| ≤ 0.0001 / 3600) := by
  refine ⟨fun h => (undo_apply h h2).1, fun h => ?_, fun h => ?_⟩
  · obtain ⟨a, b⟩ := undo_apply (by linarith : 1 ≤ t) h2
    rw [abs_of_nonneg a]
    have hs := sind_mono (by norm_num) h h2
    have s10 := sind_10
    have hq := q_le (t := t) (s := 173 / 1000) (by norm_num) (by linarith)
    have hq0 := q_pos (by linarith : 0 < t) (by linarith)
    have hd := (d_lip (by norm_num : (0:ℝ) < 10) le_rfl h h2).1
    have hd10 : d 10 ≤ 127 / 10000 / (173 / 1000) := by
      unfold d
      have hK := K_lt
      have hK0 := K_pos
      have hc : cosd 10 ≤ 1 := Real.cos_le_one _
      have hc0 := cosd_nonneg (x := 10) (by norm_num) (by norm_num)
      apply div_le_div₀ (by norm_num) _ (by norm_num) (by linarith)
      nlinarith
    have hdt := d_nonneg (by linarith : 0 < t) h2
    have : q t ^ 2 * d t ≤ (22168 / 10 ^ 8 / (173 / 1000) ^ 2) ^ 2 * (127 / 10000 / (173 / 1000)) := by
      gcongr
      linarith
    norm_num at this ⊢
    linarith
  · obtain ⟨a, b⟩ := undo_apply (by linarith : 1 ≤ t) h2
    rw [abs_of_nonneg a]
    have hs := sind_mono (by norm_num) h h2
    rw [sind_30] at hs
    have hq := q_le (t := t) (s := 1 / 2) (by norm_num) hs
    have hq0 := q_pos (by linarith : 0 < t) (by linarith)
    have hd := (d_lip (by norm_num : (0:ℝ) < 30) le_rfl h h2).1
    have hd30 : d 30 = 79 / 3600 := by
      have e := apply_eq 30
      have e2 := (C20_raises 30 (by norm_num) (by norm_num)).2.2.1
      linarith
    have hdt := d_nonneg (by linarith : 0 < t) h2
    have : q t ^ 2 * d t ≤ (22168 / 10 ^ 8 / (1 / 2) ^ 2) ^ 2 * (79 / 3600) := by
      gcongr
      linarith
    norm_num at this ⊢
    linarith

/-! ## C61 -/

/-- The apex of the Earth's motion used by the code, as a sky position. -/
noncomputable def apex (mjd : ℝ) : ℝ × ℝ := eclip2radec (getSunLon mjd - 90, 0)

theorem aberr_vec (p : ℝ × ℝ) (mjd : ℝ) :
    let c := dot (xyz p) (xyz (apex mjd))
    let v : ℝ := 0.99365E-4
    0 < Real.sqrt (1 + v ^ 2 * (1 - c ^ 2)) ∧
    xyz (applyAberration p mjd) = smul (1 / Real.sqrt (1 + v ^ 2 * (1 - c ^ 2)))
      (vadd (xyz p) (smul v (vadd (xyz (apex mjd)) (smul (-c) (xyz p))))) := by
  intro c v
  have hc2 : c ^ 2 ≤ 1 := by
    have h1 := (unit_dot _).1 (xyz_unit p)
    have h2 := (unit_dot _).1 (xyz_unit (apex mjd))
    have h3 := cross_norm (xyz p) (xyz (apex mjd)) h1 h2
    nlinarith [sq_nonneg (getNorm (cross (xyz p) (xyz (apex mjd))))]
  have hpos : 0 < 1 + v ^ 2 * (1 - c ^ 2) := by
    have : 0 ≤ v ^ 2 * (1 - c ^ 2) := mul_nonneg (sq_nonneg _) (by linarith)
    linarith
  refine ⟨Real.sqrt_pos.2 hpos, ?_⟩
  -- in ecliptic coordinates
  set a := xyz (getSunLon mjd - 90, (0:ℝ)) with ha
  set t := xyz (radec2eclip p) with ht
  have hcc : c = dot t a := by
    change dot (xyz p) (xyz (apex mjd)) = _
    unfold apex
    rw [xyz_radec, ht, xyz_eclip, ← (vecX_orth OBLIQ).dot ((vecX (-OBLIQ)).app (xyz p))]
    congr 1
    have := vecX_inv (-OBLIQ) (xyz p)
    rw [neg_neg] at this
    exact this.symm
  have htt : dot t t = 1 := (unit_dot _).1 (xyz_unit _)
  have haa : dot a a = 1 := (unit_dot _).1 (xyz_unit _)
  have hplot : vadd t (smul 1 (smul v (cross t (cross a t)))) = vadd t (smul v (vadd a (smul (-c) t))) := by
    rw [hcc]
    unfold dot at htt ⊢
    unfold vadd smul cross
    simp only [V3.mk.injEq]
    refine ⟨?_, ?_, ?_⟩
    · linear_combination (v * a.x) * htt
    · linear_combination (v * a.y) * htt
    · linear_combination (v * a.z) * htt
  have hn : dot (vadd t (smul v (vadd a (smul (-c) t)))) (vadd t (smul v (vadd a (smul (-c) t)))) =
      1 + v ^ 2 * (1 - c ^ 2) := by
    have e : dot (vadd t (smul v (vadd a (smul (-c) t)))) (vadd t (smul v (vadd a (smul (-c) t)))) =
      (1 - v * c) ^ 2 * dot t t + 2 * (1 - v * c) * v * dot t a + v ^ 2 * dot a a := by
      unfold dot vadd smul; simp only; ring
    rw [e, htt, haa, ← hcc]; ring
  have hx : xyz (computeAberration (radec2eclip p) mjd 1) =
      smul (1 / Real.sqrt (1 + v ^ 2 * (1 - c ^ 2))) (vadd t (smul v (vadd a (smul (-c) t)))) := by
    have e : computeAberration (radec2eclip p) mjd 1 =
        getLONLAT (getNormalized (vadd t (smul v (vadd a (smul (-c) t))))) := by
      rw [← hplot]; rfl
    set w := vadd t (smul v (vadd a (smul (-c) t)))
    have hw : w.x ^ 2 + w.y ^ 2 + w.z ^ 2 = 1 + v ^ 2 * (1 - c ^ 2) := by
      rw [← hn]; unfold dot; ring
    rw [e, xyz_lonlat (getNormalized_isUnit (by rw [hw]; exact hpos.ne'))]
    unfold getNormalized getNorm smul
    rw [hw]
    simp only [V3.mk.injEq]
    refine ⟨?_, ?_, ?_⟩ <;> ring
  unfold applyAberration
  rw [xyz_radec, hx]
  have hta : (vecX OBLIQ).app t = xyz p := by
    rw [ht, xyz_eclip]
    have := vecX_inv (-OBLIQ) (xyz p)
    rwa [neg_neg] at this
  have hap : xyz (apex mjd) = (vecX OBLIQ).app a := by unfold apex; rw [xyz_radec]
  rw [hap, ← hta]
  unfold M3.app dot smul vadd
  simp only [V3.mk.injEq]
  refine ⟨?_, ?_, ?_⟩ <;> ring

/-- C61: aberration moves a star along the great circle through the apex (90°
behind the Sun on the ecliptic), towards the apex, by the angle whose tangent is
`0.99365e-4 * sin(distance to the apex)`. -/
theorem C61_aberration (p : ℝ × ℝ) (mjd : ℝ) :
    cosSep p (applyAberration p mjd) =
      1 / Real.sqrt (1 + (0.99365E-4) ^ 2 * (1 - cosSep p (apex mjd) ^ 2)) ∧
    handed p (applyAberration p mjd) (apex mjd) = 0 ∧
    cosSep p (apex mjd) ≤ cosSep (applyAberration p mjd) (apex mjd) := by
  have h := aberr_vec p mjd
  dsimp only at h
  obtain ⟨hpos, hx⟩ := h
  have hpp := (unit_dot _).1 (xyz_unit p)
  have haa := (unit_dot _).1 (xyz_unit (apex mjd))
  have h3 := cross_norm (xyz p) (xyz (apex mjd)) hpp haa
  rw [cosSep_eq, cosSep_eq, cosSep_eq]
  have hc : (1:ℝ) - dot (xyz p) (xyz (apex mjd)) ^ 2 ≥ 0 := by
    nlinarith [sq_nonneg (getNorm (cross (xyz p) (xyz (apex mjd))))]
  have hha : handed p (applyAberration p mjd) (apex mjd) =
      dot (xyz p) (cross (xyz (applyAberration p mjd)) (xyz (apex mjd))) := by
    unfold handed; rw [skyDir_eq, skyDir_eq, skyDir_eq]; unfold dot cross; simp only
  rw [hha, hx]
  generalize hS : Real.sqrt (1 + (0.99365E-4) ^ 2 * (1 - dot (xyz p) (xyz (apex mjd)) ^ 2)) = S at *
  have hS2 : S ^ 2 = 1 + (0.99365E-4) ^ 2 * (1 - dot (xyz p) (xyz (apex mjd)) ^ 2) := by
    rw [← hS, Real.sq_sqrt]
    have : (0:ℝ) ≤ (0.99365E-4) ^ 2 * (1 - dot (xyz p) (xyz (apex mjd)) ^ 2) := mul_nonneg (sq_nonneg _) hc
    linarith
  generalize xyz p = t at *
  generalize xyz (apex mjd) = a at *
  generalize hv : (0.99365E-4 : ℝ) = v at *
  have hv0 : 0 < v ∧ v < 1 := by rw [← hv]; norm_num
  refine ⟨?_, ?_, ?_⟩
  · have e : dot t (smul (1 / S) (vadd t (smul v (vadd a (smul (-dot t a) t))))) =
        1 / S * (dot t t + v * (dot t a - dot t a * dot t t)) := by
      unfold dot smul vadd; simp only; ring
    rw [e, hpp]; ring
  · unfold dot cross smul vadd; simp only; ring
  · have e : dot (smul (1 / S) (vadd t (smul v (vadd a (smul (-dot t a) t))))) a =
        1 / S * (dot t a + v * (dot a a - dot t a * dot t a)) := by
      unfold dot smul vadd; simp only; ring
    rw [e, haa, one_div, inv_mul_eq_div, le_div_iff₀ hpos]
    generalize dot t a = c at *
    have hS1 : 1 ≤ S := by nlinarith [mul_nonneg (sq_nonneg v) hc]
    have hSle : S ≤ 1 + v ^ 2 * (1 - c ^ 2) := by nlinarith
    have hc1 : c ≤ 1 := by nlinarith
    rcases le_total c 0 with h | h
    · nlinarith [mul_nonneg hv0.1.le hc]
    · have : c * S ≤ c * (1 + v ^ 2 * (1 - c ^ 2)) := mul_le_mul_of_nonneg_left hSle h
      have h5 : c * v ≤ 1 := by nlinarith
      nlinarith [mul_nonneg (mul_nonneg hv0.1.le hc) (by linarith : (0:ℝ) ≤ 1 - c * v)]

/-- C61: the shift is at most 20.5 arcsec. -/
theorem C61_size (p : ℝ × ℝ) (mjd : ℝ) :
    Real.cos (20.5 / 3600 * (Real.pi / 180)) ≤ cosSep p (applyAberration p mjd) := by
  rw [(C61_aberration p mjd).1]
  have hb : 1 + (0.99365E-4 : ℝ) ^ 2 * (1 - cosSep p (apex mjd) ^ 2) ≤ 1 + (0.99365E-4) ^ 2 := by
    nlinarith [mul_nonneg (sq_nonneg (0.99365E-4 : ℝ)) (sq_nonneg (cosSep p (apex mjd)))]
  have hs : Real.sqrt (1 + (0.99365E-4 : ℝ) ^ 2 * (1 - cosSep p (apex mjd) ^ 2)) ≤ 1 + (0.99365E-4) ^ 2 / 2 := by
    refine (Real.sqrt_le_sqrt hb).trans ?_
    rw [Real.sqrt_le_left (by positivity)]
    nlinarith [sq_nonneg ((0.99365E-4 : ℝ) ^ 2)]
  have hpos : 0 < Real.sqrt (1 + (0.99365E-4 : ℝ) ^ 2 * (1 - cosSep p (apex mjd) ^ 2)) := by
    have := (aberr_vec p mjd).1
    rwa [cosSep_eq]
  have h1 : 1 - (0.99365E-4 : ℝ) ^ 2 / 2 ≤ 1 / Real.sqrt (1 + (0.99365E-4 : ℝ) ^ 2 * (1 - cosSep p (apex mjd) ^ 2)) := by
    rw [le_div_iff₀ hpos]
    have : (0:ℝ) ≤ 1 - (0.99365E-4 : ℝ) ^ 2 / 2 := by norm_num
    refine (mul_le_mul_of_nonneg_left hs this).trans ?_
    nlinarith [sq_nonneg ((0.99365E-4 : ℝ) ^ 2)]
  refine le_trans ?_ h1
  have hp1 := Real.pi_gt_d6
  have hp2 := Real.pi_lt_d6
  generalize hx : 20.5 / 3600 * (Real.pi / 180) = x
  have hx1 : 9.9386E-5 < x := by rw [← hx]; norm_num at hp1 ⊢; linarith
  have hx2 : x < 9.94E-5 := by rw [← hx]; norm_num at hp2 ⊢; linarith
  have hx0 : 0 < x := lt_trans (by norm_num) hx1
  have hb := Real.cos_bound (x := x) (by rw [abs_of_pos hx0]; linarith [show (9.94E-5:ℝ) < 1 by norm_num])
  rw [abs_of_pos hx0] at hb
  have hb2 := (abs_le.1 hb).2
  have h2 : (9.9386E-5 : ℝ) ^ 2 ≤ x ^ 2 := by gcongr
  have h4 : x ^ 4 ≤ (9.94E-5 : ℝ) ^ 4 := by gcongr
  norm_num at h2 h4 ⊢
  linarith

end Verif.Props
