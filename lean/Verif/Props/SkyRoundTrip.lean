import Verif.Lemmas.SkyRoundTrip

/-!
# Property C125: sky to tangent plane and back with every correction (`transform/radec2tan.py`)
-/

namespace Verif.Props
open Verif.Py Verif.Model.Trig Verif.Model.Radec2tan Verif.Spec Verif.Lemmas.Trig Verif.Lemmas.Sky
  Verif.Lemmas.Refraction Verif.Lemmas.Radec2tan Verif.Lemmas.SkyRoundTrip

/-- An angle in arcseconds is larger than a chord. -/
theorem sep_of_gap {p q : ℝ × ℝ} {g a : ℝ} (h : gap (xyz p) (xyz q) ≤ g) (ha : g < a * 4.8481e-6) (ha1 : a ≤ 1) :
    Real.cos (a / 3600 * (Real.pi / 180)) ≤ cosSep p q := by
  have hg0 := (gap_nonneg (xyz p) (xyz q)).trans h
  have hg := gap_cosSep p q
  have hs := pow_le_pow_left₀ (gap_nonneg _ _) h 2
  have hp1 := Real.pi_gt_d6
  have hp2 := Real.pi_lt_d6
  have ha0 : 0 < a := by
    by_contra hc
    have : a * 4.8481e-6 ≤ 0 := mul_nonpos_of_nonpos_of_nonneg (not_lt.1 hc) (by norm_num)
    linarith
  generalize hx : a / 3600 * (Real.pi / 180) = x
  have hx1 : a * 4.84813e-6 < x := by rw [← hx]; norm_num at hp1 ⊢; nlinarith
  have hx2 : x < 1e-5 := by rw [← hx]; norm_num at hp2 ⊢; nlinarith
  have hx0 : 0 < x := lt_trans (by positivity) hx1
  have hb := Real.cos_bound (x := x) (by rw [abs_of_pos hx0]; linarith [show (1e-5 : ℝ) < 1 by norm_num])
  rw [abs_of_pos hx0] at hb
  have hb2 := (abs_le.1 hb).2
  have h4 : x ^ 4 ≤ 1e-10 * x ^ 2 := by
    have : x ^ 2 ≤ (1e-5) ^ 2 := pow_le_pow_left₀ hx0.le hx2.le 2
    have h5 := mul_le_mul_of_nonneg_right this (sq_nonneg x)
    norm_num at h5 ⊢
    linarith
  have hgx : g * (1 + 6e-6) ≤ x := by
    norm_num at ha hx1 ⊢
    nlinarith
  have hgx2 : (g * (1 + 6e-6)) ^ 2 ≤ x ^ 2 := pow_le_pow_left₀ (by positivity) hgx 2
  norm_num at hgx2 hb2 h4 ⊢
  nlinarith [sq_nonneg g, sq_nonneg x]

theorem cosd_low {d z e : ℝ} (h0 : -90 ≤ d) (h1 : d ≤ 90) (hz : |z| ≤ cosd 10) (he : |sind d - z| ≤ e) (he1 : e ≤ 1.1e-4) : 0.172 ≤ cosd d := by
  have hc := cosd_nonneg h0 h1
  have hcs := sq_cosd_sind d
  have h10 := sq_cosd_sind 10
  have s10 := sind_10
  have c10 : cosd 10 ≤ 1 := Real.cos_le_one _
  have hs : |sind d| ≤ cosd 10 + 1.1e-4 := by
    have := abs_sub_abs_le_abs_sub (sind d) z
    linarith
  have hs2 := pow_le_pow_left₀ (abs_nonneg _) hs 2
  rw [sq_abs] at hs2
  have hs3 : (173 / 1000 : ℝ) ^ 2 ≤ sind 10 ^ 2 := pow_le_pow_left₀ (by norm_num) s10.le 2
  norm_num at hs2 hs3 ⊢
  nlinarith

/-- Aberration undone for a position close to one with aberration. -/
theorem undo_gap (x P : ℝ × ℝ) (mjd e : ℝ) (h0 : -90 ≤ x.2) (h1 : x.2 ≤ 90) (hd : |(applyAberration P mjd).2| ≤ 80)
    (he : gap (xyz x) (xyz (applyAberration P mjd)) ≤ e) (he1 : e ≤ 5e-7) : gap (xyz (undoAberration x mjd)) (xyz P) ≤ e + 1.3e-7 := by
  have ha := norm_E (xyz_unit (apex mjd))
  have hx := norm_E (xyz_unit x)
  have hP := norm_E (xyz_unit P)
  have hq := aberration_moved x mjd
  have hr : SkyRange (applyAberration x mjd) := lonlat_range _
  -- declinations
  have hz : |sind (applyAberration P mjd).2| ≤ cosd 10 := by
    have e80 : cosd 10 = sind 80 := by rw [show (80 : ℝ) = 90 - 10 by norm_num, sind_sub, sind_90, cosd_90]; ring
    rw [abs_le] at hd
    have m1 : ∀ d : ℝ, -80 ≤ d → d ≤ 80 → sind d ≤ sind 80 := by
      intro d hd1 hd2
      rcases le_total 0 d with h | h
      · exact sind_mono h hd2 (by norm_num)
      · have h2 := sind_mono (x := 0) (y := -d) le_rfl (by linarith) (by linarith)
        rw [sind_neg, sind_zero] at h2
        have h3 := sind_mono (x := 0) (y := 80) le_rfl (by norm_num) (by norm_num)
        rw [sind_zero] at h3
        linarith
    rw [e80, abs_le]
    have m2 := m1 (-(applyAberration P mjd).2) (by linarith [hd.2]) (by linarith [hd.1])
    rw [sind_neg] at m2
    exact ⟨by linarith, m1 _ hd.1 hd.2⟩
  have hz1 := gap_z (xyz x) (xyz (applyAberration P mjd))
  have hmove : gap (xyz x) (xyz (applyAberration x mjd)) ≤ κ + κ ^ 2 / 2 := by
    rw [gap_comm]
    unfold gap
    rw [hq]
    exact moved_near ha hx
  have hz2 := gap_z (xyz (applyAberration x mjd)) (xyz (applyAberration P mjd))
  have hz3 := gap_triangle (xyz (applyAberration x mjd)) (xyz x) (xyz (applyAberration P mjd))
  rw [gap_comm _ (xyz x)] at hz3
  have hk : κ + κ ^ 2 / 2 ≤ 9.937e-5 := by unfold κ; norm_num
  have c1 : 0.172 ≤ cosd x.2 := cosd_low h0 h1 hz (hz1.trans he) (he1.trans (by norm_num))
  have c2 : 0.172 ≤ cosd (applyAberration x mjd).2 :=
    cosd_low hr.2.2.1 hr.2.2.2 hz (hz2.trans (hz3.trans (add_le_add (hmove.trans hk) (he.trans he1)))) (by norm_num)
  have hm := mirror x.1 x.2 (applyAberration x mjd).1 (applyAberration x mjd).2 0.172 ((9.937e-5) ^ 2) (by norm_num) c1 c2
    (pow_le_pow_left₀ (gap_nonneg _ _) (hmove.trans hk) 2)
  have hm' : ‖E (xyz (undoAberration x mjd)) - ((2 : ℝ) • E (xyz x) - E (xyz (applyAberration x mjd)))‖ ≤ 1e-7 := by
    apply le_of_sq_le_sq _ (by norm_num)
    refine hm.trans (by norm_num)
  have hu := undone ha hx hP
  rw [← hq] at hu
  have hg : ‖E (xyz x) - moved (E (xyz (apex mjd))) (E (xyz P))‖ ≤ e := by
    rw [← aberration_moved]
    exact he
  have t := norm_sub_le_norm_sub_add_norm_sub (E (xyz (undoAberration x mjd))) ((2 : ℝ) • E (xyz x) - E (xyz (applyAberration x mjd))) (E (xyz P))
  generalize ‖E (xyz x) - moved (E (xyz (apex mjd))) (E (xyz P))‖ = n at *
  have : 2 * κ * (κ + κ ^ 2 / 2 + n) ≤ 2 * κ * (κ + κ ^ 2 / 2 + 5e-7) :=
    mul_le_mul_of_nonneg_left (by linarith) (by unfold κ; norm_num)
  have hnum : 2 * κ * (κ + κ ^ 2 / 2 + 5e-7) + κ ^ 2 ≤ 3e-8 := by unfold κ; norm_num
  unfold gap
  norm_num at *
  linarith

/-- **C125** Aberration applied and undone comes back within 0.03 arcseconds for apparent declinations up to 80 degrees. -/
theorem C125_aberration (p : ℝ × ℝ) (mjd : ℝ) (hd : |(applyAberration p mjd).2| ≤ 80) :
    Real.cos (0.03 / 3600 * (Real.pi / 180)) ≤ cosSep (undoAberration (applyAberration p mjd) mjd) p := by
  have hr : SkyRange (applyAberration p mjd) := lonlat_range _
  have h := undo_gap (applyAberration p mjd) p mjd 0 hr.2.2.1 hr.2.2.2 hd (by unfold gap; simp) (by norm_num)
  exact sep_of_gap h (by norm_num) (by norm_num)

/-- **C125** The polar misalignment applied and undone comes back within 0.005 arcseconds for every position, with the matrices of the table
and with those computed. -/
theorem C125_polar (sw : Switches) (h : ℝ × ℝ) :
    Real.cos (0.005 / 3600 * (Real.pi / 180)) ≤
      cosSep (getLONLAT ((polmisInv sw).app (xyz (getLONLAT ((polmis sw).app (xyz h)))))) h := by
  have := mount_back sw (xyz h) (xyz (getLONLAT ((polmis sw).app (xyz h)))) (xyz_unit _) (xyz_unit _) 0 (by unfold gap; simp) (by norm_num)
  exact sep_of_gap this (by norm_num) (by norm_num)

theorem gap_lst (lst : ℝ) (p q : ℝ × ℝ) : gap (xyz (lst - p.1, p.2)) (xyz (lst - q.1, q.2)) = gap (xyz p) (xyz q) := by
  have h1 := gap_cosSep (lst - p.1, p.2) (lst - q.1, q.2)
  rw [cosSep_lst, ← gap_cosSep] at h1
  exact (pow_left_inj₀ (gap_nonneg _ _) (gap_nonneg _ _) (by norm_num)).1 h1

/-- The distance on the sky after the round trip, from that left by the refraction. -/
theorem round_gap (sw : Switches) (p tel : ℝ × ℝ) (mjd lst hexrot t az r : ℝ) (ht : hadec2altaz (mount sw lst (apparent sw mjd p)) = (t, az))
    (h1 : 1 ≤ t) (h2 : t ≤ 90)
    (hv : 0 ≤ cosSep (refract (mount sw lst (apparent sw mjd p))) (refract (mount sw lst (apparent sw mjd tel))))
    (hd : sw.aberration = true → |(apparent sw mjd p).2| ≤ 80)
    (hr : |undoRefraction (applyRefraction t) - t| * (Real.pi / 180) ≤ r) (hr1 : r ≤ 1e-7) :
    gap (xyz (tan2radec sw (radec2tan sw p tel mjd lst hexrot) tel mjd lst hexrot)) (xyz p) ≤ r + 2.1e-8 + 1.3e-7 := by
  have hr0 : 0 ≤ r := le_trans (by have := Real.pi_pos; positivity) hr
  rw [C19_hexrot_undone]
  unfold tan2radec radec2tan
  simp only [cosd_zero, sind_zero, one_mul, zero_mul, sub_zero, add_zero, zero_add, neg_zero]
  have hround := refract_round ht h1 h2 hv
  dsimp only at hround
  -- what is left by the refraction
  have gA : ∀ w : ℝ × ℝ, xyz w = horizon.app (xyz (az, undoRefraction (applyRefraction t))) →
      gap (xyz w) (xyz (mount sw lst (apparent sw mjd p))) ≤ r := by
    intro w hw
    have h3 := xyz_altaz (mount sw lst (apparent sw mjd p))
    rw [ht] at h3
    rw [hw, ← horizon_self (xyz (mount sw lst (apparent sw mjd p))), ← h3, gap_horizon]
    apply le_of_sq_le_sq _ hr0
    rw [gap_unit (xyz_unit _) (xyz_unit _), dot_alt]
    have hc := Real.one_sub_sq_div_two_le_cos (x := radians (undoRefraction (applyRefraction t) - t))
    have hrr : radians (undoRefraction (applyRefraction t) - t) ^ 2 ≤ r ^ 2 := by
      rw [← sq_abs]
      refine pow_le_pow_left₀ (abs_nonneg _) (le_trans (le_of_eq ?_) hr) 2
      unfold radians
      rw [abs_mul, abs_of_pos (by have := Real.pi_pos; positivity : 0 < Real.pi / 180)]
    change 2 - 2 * Real.cos (radians _) ≤ _
    linarith
  have gA' := gA _ hround
  -- the pointing of the telescope is of no further interest
  generalize hw : altaz2hadec _ = w at hround gA' ⊢
  have hwr : -90 ≤ w.2 ∧ w.2 ≤ 90 := by rw [← hw]; exact arcsind_range _
  -- back from the mount
  obtain ⟨k, hk⟩ : ∃ k, k = if sw.polarMisalignment = true then getLONLAT ((polmisInv sw).app (getXYZ w.1 w.2)) else w := ⟨_, rfl⟩
  rw [← hk]
  have gB : gap (xyz k) (xyz (lst - (apparent sw mjd p).1, (apparent sw mjd p).2)) ≤ r + 2.1e-8 := by
    unfold mount at gA'
    dsimp only at gA'
    rw [hk]
    split_ifs at gA' ⊢ with hp
    · exact mount_back sw _ _ (xyz_unit _) (xyz_unit _) r gA' (hr1.trans (by norm_num))
    · exact gA'.trans (by norm_num)
  have hkr : -90 ≤ k.2 ∧ k.2 ≤ 90 := by
    rw [hk]
    split_ifs
    · exact ⟨(lonlat_range _).2.2.1, (lonlat_range _).2.2.2⟩
    · exact hwr
  have gC : gap (xyz (lst - k.1, k.2)) (xyz (apparent sw mjd p)) ≤ r + 2.1e-8 := by
    have := gap_lst lst k (lst - (apparent sw mjd p).1, (apparent sw mjd p).2)
    simp only [sub_sub_cancel] at this
    rw [this]
    exact gB
  -- aberration
  obtain ⟨P, hP⟩ : ∃ P, P = if sw.precession = true then applyPrecessionFromIcrs p mjd else p := ⟨_, rfl⟩
  have hap : apparent sw mjd p = if sw.aberration = true then applyAberration P mjd else P := by rw [hP]; rfl
  obtain ⟨m, hm⟩ : ∃ m, m = if sw.aberration = true then undoAberration (lst - k.1, k.2) mjd else (lst - k.1, k.2) := ⟨_, rfl⟩
  rw [← hm]
  have gD : gap (xyz m) (xyz P) ≤ r + 2.1e-8 + 1.3e-7 := by
    rw [hap] at gC hd
    rw [hm]
    split_ifs at gC hd ⊢ with hb
    · exact undo_gap _ P mjd _ hkr.1 hkr.2 (hd hb) gC (by norm_num at hr1 ⊢; linarith)
    · exact gC.trans (by norm_num)
  -- precession
  by_cases hpr : sw.precession = true
  · simp only [hpr, if_true] at hP ⊢
    have hinv : xyz p = xyz (undoPrecessionFromIcrs (applyPrecessionFromIcrs p mjd) mjd) := by
      unfold undoPrecessionFromIcrs applyPrecessionFromIcrs
      rw [xyz_precession_add, show (mjd - ICRS_MJD) / DAYS_PER_YEAR + (ICRS_MJD - mjd) / DAYS_PER_YEAR = 0 by ring]
      exact (xyz_precession_zero p).symm
    rw [hinv, ← hP]
    unfold undoPrecessionFromIcrs
    rw [xyz_precession, xyz_precession, gap_orth (vecX_orth _), gap_orth (vecZ_orth _), gap_orth (vecX_orth _)]
    exact gD
  · simp only [hpr, if_false, Bool.false_eq_true] at hP ⊢
    rw [← hP]
    exact gD

/-- **C125** To the tangent plane and back, with every combination of the corrections: a target comes back within 0.032 arcseconds from
altitude 30 degrees up and within 0.052 arcseconds from altitude 10 degrees up. -/
theorem C125_round_trip (sw : Switches) (p tel : ℝ × ℝ) (mjd lst hexrot t az : ℝ)
    (ht : hadec2altaz (mount sw lst (apparent sw mjd p)) = (t, az)) (h2 : t ≤ 90)
    (hv : 0 ≤ cosSep (refract (mount sw lst (apparent sw mjd p))) (refract (mount sw lst (apparent sw mjd tel))))
    (hd : sw.aberration = true → |(apparent sw mjd p).2| ≤ 80) :
    (30 ≤ t → Real.cos (0.032 / 3600 * (Real.pi / 180)) ≤ cosSep (tan2radec sw (radec2tan sw p tel mjd lst hexrot) tel mjd lst hexrot) p) ∧
    (10 ≤ t → Real.cos (0.052 / 3600 * (Real.pi / 180)) ≤ cosSep (tan2radec sw (radec2tan sw p tel mjd lst hexrot) tel mjd lst hexrot) p) := by
  obtain ⟨-, u10, u30⟩ := C20_undo t h2
  have hp := Real.pi_pos
  have hp2 := Real.pi_lt_d6
  constructor
  · intro h
    have hr : |undoRefraction (applyRefraction t) - t| * (Real.pi / 180) ≤ 4.9e-10 := by
      refine (mul_le_mul_of_nonneg_right (u30 h) (by positivity)).trans ?_
      norm_num at hp2 ⊢
      linarith
    exact sep_of_gap (round_gap sw p tel mjd lst hexrot t az _ ht (by linarith) h2 hv hd hr (by norm_num)) (by norm_num) (by norm_num)
  · intro h
    have hr : |undoRefraction (applyRefraction t) - t| * (Real.pi / 180) ≤ 9.7e-8 := by
      refine (mul_le_mul_of_nonneg_right (u10 h) (by positivity)).trans ?_
      norm_num at hp2 ⊢
      linarith
    exact sep_of_gap (round_gap sw p tel mjd lst hexrot t az _ ht (by linarith) h2 hv hd hr (by norm_num)) (by norm_num) (by norm_num)

theorem aberration_dir {p q : ℝ × ℝ} (mjd : ℝ) (h : xyz p = xyz q) : applyAberration p mjd = applyAberration q mjd := by
  have h' : getXYZ p.1 p.2 = getXYZ q.1 q.2 := h
  unfold applyAberration radec2eclip
  rw [h']

/-- **C125** (finding) At the celestial pole the aberration is not undone: the coordinates are reflected one by one, so the result depends on
the right ascension the pole is given.  With one right ascension, the direction that comes out is the one with the aberration applied again,
at least 17 arcseconds from the pole on the wrong side; with another one it is the opposite point, on the right side. -/
theorem C125_pole (mjd : ℝ) : ∃ A D : ℝ, (∀ r, applyAberration (r, 90) mjd = (A, D)) ∧
    skyDir (undoAberration (A + 90, 90) mjd) = skyDir (applyAberration (A + 90, 90) mjd) ∧
    skyDir (undoAberration (A, 90) mjd) = skyDir (A + 180, D) ∧
    ∀ r, cosSep (r, 90) (undoAberration (A + 90, 90) mjd) ≤ Real.cos (17 / 3600 * (Real.pi / 180)) := by
  have hpole : ∀ r, xyz (r, (90 : ℝ)) = ⟨0, 0, 1⟩ := by
    intro r
    unfold xyz getXYZ
    simp only [cosd_90, sind_90]
    apply V3.ext <;> simp
  have hall : ∀ r, applyAberration (r, 90) mjd = applyAberration (0, 90) mjd := fun r => aberration_dir mjd (by rw [hpole, hpole])
  obtain ⟨A, hA⟩ : ∃ A, A = (applyAberration (0, 90) mjd).1 := ⟨_, rfl⟩
  obtain ⟨D, hD⟩ : ∃ D, D = (applyAberration (0, 90) mjd).2 := ⟨_, rfl⟩
  have hr : ∀ r, applyAberration (r, 90) mjd = (A, D) := fun r => by rw [hall, hA, hD]
  have c180 : ∀ x, cosd (x + 180) = -cosd x := by
    intro x
    rw [show x + 180 = x + 90 + 90 by ring, cosd_add, cosd_add, sind_add, cosd_90, sind_90]
    ring
  have s180 : ∀ x, sind (x + 180) = -sind x := by
    intro x
    rw [show x + 180 = x + 90 + 90 by ring, sind_add, cosd_add, sind_add, cosd_90, sind_90]
    ring
  have cm : ∀ x, cosd (2 * 90 - x) = -cosd x := by
    intro x
    have e := c180 (-x)
    rw [show 2 * 90 - x = -x + 180 by ring, e]
    unfold cosd radians
    rw [neg_mul, Real.cos_neg]
  have sm : ∀ x, sind (2 * 90 - x) = sind x := by
    intro x
    have e := s180 (-x)
    rw [show 2 * 90 - x = -x + 180 by ring, e, sind_neg, neg_neg]
  have hwrong : skyDir (undoAberration (A + 90, 90) mjd) = skyDir (applyAberration (A + 90, 90) mjd) := by
    rw [skyDir_iff]
    unfold undoAberration
    rw [hr]
    unfold xyz getXYZ
    simp only [cm, sm]
    rw [show 2 * (A + 90) - A = A + 180 by ring, c180, s180]
    apply V3.ext <;> simp only <;> ring
  refine ⟨A, D, hr, hwrong, ?_, ?_⟩
  · rw [skyDir_iff]
    unfold undoAberration
    rw [hr]
    unfold xyz getXYZ
    simp only [cm, sm]
    rw [show 2 * A - A = A by ring, c180, s180]
    apply V3.ext <;> simp only <;> ring
  · intro r
    have e1 : cosSep (r, 90) (undoAberration (A + 90, 90) mjd) = cosSep (0, 90) (applyAberration (0, 90) mjd) := by
      apply cosSep_congr
      · rw [hpole, hpole]
      · rw [← skyDir_iff, hwrong, hr, hr]
    rw [e1, (C61_aberration (0, 90) mjd).1]
    -- the apex is on the ecliptic
    have hz : cosSep (0, 90) (apex mjd) = sind OBLIQ * sind (getSunLon mjd - 90) := by
      rw [cosSep_eq, hpole]
      unfold apex
      rw [xyz_radec]
      unfold vecX M3.app dot xyz getXYZ
      simp only [sind_zero, cosd_zero]
      ring
    have ho : sind OBLIQ ≤ 1 / 2 := by
      rw [← sind_30]
      exact sind_mono (by unfold OBLIQ; norm_num) (by unfold OBLIQ; norm_num) (by norm_num)
    have ho0 : 0 ≤ sind OBLIQ := by
      have := sind_mono (x := 0) (y := OBLIQ) le_rfl (by unfold OBLIQ; norm_num) (by unfold OBLIQ; norm_num)
      rwa [sind_zero] at this
    have hb : 1 + (8.6e-5 : ℝ) ^ 2 ≤ 1 + (0.99365E-4) ^ 2 * (1 - cosSep (0, 90) (apex mjd) ^ 2) := by
      rw [hz, mul_pow]
      have hs : sind (getSunLon mjd - 90) ^ 2 ≤ 1 := by nlinarith [sq_cosd_sind (getSunLon mjd - 90), sq_nonneg (cosd (getSunLon mjd - 90))]
      have ho2 : sind OBLIQ ^ 2 ≤ (1 / 2) ^ 2 := pow_le_pow_left₀ ho0 ho 2
      have := mul_le_mul ho2 hs (sq_nonneg _) (by norm_num)
      norm_num at this ⊢
      linarith
    have hp1 := Real.pi_gt_d6
    have hp2 := Real.pi_lt_d6
    generalize hx : 17 / 3600 * (Real.pi / 180) = x
    have hx0 : 0 ≤ x := by rw [← hx]; positivity
    have hx2 : x ≤ 8.3e-5 := by rw [← hx]; norm_num at hp2 ⊢; linarith
    have hxx : x ^ 2 ≤ (8.3e-5) ^ 2 := pow_le_pow_left₀ hx0 hx2 2
    have hS : 1 + 3.6e-9 ≤ Real.sqrt (1 + (0.99365E-4) ^ 2 * (1 - cosSep (0, 90) (apex mjd) ^ 2)) := by
      apply Real.le_sqrt_of_sq_le
      refine le_trans (by norm_num) hb
    have hc := Real.one_sub_sq_div_two_le_cos (x := x)
    refine le_trans ?_ hc
    rw [div_le_iff₀ (by norm_num at hS ⊢; linarith)]
    have h1 : 1 - 3.5e-9 ≤ 1 - x ^ 2 / 2 := by norm_num at hxx ⊢; linarith
    calc (1 : ℝ) ≤ (1 - 3.5e-9) * (1 + 3.6e-9) := by norm_num
      _ ≤ _ := mul_le_mul h1 hS (by norm_num) (le_trans (by norm_num) h1)

/-- The zenith seen with every correction on, pointing at itself, meets the hypotheses. -/
theorem zenith_case : ∃ (sw : Switches) (p tel : ℝ × ℝ) (mjd lst t az : ℝ), tel = p ∧ sw.precession = true ∧ sw.aberration = true ∧ sw.polarMisalignment = true ∧
    hadec2altaz (mount sw lst (apparent sw mjd p)) = (t, az) ∧ 30 ≤ t ∧ t ≤ 90 ∧
    0 ≤ cosSep (refract (mount sw lst (apparent sw mjd p))) (refract (mount sw lst (apparent sw mjd tel))) ∧
    |(apparent sw mjd p).2| ≤ 80 := by
  obtain ⟨sw, hsw⟩ : ∃ sw : Switches, sw = ⟨true, true, true, true⟩ := ⟨_, rfl⟩
  obtain ⟨p, hp⟩ : ∃ p, p = undoPrecessionFromIcrs (0, LATITUDE) 59000 := ⟨_, rfl⟩
  obtain ⟨q, hq⟩ : ∃ q, q = apparent sw 59000 p := ⟨_, rfl⟩
  have hxp : xyz (applyPrecessionFromIcrs p 59000) = xyz (0, LATITUDE) := by
    rw [hp]
    unfold undoPrecessionFromIcrs applyPrecessionFromIcrs
    rw [xyz_precession_add, show (ICRS_MJD - 59000) / DAYS_PER_YEAR + (59000 - ICRS_MJD) / DAYS_PER_YEAR = 0 by ring, xyz_precession_zero]
  have hqa : q = applyAberration (0, LATITUDE) 59000 := by
    rw [hq, hsw]
    unfold apparent
    simp only [if_true]
    exact aberration_dir _ hxp
  have hl : LATITUDE = 31.96403 := rfl
  have hk : κ + κ ^ 2 / 2 ≤ 1e-4 := by unfold κ; norm_num
  have hg : gap (xyz q) (xyz (0, LATITUDE)) ≤ 1e-4 := by
    unfold gap
    rw [hqa, aberration_moved]
    exact (moved_near (norm_E (xyz_unit _)) (norm_E (xyz_unit _))).trans hk
  have hr : SkyRange q := by rw [hqa]; exact lonlat_range _
  -- the altitude
  obtain ⟨h, hh⟩ : ∃ h, h = mount sw 0 q := ⟨_, rfl⟩
  have hzq : 0.99 ≤ (horizon.app (xyz (0 - q.1, q.2))).z := by
    have h1 : (horizon.app (xyz (0 - q.1, q.2))).z = dot (xyz q) (xyz (0, LATITUDE)) := by
      rw [horizon_xyz, zero_sub]
      unfold dot xyz getXYZ
      simp only [cosd_zero, sind_zero]
      rw [show cosd (-q.1) = cosd q.1 by unfold cosd radians; rw [neg_mul, Real.cos_neg]]
      ring
    have h2 := gap_unit (xyz_unit q) (xyz_unit (0, LATITUDE))
    have h3 := pow_le_pow_left₀ (gap_nonneg _ _) hg 2
    rw [h1]
    norm_num at h3 ⊢
    linarith
  have hmg : gap (xyz h) (xyz (0 - q.1, q.2)) ≤ 1e-2 := by
    have e : h = getLONLAT ((polmis sw).app (xyz (0 - q.1, q.2))) := by rw [hh, hsw]; rfl
    have i1 := iso_polmis sw (xyz (0 - q.1, q.2))
    rw [(unit_dot _).1 (xyz_unit _), mul_one] at i1
    have l1 := lonlat_close i1
    rw [← e] at l1
    have hu := xyz_unit (0 - q.1, q.2)
    generalize xyz (0 - q.1, q.2) = v at *
    have hu2 := hu
    unfold Unit3 at hu
    have hx : |v.x| ≤ 1 := abs_le_one_iff_mul_self_le_one.2 (by nlinarith [sq_nonneg v.y, sq_nonneg v.z])
    have hy : |v.y| ≤ 1 := abs_le_one_iff_mul_self_le_one.2 (by nlinarith [sq_nonneg v.x, sq_nonneg v.z])
    have hz : |v.z| ≤ 1 := abs_le_one_iff_mul_self_le_one.2 (by nlinarith [sq_nonneg v.y, sq_nonneg v.x])
    rw [abs_le] at hx hy hz
    have sq : ∀ {a b : ℝ}, |a| ≤ b → a ^ 2 ≤ b ^ 2 := fun {a b} h => by rw [← sq_abs]; exact pow_le_pow_left₀ (abs_nonneg _) h 2
    have l2 : gap ((polmis sw).app v) v ≤ 5e-3 := by
      rw [hsw]
      unfold polmis hardcodedPolmis M3.app
      simp only [if_true, Bool.false_eq_true, if_false]
      apply gap_le (by norm_num)
      unfold dot
      simp only
      have a1 : |0.9999998307680928 * v.x + -2.39201543887982e-09 * v.y + -0.0005817764052553344 * v.z - v.x| ≤ 1e-3 := by
        rw [abs_le]; norm_num; constructor <;> linarith [hx.1, hx.2, hy.1, hy.2, hz.1, hz.2]
      have a2 : |-2.392015438880827e-09 * v.x + 0.9999999999661899 * v.y + -8.223142825420777e-06 * v.z - v.y| ≤ 1e-3 := by
        rw [abs_le]; norm_num; constructor <;> linarith [hx.1, hx.2, hy.1, hy.2, hz.1, hz.2]
      have a3 : |0.0005817764052553344 * v.x + 8.223142825420777e-06 * v.y + 0.9999998307342828 * v.z - v.z| ≤ 1e-3 := by
        rw [abs_le]; norm_num; constructor <;> linarith [hx.1, hx.2, hy.1, hy.2, hz.1, hz.2]
      refine (add_le_add (add_le_add (sq a1) (sq a2)) (sq a3)).trans (by norm_num)
    refine (gap_triangle _ _ _).trans ((add_le_add l1 l2).trans (by norm_num))
  have hzh : 0.9 ≤ (horizon.app (xyz h)).z := by
    have h1 := gap_z (horizon.app (xyz h)) (horizon.app (xyz (0 - q.1, q.2)))
    rw [gap_horizon, abs_le] at h1
    norm_num at hmg hzq h1 ⊢
    linarith [h1.1]
  have hu := horizon_unit (xyz_unit h)
  have halt := xyz_altaz h
  have hlon := xyz_lonlat hu
  have hs : sind (getLONLAT (horizon.app (xyz h))).2 = (horizon.app (xyz h)).z := congrArg V3.z hlon
  have hrr := lonlat_range (horizon.app (xyz h))
  have h30 : 30 ≤ (getLONLAT (horizon.app (xyz h))).2 := by
    by_contra hc
    rw [not_le] at hc
    have : sind (getLONLAT (horizon.app (xyz h))).2 ≤ 1 / 2 := by
      rw [← sind_30]
      rcases le_total 0 (getLONLAT (horizon.app (xyz h))).2 with h0 | h0
      · exact sind_mono h0 hc.le (by norm_num)
      · have h2 := sind_mono (x := 0) (y := -(getLONLAT (horizon.app (xyz h))).2) le_rfl (by linarith) (by linarith [hrr.2.2.1])
        rw [sind_neg, sind_zero] at h2
        rw [sind_30]
        linarith
    rw [hs] at this
    norm_num at hzh this
    linarith
  have ht := alt_of_dir (h := h) (az := (getLONLAT (horizon.app (xyz h))).1) (a := (getLONLAT (horizon.app (xyz h))).2) (by linarith) hrr.2.2.2
    (by rw [halt]; exact hlon.symm)
  refine ⟨sw, p, p, 59000, 0, (getLONLAT (horizon.app (xyz h))).2, (hadec2altaz h).2, rfl, by rw [hsw], by rw [hsw], by rw [hsw], ?_, h30, hrr.2.2.2, ?_, ?_⟩
  · rw [← hq, ← hh, ← ht]
  · rw [cosSep_eq, (unit_dot _).1 (xyz_unit _)]
    norm_num
  · rw [← hq]
    have hz := gap_z (xyz q) (xyz (0, LATITUDE))
    have hz' : |sind q.2 - sind LATITUDE| ≤ 1e-4 := hz.trans hg
    have s60 : sind LATITUDE ≤ sind 60 := sind_mono (by rw [hl]; norm_num) (by rw [hl]; norm_num) (by norm_num)
    have s0 : 0 ≤ sind LATITUDE := by
      have := sind_mono (x := 0) (y := LATITUDE) le_rfl (by rw [hl]; norm_num) (by rw [hl]; norm_num)
      rwa [sind_zero] at this
    have e60 : sind 60 ^ 2 = 3 / 4 := by
      have h1 := sq_cosd_sind 60
      have h2 : cosd 60 = 1 / 2 := by rw [show (60 : ℝ) = 90 - 30 by norm_num, cosd_sub, cosd_90, sind_90, sind_30]; ring
      rw [h2] at h1
      linarith
    have s60' : sind 60 ≤ 0.9 := by
      have : 0 ≤ sind 60 := by linarith
      norm_num
      nlinarith
    have s80 : 0.95 ≤ sind 80 := by
      have e80 : sind 80 = cosd 10 := by rw [show (80 : ℝ) = 90 - 10 by norm_num, sind_sub, sind_90, cosd_90]; ring
      have h1 := sq_cosd_sind 10
      have h2 : sind 10 ≤ 0.2 := by
        have h := small (a := 10) (by norm_num)
        have := Real.pi_lt_d6
        have h3 := le_abs_self (sind 10)
        norm_num at this ⊢
        linarith
      have h3 : 0 ≤ sind 10 := le_trans (by norm_num) sind_10.le
      have h4 := cosd_nonneg (x := 10) (by norm_num) (by norm_num)
      rw [e80]
      norm_num at h2 ⊢
      nlinarith
    rw [abs_le] at hz' ⊢
    norm_num at hz' s60' s80
    constructor
    · by_contra hc
      rw [not_le] at hc
      have := sind_mono (x := 80) (y := -q.2) (by norm_num) (by linarith) (by linarith [hr.2.2.1])
      rw [sind_neg] at this
      linarith [hz'.1, hz'.2]
    · by_contra hc
      rw [not_le] at hc
      have := sind_mono (x := 80) (y := q.2) (by norm_num) (by linarith) (by linarith [hr.2.2.2])
      linarith [hz'.1, hz'.2]

/-- Hypotheses of the round trip are met with every correction on. -/
example : ∃ (sw : Switches) (p tel : ℝ × ℝ) (mjd lst t az : ℝ), sw.precession = true ∧ sw.aberration = true ∧ sw.polarMisalignment = true ∧
    hadec2altaz (mount sw lst (apparent sw mjd p)) = (t, az) ∧ 30 ≤ t ∧ t ≤ 90 ∧
    0 ≤ cosSep (refract (mount sw lst (apparent sw mjd p))) (refract (mount sw lst (apparent sw mjd tel))) ∧
    |(apparent sw mjd p).2| ≤ 80 := by
  obtain ⟨sw, p, tel, mjd, lst, t, az, -, h⟩ := zenith_case
  exact ⟨sw, p, tel, mjd, lst, t, az, h⟩

end Verif.Props
