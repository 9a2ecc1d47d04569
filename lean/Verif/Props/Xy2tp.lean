import Verif.Lemmas.Xy2tp

/-!
# Properties C01 - C06: the positioner kinematics (`transform/xy2tp.py`)

Throughout, `contraction` (2.2e-15) is the code's rim contraction; the
hypotheses `contraction ≤ r1`, `contraction ≤ r2` say the arms are not absurdly
short (real arms are about 3).
-/

namespace Verif.Props
open Verif.Py Verif.Model.Xy2tp Verif.Spec Verif.Lemmas.Xy2tp

/-! ## C01 -/

/-- C01: an unflagged answer reaches the requested point to within the rim
contraction. -/
theorem C01_unflagged_reaches {x y r1 r2 : ℝ} (h1 : contraction ≤ r1) (h2 : contraction ≤ r2)
    {rg : Ranges} {guess : Option ℝ} {tol : ℝ} {tp : ℝ × ℝ}
    (h : xy2tp x y r1 r2 rg guess tol = .ok (tp, false)) :
    dist2 (tp2xy tp r1 r2) (x, y) ≤ contraction := by
  obtain ⟨tp0, ht, e⟩ := xy2tp_form (x := x) (y := y) h1 h2 rg guess tol
  rw [e] at h
  injection h with h
  injection h with ha hb
  rw [Bool.or_eq_false_iff] at hb
  rw [← ha, mkOpt_tip r1 r2 hb.2, dist2_eq, ht, aim_dist]
  exact clamp_near hb.1

/-- C01: away from the rims an unflagged answer reaches the requested point
exactly. -/
theorem C01_unflagged_exact {x y r1 r2 : ℝ} (h1 : contraction ≤ r1) (h2 : contraction ≤ r2)
    {rg : Ranges} {guess : Option ℝ} {tol : ℝ} {tp : ℝ × ℝ}
    (hl : |r1 - r2| + contraction ≤ radius (x, y)) (hu : radius (x, y) ≤ r1 + r2 - contraction)
    (h : xy2tp x y r1 r2 rg guess tol = .ok (tp, false)) :
    tp2xy tp r1 r2 = (x, y) := by
  obtain ⟨tp0, ht, e⟩ := xy2tp_form (x := x) (y := y) h1 h2 rg guess tol
  rw [e] at h
  injection h with h
  injection h with ha hb
  rw [Bool.or_eq_false_iff] at hb
  apply toC_inj
  rw [← ha, mkOpt_tip r1 r2 hb.2, ht]
  exact aim_eq hl hu

/-- C01: every call with usable arms returns an answer; a zero arm length makes
the call raise `ZeroDivisionError`. -/
theorem C01_total (x y r1 r2 : ℝ) (rg : Ranges) (guess : Option ℝ) (tol : ℝ) :
    (xy2tp x y r1 r2 rg guess tol = .error .zeroDivision ↔ (r1 = 0 ∨ r2 = 0)) ∧
    (¬ (r1 = 0 ∨ r2 = 0) → ∃ tp fl, xy2tp x y r1 r2 rg guess tol = .ok (tp, fl)) := by
  have hz : 2 * r1 * r2 = 0 ↔ (r1 = 0 ∨ r2 = 0) := by
    rw [mul_eq_zero, mul_eq_zero]; simp
  unfold xy2tp
  by_cases h : r1 = 0 ∨ r2 = 0
  · rw [if_pos (hz.2 h)]; simp [h]
  · rw [if_neg (fun hh => h (hz.1 hh))]
    cases guess <;> simp [h]

theorem contraction_le_one : contraction ≤ 1 := by
  unfold contraction epsilon; norm_num

/-- The hypotheses are met by real arms and a target between the rims, and the
call then is unflagged for the widest ranges. -/
example : contraction ≤ (3:ℝ) ∧ |(3:ℝ) - 3| + contraction ≤ radius (3, 4) ∧
    radius (3, 4) ≤ 3 + 3 - contraction := by
  have h := contraction_le_one
  have : radius (3, 4) = 5 := by
    unfold radius
    rw [show ((3:ℝ), (4:ℝ)).1 ^ 2 + ((3:ℝ), (4:ℝ)).2 ^ 2 = 5 ^ 2 by norm_num]
    exact Real.sqrt_sq (by norm_num)
  rw [this]
  refine ⟨by linarith, ?_, by linarith⟩
  rw [sub_self, abs_zero]; linarith

/-! ## C02 -/

/-- C02: the returned angles always lie inside the ranges, whatever the target,
guess and order of the range ends, flagged or not. -/
theorem C02_in_range {x y r1 r2 : ℝ} {rg : Ranges} {guess : Option ℝ} {tol : ℝ} {tp : ℝ × ℝ}
    {fl : Bool} (h : xy2tp x y r1 r2 rg guess tol = .ok (tp, fl)) :
    InRange rg.t tp.1 ∧ InRange rg.p tp.2 := by
  unfold xy2tp at h
  split at h
  · simp at h
  · cases guess with
    | none =>
      simp only [Except.ok.injEq, Prod.mk.injEq] at h
      rw [← h.1]; exact mkOpt_inRange _ _
    | some g =>
      simp only [Except.ok.injEq, Prod.mk.injEq] at h
      rw [← h.1]
      have : ∀ (q : ℝ × ℝ) (alt : ℝ × ℝ), ∀ o ∈ optionList (mkOpt q rg) alt rg,
          InRange rg.t o.tp.1 ∧ InRange rg.p o.tp.2 := by
        intro q alt o ho
        unfold optionList at ho
        simp only [List.mem_append, List.mem_flatMap, List.mem_cons, List.not_mem_nil,
          or_false] at ho
        rcases ho with (rfl | rfl) | ⟨b, _, hb⟩
        · exact mkOpt_inRange _ _
        · exact mkOpt_inRange _ _
        · unfold turns at hb
          split at hb
          · simp at hb
          · simp only [List.mem_cons, List.not_mem_nil, or_false] at hb
            rcases hb with rfl | rfl <;> exact mkOpt_inRange _ _
      exact this _ _ _ (select_mem (by simp [optionList]))

example : ∃ tp fl, xy2tp 3 4 3 3 ⟨(-180, 180), (-20, 200)⟩ (some 10) 30 = .ok (tp, fl) :=
  (C01_total 3 4 3 3 _ _ _).2 (by norm_num)

/-! ## C03 -/

/-- C03: a target outside the annulus between the fully folded and the fully
stretched arms is always flagged. -/
theorem C03_outside_flagged {x y r1 r2 : ℝ} {rg : Ranges} {guess : Option ℝ} {tol : ℝ}
    {tp : ℝ × ℝ} {fl : Bool} (hout : radius (x, y) < |r1 - r2| ∨ r1 + r2 < radius (x, y))
    (h : xy2tp x y r1 r2 rg guess tol = .ok (tp, fl)) : fl = true := by
  have ha : annulusFail (hypot x y) r1 r2 = true := by
    unfold annulusFail
    rw [decide_eq_true_iff]
    exact hout.symm
  unfold xy2tp at h
  split at h
  · simp at h
  · cases guess <;>
    · simp only [Except.ok.injEq, Prod.mk.injEq, ha, Bool.true_or] at h
      exact h.2.symm

/-- C03: nothing outside that annulus can be reached at all, so the flag is
never raised wrongly by it. -/
theorem C03_annulus_is_reach {r1 r2 : ℝ} (h1 : 0 ≤ r1) (h2 : 0 ≤ r2) (tp : ℝ × ℝ) :
    |r1 - r2| ≤ radius (tp2xy tp r1 r2) ∧ radius (tp2xy tp r1 r2) ≤ r1 + r2 := by
  rw [radius_eq]; exact tip_annulus tp h1 h2

/-- C03: with a theta range of at least one turn and a phi range covering
0..180 the flag is raised exactly for targets outside the annulus, with any
guess or none. -/
theorem C03_flag_iff {x y r1 r2 : ℝ} (h1 : contraction ≤ r1) (h2 : contraction ≤ r2)
    {rg : Ranges} (ht : 360 ≤ width rg.t) (hp : min rg.p.1 rg.p.2 ≤ 0 ∧ 180 ≤ max rg.p.1 rg.p.2)
    {guess : Option ℝ} {tol : ℝ} {tp : ℝ × ℝ} {fl : Bool}
    (h : xy2tp x y r1 r2 rg guess tol = .ok (tp, fl)) :
    fl = true ↔ (radius (x, y) < |r1 - r2| ∨ r1 + r2 < radius (x, y)) := by
  constructor
  · intro hf
    by_contra hin
    rw [not_or, not_lt, not_lt] at hin
    have ha : annulusFail (hypot x y) r1 r2 = false := by
      unfold annulusFail
      rw [decide_eq_false_iff_not, not_or, not_lt, not_lt]
      exact ⟨hin.2, hin.1⟩
    have hprim : (mkOpt (rawPrimary x y r1 r2) rg).rangeFail = false := by
      have hφ := rawPrimary_phi x y r1 r2
      show (_ || _) = false
      rw [wrap_full (by unfold width at ht; linarith), wrap_id (by linarith [hp.1, hφ.1])
        (by linarith [hp.2, hφ.2])]
      rfl
    have hc := contraction_pos
    cases guess with
    | none =>
      rw [xy2tp_none (by linarith) (by linarith)] at h
      injection h with h
      injection h with _ hb
      rw [ha, hprim, hf] at hb
      simp at hb
    | some g =>
      rw [xy2tp_some (by linarith) (by linarith)] at h
      injection h with h
      injection h with _ hb
      rw [ha, hf, Bool.false_or] at hb
      by_cases hcl : ∃ o ∈ options x y r1 r2 rg, closenessFail g tol o = false
      · have := (select_best hcl ⟨_, primary_mem rg, hprim⟩ (primary := mkOpt (rawPrimary x y r1 r2) rg)
          _ (primary_mem rg)).1 hprim
        rw [this] at hb; simp at hb
      · rw [select_allFail (Or.inl (by
          intro o ho
          by_contra hne
          exact hcl ⟨o, ho, by simpa using hne⟩)), hprim] at hb
        simp at hb
  · intro hout
    exact C03_outside_flagged hout h

example : 360 ≤ width ((-180:ℝ), (180:ℝ)) ∧ (min (-20:ℝ) 200 ≤ 0 ∧ 180 ≤ max (-20:ℝ) 200) := by
  unfold width; norm_num

/-- C03 (disagreement with the docstring "unreachable ... True if the requested
xy cannot be reached by any tp"): without a guess only the configuration with
phi in 0..180 is tried, so a target that an in-range configuration reaches
exactly can be flagged. -/
theorem C03_no_guess_misses_reachable :
    ∃ (x y r1 r2 : ℝ) (rg : Ranges) (tol : ℝ) (tp tp' : ℝ × ℝ),
      contraction ≤ r1 ∧ contraction ≤ r2 ∧
      InRange rg.t tp.1 ∧ InRange rg.p tp.2 ∧ tp2xy tp r1 r2 = (x, y) ∧
      xy2tp x y r1 r2 rg none tol = .ok (tp', true) := by
  refine ⟨1, 1, 1, 1, ⟨(-180, 180), (-100, -80)⟩, 30, (90, -90),
    (mkOpt (rawPrimary 1 1 1 1) ⟨(-180, 180), (-100, -80)⟩).tp,
    contraction_le_one, contraction_le_one, ?_, ?_, ?_, ?_⟩
  · unfold InRange; norm_num
  · unfold InRange; norm_num
  · unfold tp2xy radians
    have e1 : (90:ℝ) * (Real.pi / 180) = Real.pi / 2 := by ring
    have e2 : (90:ℝ) * (Real.pi / 180) + -90 * (Real.pi / 180) = 0 := by ring
    dsimp only
    rw [e2, e1]; simp
  · rw [xy2tp_none one_pos one_pos]
    have : (mkOpt (rawPrimary 1 1 1 1) ⟨(-180, 180), (-100, -80)⟩).rangeFail = true := by
      by_contra hne
      have hne : (mkOpt (rawPrimary 1 1 1 1) ⟨(-180, 180), (-100, -80)⟩).rangeFail = false := by
        simpa using hne
      obtain ⟨k, hk⟩ := (mkOpt_ok hne).2
      have hin := (mkOpt_inRange (rawPrimary 1 1 1 1) ⟨(-180, 180), (-100, -80)⟩).2
      have hφ := rawPrimary_phi 1 1 1 1
      unfold InRange at hin
      rw [hk] at hin
      norm_num at hin
      have k1 : (k:ℝ) < 0 := by linarith [hin.2, hφ.1]
      have k2 : (-1:ℝ) < k := by linarith [hin.1, hφ.2]
      have k1' : k < 0 := by exact_mod_cast k1
      have k2' : -1 < k := by exact_mod_cast k2
      omega
    rw [this, Bool.or_true]

/-! ## C04 -/

/-- C04: when the ranges do not bind, the answer comes (up to the rim
contraction) as close to the target as any arm configuration whatsoever. -/
theorem C04_closest_approach {x y r1 r2 : ℝ} (h1 : contraction ≤ r1) (h2 : contraction ≤ r2)
    {rg : Ranges} (ht : 360 ≤ width rg.t) (hp : min rg.p.1 rg.p.2 ≤ 0 ∧ 180 ≤ max rg.p.1 rg.p.2)
    {tol : ℝ} {tp : ℝ × ℝ} {fl : Bool}
    (h : xy2tp x y r1 r2 rg none tol = .ok (tp, fl)) (other : ℝ × ℝ) :
    dist2 (tp2xy tp r1 r2) (x, y) ≤ dist2 (tp2xy other r1 r2) (x, y) + contraction := by
  have hc := contraction_pos
  rw [xy2tp_none (by linarith) (by linarith)] at h
  injection h with h
  injection h with ha hb
  have hprim : (mkOpt (rawPrimary x y r1 r2) rg).rangeFail = false := by
    have hφ := rawPrimary_phi x y r1 r2
    show (_ || _) = false
    rw [wrap_full (by unfold width at ht; linarith), wrap_id (by linarith [hp.1, hφ.1])
      (by linarith [hp.2, hφ.2])]
    rfl
  rw [← ha, mkOpt_tip r1 r2 hprim, dist2_eq, dist2_eq, rawPrimary_tip h1 h2, aim_dist]
  have hann := tip_annulus other (r1 := r1) (r2 := r2) (by linarith) (by linarith)
  have htri := abs_norm_sub_norm_le (toC (tp2xy other r1 r2)) (toC (x, y))
  rw [← hypot_eq x y] at htri
  set q := ‖toC (tp2xy other r1 r2)‖
  have hq : |clampHypot (hypot x y) r1 r2 - hypot x y| ≤ |q - hypot x y| + contraction := by
    have hgap : |r1 - r2| + contraction ≤ r1 + r2 - contraction := by
      rcases abs_cases (r1 - r2) with ⟨h, _⟩ | ⟨h, _⟩ <;> rw [h] <;> linarith
    set ρ := max (|r1 - r2| + contraction) (min q (r1 + r2 - contraction)) with hρ
    have b1 : |r1 - r2| + contraction ≤ ρ := le_max_left _ _
    have b2 : ρ ≤ r1 + r2 - contraction := max_le hgap (min_le_right _ _)
    have b3 : |ρ - q| ≤ contraction := by
      rw [abs_le]
      constructor
      · have : q - contraction ≤ ρ := by
          refine le_trans ?_ (le_max_right _ _)
          rw [le_min_iff]; constructor <;> linarith [hann.2]
        linarith
      · have : ρ ≤ q + contraction := by
          refine max_le (by linarith [hann.1]) ((min_le_left _ _).trans (by linarith))
        linarith
    have b4 := clamp_closest (hyp := hypot x y) b1 b2
    have b5 := abs_sub_le ρ q (hypot x y)
    linarith
  linarith

example : ∃ tp, xy2tp 30 40 3 3 ⟨(-180, 180), (-20, 200)⟩ none 30 = .ok (tp, true) := by
  obtain ⟨tp, fl, h⟩ := (C01_total 30 40 3 3 ⟨(-180, 180), (-20, 200)⟩ none 30).2 (by norm_num)
  refine ⟨tp, ?_⟩
  rw [h, C03_outside_flagged (Or.inr ?_) h]
  have : radius (30, 40) = 50 := by
    unfold radius
    rw [show ((30:ℝ), (40:ℝ)).1 ^ 2 + ((30:ℝ), (40:ℝ)).2 ^ 2 = 50 ^ 2 by norm_num]
    exact Real.sqrt_sq (by norm_num)
  rw [this]; norm_num

/-! ## C05 -/

/-- C05: if *any* in-range configuration reaching the target has theta within
the tolerance of the guess, the answer is unflagged, in range, reaches the
target, and its theta is at least as close to the guess as that of every such
configuration.  (The theta range must be narrower than two turns.) -/
theorem C05_guess_picks_nearest {x y r1 r2 : ℝ} (h1 : contraction ≤ r1) (h2 : contraction ≤ r2)
    (hl : |r1 - r2| + contraction ≤ radius (x, y)) (hu : radius (x, y) ≤ r1 + r2 - contraction)
    {rg : Ranges} (hw : width rg.t < 720) {g tol : ℝ} {cand : ℝ × ℝ}
    (hct : InRange rg.t cand.1) (hcp : InRange rg.p cand.2) (hcr : tp2xy cand r1 r2 = (x, y))
    (hcg : |cand.1 - g| ≤ tol) :
    ∃ tp, xy2tp x y r1 r2 rg (some g) tol = .ok (tp, false) ∧
      InRange rg.t tp.1 ∧ InRange rg.p tp.2 ∧ tp2xy tp r1 r2 = (x, y) ∧
      |tp.1 - g| ≤ |cand.1 - g| := by
  have hc := contraction_pos
  have haim : aim x y r1 r2 = toC (x, y) := aim_eq hl hu
  obtain ⟨b, hb, e1, e2⟩ := configs (x := x) (y := y) h1 h2 cand (by rw [hcr, haim])
  have hbf : (mkOpt b rg).rangeFail = false := mkOpt_reach e1 e2 hct hcp
  have hbok := mkOpt_ok hbf
  have hbin := mkOpt_inRange b rg
  -- an option with the theta of the candidate
  have hopt : ∃ o ∈ options x y r1 r2 rg, o.rangeFail = false ∧ o.tp.1 = cand.1 := by
    have hsame : SameAngle cand.1 (mkOpt b rg).tp.1 := sameAngle_trans e1 (sameAngle_symm hbok.1)
    have hmem : ∀ o, (o = mkOpt b rg ∨ ((mkOpt b rg).rangeFail = false ∧
        (o = mkOpt ((mkOpt b rg).tp.1 + (-360), (mkOpt b rg).tp.2) rg ∨
          o = mkOpt ((mkOpt b rg).tp.1 + 360, (mkOpt b rg).tp.2) rg))) →
        o ∈ options x y r1 r2 rg := by
      intro o ho
      refine mem_options.2 ⟨mkOpt b rg, ?_, ho⟩
      rcases hb with rfl | rfl
      · exact Or.inl rfl
      · exact Or.inr rfl
    rcases sameAngle_two hsame (by unfold width at hw; linarith) hct hbin.1 with h | h | h
    · exact ⟨_, hmem _ (Or.inl rfl), hbf, h.symm⟩
    · refine ⟨_, hmem _ (Or.inr ⟨hbf, Or.inr rfl⟩), ?_⟩
      rw [← h, mkOpt_id (tp := (cand.1, (mkOpt b rg).tp.2)) hct hbin.2]
      exact ⟨rfl, rfl⟩
    · refine ⟨_, hmem _ (Or.inr ⟨hbf, Or.inl rfl⟩), ?_⟩
      rw [← h, mkOpt_id (tp := (cand.1, (mkOpt b rg).tp.2)) hct hbin.2]
      exact ⟨rfl, rfl⟩
  obtain ⟨o, ho, hof, hot⟩ := hopt
  have hocl : closenessFail g tol o = false := by
    unfold closenessFail closeness
    rw [decide_eq_false_iff_not, hot, not_lt]; exact hcg
  have hbest := select_best (primary := mkOpt (rawPrimary x y r1 r2) rg) ⟨o, ho, hocl⟩ ⟨o, ho, hof⟩ o ho
  set s := select g tol (mkOpt (rawPrimary x y r1 r2) rg) (options x y r1 r2 rg) with hs
  have hsf : s.rangeFail = false := hbest.1 hof
  have hscl : closenessFail g tol s = false := hbest.2.1 (by rw [hof, hsf]) hocl
  have hsc : closeness g s ≤ closeness g o := hbest.2.2 (by rw [hof, hsf]) (by rw [hocl, hscl])
  have hann : annulusFail (hypot x y) r1 r2 = false := by
    unfold annulusFail
    rw [decide_eq_false_iff_not, not_or, not_lt, not_lt]
    unfold hypot; unfold radius at hl hu
    dsimp only at hl hu
    constructor <;> linarith
  have hres : xy2tp x y r1 r2 rg (some g) tol = .ok (s.tp, false) := by
    rw [xy2tp_some (by linarith) (by linarith), ← hs, hsf, hann]; rfl
  have hin := C02_in_range hres
  refine ⟨s.tp, hres, hin.1, hin.2, C01_unflagged_exact h1 h2 hl hu hres, ?_⟩
  unfold closeness at hsc
  rwa [hot] at hsc

/-- C05: handing back the theta of an in-range configuration as the guess
recovers exactly that configuration, for either elbow. -/
theorem C05_guess_round_trip {r1 r2 : ℝ} (h1 : contraction ≤ r1) (h2 : contraction ≤ r2)
    {rg : Ranges} (hw : width rg.t < 720) (hwp : width rg.p < 360) {tol : ℝ} (htol : 0 ≤ tol)
    {tp : ℝ × ℝ} (hct : InRange rg.t tp.1) (hcp : InRange rg.p tp.2)
    (hl : |r1 - r2| + contraction ≤ radius (tp2xy tp r1 r2))
    (hu : radius (tp2xy tp r1 r2) ≤ r1 + r2 - contraction) :
    xy2tp (tp2xy tp r1 r2).1 (tp2xy tp r1 r2).2 r1 r2 rg (some tp.1) tol = .ok (tp, false) := by
  have hc := contraction_pos
  obtain ⟨tp', h, i1, i2, hr, hd⟩ := C05_guess_picks_nearest (x := (tp2xy tp r1 r2).1)
    (y := (tp2xy tp r1 r2).2) h1 h2 hl hu hw (g := tp.1) (tol := tol) hct hcp rfl
    (by rw [sub_self, abs_zero]; exact htol)
  rw [sub_self, abs_zero] at hd
  have e1 : tp'.1 = tp.1 := by
    have := abs_eq_zero.1 (le_antisymm hd (abs_nonneg _)); linarith
  have hr2 : r2 ≠ 0 := by intro h; linarith
  have r2' : ((r2:ℝ):ℂ) ≠ 0 := by exact_mod_cast hr2
  have e2 : u tp'.2 = u tp.2 := by
    have := congrArg toC hr
    rw [toC_tp2xy, toC_tp2xy, e1] at this
    exact mul_left_cancel₀ (u_ne _) (mul_left_cancel₀ r2' (add_left_cancel this))
  have e3 : tp'.2 = tp.2 :=
    sameAngle_unique (u_same.1 e2) (by unfold width at hwp; linarith) i2 hcp
  rw [h, Prod.ext e1 e3]

/-- C05: if the guess is not within tolerance of any in-range configuration,
it is ignored: the answer is the one given without a guess.  (For a theta range
narrower than one turn, and provided the answer without a guess is unflagged.) -/
theorem C05_far_guess_ignored {x y r1 r2 : ℝ} (h1 : contraction ≤ r1) (h2 : contraction ≤ r2)
    (hl : |r1 - r2| + contraction ≤ radius (x, y)) (hu : radius (x, y) ≤ r1 + r2 - contraction)
    {rg : Ranges} (hw : width rg.t < 360) {g tol : ℝ} {tp : ℝ × ℝ}
    (hn : xy2tp x y r1 r2 rg none tol = .ok (tp, false))
    (hfar : ∀ c : ℝ × ℝ, InRange rg.t c.1 → InRange rg.p c.2 → tp2xy c r1 r2 = (x, y) →
      tol < |c.1 - g|) :
    xy2tp x y r1 r2 rg (some g) tol = .ok (tp, false) := by
  have hc := contraction_pos
  rw [xy2tp_none (by linarith) (by linarith)] at hn
  injection hn with hn
  injection hn with ha hb
  rw [Bool.or_eq_false_iff] at hb
  have haim : aim x y r1 r2 = toC (x, y) := aim_eq hl hu
  -- in-range options are far from the guess
  have hfar' : ∀ o ∈ options x y r1 r2 rg, o.rangeFail = false → closenessFail g tol o = true := by
    intro o ho hof
    obtain ⟨tp0, h0, rfl⟩ := option_form h1 h2 ho
    have hin := mkOpt_inRange tp0 rg
    have := hfar _ hin.1 hin.2 (by
      apply toC_inj; rw [mkOpt_tip r1 r2 hof, h0, haim])
    unfold closenessFail closeness
    rw [decide_eq_true_iff]; exact this
  -- turning by 360 and wrapping back changes nothing
  have hturn : ∀ (b : ℝ × ℝ) (k : ℤ), (mkOpt b rg).rangeFail = false →
      mkOpt ((mkOpt b rg).tp.1 + 360 * k, (mkOpt b rg).tp.2) rg = mkOpt b rg := by
    intro b k hbf
    have hin := mkOpt_inRange b rg
    have hf2 : (mkOpt ((mkOpt b rg).tp.1 + 360 * k, (mkOpt b rg).tp.2) rg).rangeFail = false :=
      mkOpt_reach (tp' := (mkOpt b rg).tp) ⟨-k, by push_cast; ring⟩ ⟨0, by simp⟩ hin.1 hin.2
    have hs := mkOpt_ok hf2
    have hin2 := mkOpt_inRange ((mkOpt b rg).tp.1 + 360 * k, (mkOpt b rg).tp.2) rg
    have q1 := sameAngle_unique (sameAngle_trans hs.1 ⟨k, rfl⟩)
      (by unfold width at hw; linarith) hin2.1 hin.1
    have q2 : (mkOpt ((mkOpt b rg).tp.1 + 360 * k, (mkOpt b rg).tp.2) rg).tp.2 = (mkOpt b rg).tp.2 := by
      show (wrapIntoRange _ _ _).1 = _
      rw [wrap_id hin.2.1 hin.2.2]
    have q : (mkOpt ((mkOpt b rg).tp.1 + 360 * k, (mkOpt b rg).tp.2) rg).tp = (mkOpt b rg).tp :=
      Prod.ext q1 q2
    generalize hA : mkOpt ((mkOpt b rg).tp.1 + 360 * k, (mkOpt b rg).tp.2) rg = A at *
    generalize hB : mkOpt b rg = B at *
    cases A; cases B
    simp only at q hf2 hbf
    subst q; rw [hf2, hbf]
  have hopts : ∀ o ∈ options x y r1 r2 rg, o = mkOpt (rawPrimary x y r1 r2) rg ∨
      o = mkOpt (rawAlt x y r1 r2) rg := by
    intro o ho
    obtain ⟨b, hbb, h⟩ := mem_options.1 ho
    rcases h with rfl | ⟨hf, h⟩
    · exact hbb
    · have t1 : ∀ b', b = mkOpt b' rg → o = b := by
        intro b' hb'
        subst hb'
        rcases h with rfl | rfl
        · have := hturn b' (-1) hf; push_cast at this; rw [mul_neg, mul_one] at this; exact this
        · have := hturn b' 1 hf; push_cast at this; rw [mul_one] at this; exact this
      rcases hbb with hbb | hbb
      · exact Or.inl ((t1 _ hbb).trans hbb)
      · exact Or.inr ((t1 _ hbb).trans hbb)
  have hsel : select g tol (mkOpt (rawPrimary x y r1 r2) rg) (options x y r1 r2 rg)
      = mkOpt (rawPrimary x y r1 r2) rg := by
    by_cases hcl : ∃ o ∈ options x y r1 r2 rg, closenessFail g tol o = false
    · -- then the close option is the reflected one, out of range
      obtain ⟨o, ho, hoc⟩ := hcl
      have hof : o.rangeFail = true := by
        by_contra hne
        have := hfar' o ho (by simpa using hne)
        rw [this] at hoc; simp at hoc
      have hoa : o = mkOpt (rawAlt x y r1 r2) rg := by
        rcases hopts o ho with h | h
        · rw [h, hb.2] at hof; simp at hof
        · exact h
      have hbest := select_best (primary := mkOpt (rawPrimary x y r1 r2) rg) ⟨o, ho, hoc⟩
        ⟨_, primary_mem rg, hb.2⟩ _ (primary_mem rg)
      have hm := select_mem (g := g) (tol := tol) (primary_mem (x := x) (y := y) (r1 := r1) (r2 := r2) rg)
      rcases hopts _ hm with h | h
      · exact h
      · have := hbest.1 hb.2
        rw [h, ← hoa, hof] at this; simp at this
    · exact select_allFail (Or.inl (by
        intro o ho
        by_contra hne
        exact hcl ⟨o, ho, by simpa using hne⟩))
  rw [xy2tp_some (by linarith) (by linarith), hsel, ha, hb.1, hb.2]; rfl

/-- The hypotheses of the C05 theorems are met, e.g. by arms of length 1, the
right-angle configuration (90, -90) and the default ranges widened for theta. -/
example : let rg : Ranges := ⟨(-180, 180), (-180, 170)⟩
    contraction ≤ (1:ℝ) ∧ width rg.t < 720 ∧ width rg.p < 360 ∧ InRange rg.t 90 ∧
    InRange rg.p (-90) ∧ |(1:ℝ) - 1| + contraction ≤ radius (tp2xy (90, -90) 1 1) ∧
    radius (tp2xy (90, -90) 1 1) ≤ 1 + 1 - contraction := by
  have hc : contraction ≤ 1 / 100 := by unfold contraction epsilon; norm_num
  have e : tp2xy (90, -90) 1 1 = (1, 1) := by
    unfold tp2xy radians
    have e1 : (90:ℝ) * (Real.pi / 180) = Real.pi / 2 := by ring
    have e2 : (90:ℝ) * (Real.pi / 180) + -90 * (Real.pi / 180) = 0 := by ring
    dsimp only
    rw [e2, e1]; simp
  rw [e]
  have hr : radius (1, 1) = Real.sqrt 2 := by unfold radius; norm_num
  have hs1 : 1 ≤ Real.sqrt 2 := by
    rw [show (1:ℝ) = Real.sqrt 1 by simp]; exact Real.sqrt_le_sqrt (by norm_num)
  have hs2 : Real.sqrt 2 ≤ 3 / 2 := by
    rw [Real.sqrt_le_left (by norm_num)]; norm_num
  rw [hr]
  unfold width InRange
  refine ⟨by linarith, by norm_num, by norm_num, by norm_num, by norm_num, ?_, by linarith⟩
  rw [sub_self, abs_zero]; linarith

/-! ## C06 -/

/-- C06: wrapping succeeds exactly when some whole number of turns brings the
angle into the interval; it then returns such an angle, unchanged if it already
was inside, otherwise the one in the interval farthest past the violated end. -/
theorem C06_wrap (a lo hi : ℝ) (hle : lo ≤ hi) :
    ((wrapIntoRange a lo hi).2 = false ↔ ∃ v, SameAngle v a ∧ lo ≤ v ∧ v ≤ hi) ∧
    ((wrapIntoRange a lo hi).2 = false → SameAngle (wrapIntoRange a lo hi).1 a) ∧
    (lo ≤ (wrapIntoRange a lo hi).1 ∧ (wrapIntoRange a lo hi).1 ≤ hi) ∧
    (lo ≤ a → a ≤ hi → wrapIntoRange a lo hi = (a, false)) ∧
    (∀ v, SameAngle v a → lo ≤ v → v ≤ hi →
      (a < lo → v ≤ (wrapIntoRange a lo hi).1) ∧ (hi < a → (wrapIntoRange a lo hi).1 ≤ v)) ∧
    ((wrapIntoRange a lo hi).2 = true →
      (wrapIntoRange a lo hi).1 = if a < lo then lo else hi) := by
  refine ⟨⟨fun h => ?_, ?_⟩, fun h => (wrap_same h).1, wrap_in hle, fun h1 h2 => wrap_id h1 h2,
    ?_, ?_⟩
  · exact ⟨_, wrap_same h⟩
  · rintro ⟨v, h1, h2, h3⟩; exact wrap_ok h1 h2 h3
  · rintro v hv h1 h2
    have hok := wrap_ok hv h1 h2
    obtain ⟨k, rfl⟩ := hv
    unfold wrapIntoRange at *
    dsimp only at *
    constructor
    · intro ha
      rw [if_pos ha] at hok ⊢
      split_ifs at hok ⊢ with h4
      have hk : k ≤ ⌊(hi - a) / 360⌋ := by
        rw [Int.le_floor, le_div_iff₀ (by norm_num)]; linarith
      have : (k : ℝ) ≤ (⌊(hi - a) / 360⌋ : ℤ) := by exact_mod_cast hk
      dsimp only; linarith
    · intro ha
      rw [if_neg (by linarith), if_pos ha] at hok ⊢
      split_ifs at hok ⊢ with h4
      have hk : -k ≤ ⌊(a - lo) / 360⌋ := by
        rw [Int.le_floor, le_div_iff₀ (by norm_num)]; push_cast; linarith
      have : ((-k : ℤ) : ℝ) ≤ (⌊(a - lo) / 360⌋ : ℤ) := by exact_mod_cast hk
      push_cast at this
      dsimp only; linarith
  · intro h
    unfold wrapIntoRange at *
    dsimp only at *
    split_ifs at h ⊢ <;> rfl

example : ((-180:ℝ) ≤ 180) ∧ (wrapIntoRange 190 (-180) 180).2 = false :=
  ⟨by norm_num, (C06_wrap 190 (-180) 180 (by norm_num)).1.2
    ⟨-170, ⟨-1, by norm_num⟩, by norm_num, by norm_num⟩⟩

end Verif.Props
