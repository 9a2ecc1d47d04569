import Verif.Model.DitherCompare
import Verif.Props.SimpleCorr
import Verif.Props.RayRun
import Verif.Props.Sky

/-!
# Properties of the comparison of desimeter with dithers (`bin/plot_dither_vs_desimeter`)
-/

set_option linter.unusedSectionVars false
set_option linter.unusedSimpArgs false

namespace Verif.Props.DitherCompare

open Verif.Py Verif.Model.Trig Verif.Model.Radec2tan Verif.Model.SimpleCorr Verif.Model.DitherCompare Verif.Lemmas.Trig Verif.Lemmas.Sky
  Verif.Lemmas.LinAlg Verif.Lemmas.SimpleCorr Verif.Spec

/-! ## Specification -/

/-- `b` is the last entry of `l` with a property. -/
def IsLast {β : Type} (p : β → Prop) (l : List β) (b : β) : Prop := ∃ u v, l = u ++ b :: v ∧ p b ∧ ∀ c ∈ v, ¬ p c

/-- The dither result is good: error below 0.5, offset below 4, and the fit explains more than 90 % of chi2. -/
def Good (d : Dither) : Prop :=
  Real.sqrt (d.dxoff ^ 2 + d.dyoff ^ 2) < 0.5 ∧ Real.sqrt (d.xoff ^ 2 + d.yoff ^ 2) < 4 ∧ dchi2frac d > 0.9

/-! ## Exposure and selection -/

/-- **C116** The column is the one of the first exposure with the number; without one the script ends with a `ValueError`. -/
theorem C116_exposure (cols : List (ℤ × List Dither)) (e : ℤ) :
    (∀ d, exposure cols e = .ok d ↔ ∃ u v, cols = u ++ (e, d) :: v ∧ ∀ c ∈ u, c.1 ≠ e) ∧
      (exposure cols e = .error .valueError ↔ ∀ c ∈ cols, c.1 ≠ e) := by
  unfold exposure
  cases h : cols.find? fun c => decide (c.1 = e) with
  | none =>
    have hn : ∀ c ∈ cols, c.1 ≠ e := by
      intro c hc
      have := List.find?_eq_none.1 h c hc
      simpa using this
    refine ⟨fun d => ⟨fun h => (nomatch h), ?_⟩, ⟨fun _ => hn, fun _ => rfl⟩⟩
    rintro ⟨u, v, rfl, _⟩
    exact absurd rfl (hn (e, d) (by simp))
  | some c =>
    obtain ⟨hc, u, v, rfl, hu⟩ := List.find?_eq_some_iff_append.1 h
    rw [decide_eq_true_iff] at hc
    refine ⟨fun d => ⟨fun h => ?_, ?_⟩, ⟨fun h => (nomatch h), fun h => absurd hc (h c (by simp))⟩⟩
    · have := Except.ok.inj h
      subst this
      subst hc
      exact ⟨u, v, rfl, fun x hx => by have := hu x hx; simpa using this⟩
    · rintro ⟨u', v', heq, hu'⟩
      have h2 : (u' ++ (e, d) :: v').find? (fun c => decide (c.1 = e)) = some (e, d) := by
        rw [List.find?_eq_some_iff_append]
        exact ⟨by simp, u', v', rfl, fun x hx => by simpa using hu' x hx⟩
      rw [heq, h2] at h
      have := Option.some.inj h
      rw [← this]

theorem valid_iff (d : Dither) : valid d = true ↔ Good d := by
  unfold valid Good
  rw [@decide_eq_true_iff _ (Classical.dec _)]

/-- **C116** The cut on chi2: with a positive chi2 of no flux it asks for a chi2 below a tenth of it; with
a vanishing one it takes no row whose chi2 is not negative. -/
theorem C116_chi2 (d : Dither) :
    (0 < d.chi2null → (dchi2frac d > 0.9 ↔ d.chi2 < 0.1 * d.chi2null)) ∧ (d.chi2null = 0 → 0 ≤ d.chi2 → ¬ dchi2frac d > 0.9) := by
  unfold dchi2frac
  constructor
  · intro h
    rw [if_neg h.ne', add_zero, gt_iff_lt, lt_div_iff₀ h]
    constructor <;> intro h <;> linarith
  · intro h h0
    rw [if_pos h, h]
    intro hc
    norm_num at hc
    linarith

/-! ## The joins -/

theorem getLast_filter {β : Type} (p : β → Bool) (l : List β) (f : β) :
    (l.filter p).getLast? = some f ↔ IsLast (fun b => p b = true) l f := by
  unfold IsLast
  constructor
  · intro h
    obtain ⟨ys, hys⟩ := List.getLast?_eq_some_iff.1 h
    obtain ⟨a, b, hab, ha, hb⟩ := List.filter_eq_append_iff.1 hys
    obtain ⟨b1, b2, hb12, hn, hf, hr⟩ := List.filter_eq_cons_iff.1 hb
    exact ⟨a ++ b1, b2, by rw [hab, hb12]; simp, hf, List.filter_eq_nil_iff.1 hr⟩
  · rintro ⟨a, b, rfl, hf, hb⟩
    rw [List.filter_append, List.filter_cons_of_pos hf, List.filter_eq_nil_iff.2 hb]
    simp

theorem mem_join {α β : Type} (ka : α → ℤ) (kb : β → ℤ) (m : List α) (l : List β) (p : α × β) :
    p ∈ join ka kb m l ↔ p.1 ∈ m ∧ IsLast (fun b => kb b = ka p.1) l p.2 := by
  unfold join
  rw [List.mem_filterMap]
  constructor
  · rintro ⟨a, ha, h⟩
    rw [Option.map_eq_some_iff] at h
    obtain ⟨b, hb, rfl⟩ := h
    refine ⟨ha, ?_⟩
    have := (getLast_filter _ _ _).1 hb
    simpa only [decide_eq_true_iff] using this
  · rintro ⟨h1, h2⟩
    refine ⟨p.1, h1, ?_⟩
    rw [(getLast_filter _ _ _).2 (by simpa only [decide_eq_true_iff] using h2)]
    rfl

theorem join_sublist {α β : Type} (ka : α → ℤ) (kb : β → ℤ) (m : List α) (l : List β) : ((join ka kb m l).map Prod.fst).Sublist m := by
  unfold join
  induction m with
  | nil => exact .slnil
  | cons a m ih =>
    rw [List.filterMap_cons]
    cases ((l.filter fun b => decide (kb b = ka a)).getLast?) with
    | none => exact ih.cons _
    | some b => exact ih.cons_cons _

/-- **C116** A spot is compared with a dither result exactly when it has a RA, and the result is the
last good one of the fibre of the last row of fiberassign at its location; never with the result of
another fibre. The spots keep their order. -/
theorem C116_joined (dither : List Dither) (fvc : List Fvc) (fa : List Fa) :
    (((joined dither fvc fa).map fun r => r.1.1).Sublist fvc) ∧
      ∀ f a d, ((f, a), d) ∈ joined dither fvc fa ↔ f ∈ fvc ∧ f.ra ≠ 0 ∧ IsLast (fun b => b.location = f.location) fa a ∧
        IsLast (fun x => x.fiber = a.fiber) (dither.filter fun x => @decide (Good x) (Classical.dec _)) d := by
  have hv : dither.filter valid = dither.filter fun x => @decide (Good x) (Classical.dec _) := by
    apply List.filter_congr
    intro x _
    rw [Bool.eq_iff_iff, valid_iff, @decide_eq_true_iff _ (Classical.dec _)]
  constructor
  · have h1 := join_sublist (fun p : Fvc × Fa => p.2.fiber) Dither.fiber
      (join Fvc.location Fa.location (fvc.filter fun f => @decide (f.ra ≠ 0) (Classical.dec _)) fa) (dither.filter valid)
    have h2 := join_sublist Fvc.location Fa.location (fvc.filter fun f => @decide (f.ra ≠ 0) (Classical.dec _)) fa
    have h3 := (h1.map Prod.fst).trans (h2.trans List.filter_sublist)
    rw [List.map_map] at h3
    exact h3
  · intro f a d
    unfold joined
    rw [mem_join, mem_join, List.mem_filter, @decide_eq_true_iff _ (Classical.dec _), hv]
    tauto

/-- **C116** (finding) A spot at RA 0 exactly is left out, as are the ones without a RA. -/
theorem C116_zero_ra (dither : List Dither) (fvc : List Fvc) (fa : List Fa) (r : (Fvc × Fa) × Dither) (h : r ∈ joined dither fvc fa) :
    r.1.1.ra ≠ 0 := ((C116_joined dither fvc fa).2 r.1.1 r.1.2 r.2 |>.1 h).2.1

/-! ## The tangent plane -/

/-- **C116** A star at the pointing is at the origin of the tangent plane; positions do not depend on the origin of right ascension, and x decreases with right ascension. -/
theorem C116_tangent (tel : ℝ × ℝ) (ra dec δ : ℝ) : tangent tel tel.1 tel.2 = (0, 0) ∧ tangent (tel.1 + δ, tel.2) (ra + δ) dec = tangent tel ra dec ∧
    (tangent tel ra dec).1 = -(cosd dec * sind (ra - tel.1)) := by
  unfold tangent
  refine ⟨?_, ?_, ?_⟩
  · rw [neg_add_cancel]
    exact C17_pointing_origin (0, tel.2)
  · rw [show -(ra + δ) + (tel.1 + δ) = -ra + tel.1 by ring]
  · rw [(C17_projection _ _).1]
    dsimp only
    rw [show -ra + tel.1 - 0 = -(ra - tel.1) by ring]
    unfold sind radians
    rw [neg_mul, Real.sin_neg]
    ring

/-! ## The fit -/

/-- **C116** The rotation which is printed is the fitted one, in the range from −180 (excluded) to 180 degrees. -/
theorem C116_wrapped (rot : ℝ) (h0 : 0 ≤ rot) (h1 : rot < 360) :
    -180 < wrapped rot ∧ wrapped rot ≤ 180 ∧ (wrapped rot = rot ∨ wrapped rot = rot - 360) := by
  unfold wrapped
  split
  · next h => exact ⟨by linarith, by linarith, Or.inr (by ring)⟩
  · next h => exact ⟨by linarith, by linarith, Or.inl (by ring)⟩

/-- **C116** When the spots with a dither result are on one line, or fewer than three, the script ends with an error of linear algebra. -/
theorem C116_line (cols : List (ℤ × List Dither)) (e : ℤ) (fvc : List Fvc) (fa : List Fa) (tel : ℝ × ℝ) (dither : List Dither)
    (hd : exposure cols e = .ok dither) (hl : OnLine ((joined dither fvc fa).map fun r => tangent tel r.1.1.ra r.1.1.dec)) :
    run cols e fvc fa tel = .error .linAlgError := by
  have hfirst : firsts (pairs tel (joined dither fvc fa)) = (joined dither fvc fa).map fun r => tangent tel r.1.1.ra r.1.1.dec := by
    unfold firsts pairs
    rw [List.map_map]
    rfl
  have hdet : (gram design3 (pairs tel (joined dither fvc fa))).det = 0 := (gram3_iff _).2 (by rw [hfirst]; exact hl)
  unfold run
  rw [hd]
  change (fit fresh _ >>= _) = _
  unfold fit linInv
  simp only [Bool.false_eq_true, if_false, if_pos hdet]
  rfl

theorem onLine_two (p q : ℝ × ℝ) : OnLine [p, q] := by
  by_cases h : p = q
  · subst h
    refine ⟨-p.1, 1, 0, by simp, ?_⟩
    intro r hr
    simp only [List.mem_cons, List.not_mem_nil, or_false, or_self] at hr
    subst hr
    ring
  · refine ⟨p.2 * q.1 - p.1 * q.2, q.2 - p.2, p.1 - q.1, ?_, ?_⟩
    · intro h'
      simp only [Prod.mk.injEq] at h'
      apply h
      ext
      · linarith [h'.2.2]
      · linarith [h'.2.1]
    · intro r hr
      simp only [List.mem_cons, List.not_mem_nil, or_false] at hr
      rcases hr with rfl | rfl <;> ring

/-- Two common fibres are not enough. -/
theorem C116_two (cols : List (ℤ × List Dither)) (e : ℤ) (fvc : List Fvc) (fa : List Fa) (tel : ℝ × ℝ) (dither : List Dither)
    (hd : exposure cols e = .ok dither) (hl : (joined dither fvc fa).length = 2) : run cols e fvc fa tel = .error .linAlgError := by
  apply C116_line cols e fvc fa tel dither hd
  obtain ⟨a, b, hab⟩ := List.length_eq_two.1 hl
  rw [hab]
  exact onLine_two _ _

theorem cosd_pos' {a : ℝ} (h1 : -90 < a) (h2 : a < 90) : 0 < cosd a := by
  unfold cosd radians
  apply Real.cos_pos_of_mem_Ioo
  have := Real.pi_pos
  constructor <;> nlinarith

/-- **C116** When the dither positions are the desimeter positions turned by `a` degrees (between −90 and 90),
enlarged by `s` and shifted, and not on one line, the script prints this rotation, scale and shift. -/
theorem C116_exact (cols : List (ℤ × List Dither)) (e : ℤ) (fvc : List Fvc) (fa : List Fa) (tel : ℝ × ℝ) (dither : List Dither)
    (hd : exposure cols e = .ok dither) (hl : ¬ OnLine ((joined dither fvc fa).map fun r => tangent tel r.1.1.ra r.1.1.dec))
    (s a tx ty : ℝ) (hs : 0 < s) (ha : -90 < a) (ha' : a < 90)
    (hex : ∀ r ∈ joined dither fvc fa, tangent tel r.2.ra r.2.dec =
      (s * (cosd a * (tangent tel r.1.1.ra r.1.1.dec).1 - sind a * (tangent tel r.1.1.ra r.1.1.dec).2) + tx,
       s * (sind a * (tangent tel r.1.1.ra r.1.1.dec).1 + cosd a * (tangent tel r.1.1.ra r.1.1.dec).2) + ty)) :
    ∃ p, run cols e fvc fa tel = .ok p ∧ p.rotation = a * 3600 ∧ p.scaleHa = s - 1 ∧ p.scaleDec = s - 1 ∧
      p.offsetHa = tx * (180 / Real.pi) * 3600 ∧ p.offsetDec = ty * (180 / Real.pi) * 3600 := by
  have hfirst : firsts (pairs tel (joined dither fvc fa)) = (joined dither fvc fa).map fun r => tangent tel r.1.1.ra r.1.1.dec := by
    unfold firsts pairs
    rw [List.map_map]
    rfl
  have hdet : (gram design3 (pairs tel (joined dither fvc fa))).det ≠ 0 := fun h => hl (by
    rw [← hfirst]; exact (gram3_iff _).1 h)
  have hdata : ExactData ⟨tx, ty, s * cosd a, -(s * sind a), s * sind a, s * cosd a⟩ (pairs tel (joined dither fvc fa)) := by
    intro q hq
    obtain ⟨r, hr, rfl⟩ := List.mem_map.1 hq
    dsimp only
    rw [hex r hr]
    unfold Affine.app
    ext
    · simp only; ring
    · simp only; ring
  obtain ⟨hx, hy⟩ := exact_coeffs hdet hdata
  have hcos := cosd_pos' ha ha'
  have hcs := sq_cosd_sind a
  have hhyp : hypot (s * cosd a + s * cosd a) (s * sind a - -(s * sind a)) = 2 * s := by
    unfold hypot
    rw [show (s * cosd a + s * cosd a) ^ 2 + (s * sind a - -(s * sind a)) ^ 2 = (2 * s) ^ 2 by nlinarith [hcs]]
    exact Real.sqrt_sq (by linarith)
  have hdec : ∃ r, wrapped r = a ∧
      decompose fresh.rot_deg ![tx, s * cosd a, -(s * sind a)] ![ty, s * sind a, s * cosd a] = .ok (r, s, s, 0) := by
    unfold decompose
    simp only [Matrix.cons_val_zero, Matrix.cons_val_one, Matrix.cons_val]
    have h1 : (s * sind a - -(s * sind a)) / (2 * s) = sind a := by field_simp; ring
    have h2 : (s * cosd a + s * cosd a) / (2 * s) = cosd a := by field_simp; ring
    simp only [hhyp, h1, h2]
    rw [if_neg (by linarith)]
    by_cases hsin : sind a = 0
    · rw [if_neg (by simpa using hsin)]
      have hca : cosd a = 1 := by nlinarith
      refine ⟨0, ?_, by rw [hsin, hca]; simp [fresh]⟩
      have ha0 : a = 0 := by
        have h3 : Real.sin (radians a) = 0 := hsin
        have hr1 : -Real.pi < radians a := by unfold radians; nlinarith [Real.pi_pos]
        have hr2 : radians a < Real.pi := by unfold radians; nlinarith [Real.pi_pos]
        have h4 := (Real.sin_eq_zero_iff_of_lt_of_lt hr1 hr2).1 h3
        unfold radians at h4
        have hp := Real.pi_pos
        rcases mul_eq_zero.1 h4 with h5 | h5
        · exact h5
        · exact absurd h5 (by positivity)
      unfold wrapped
      rw [if_neg (by norm_num), ha0]
      norm_num
    · rw [if_pos hsin, if_neg hcos.ne']
      refine ⟨put360 a, ?_, ?_⟩
      · obtain ⟨k0, k1⟩ := put360_range a
        by_cases h0 : 0 ≤ a
        · rw [put360_id h0 (by linarith)]
          unfold wrapped
          rw [if_neg (by linarith)]
          ring
        · have h360 : put360 a = a + 360 := by
            have := put360_id (a := a + 360) (by linarith) (by linarith)
            rw [← this]
            unfold put360 fmod
            have : ⌊(a + 360) / 360⌋ = ⌊a / 360⌋ + 1 := by
              rw [add_div, div_self (by norm_num), Int.floor_add_one]
            rw [this]
            push_cast
            ring
          rw [h360]
          unfold wrapped
          rw [if_pos (by linarith)]
          ring
      · have hat : arctan2d (sind a) (cosd a) = put360 a := by
          have := arctan2d_polar one_pos a
          rwa [one_mul, one_mul] at this
        have hsxy : sind a * (s * cosd a) + cosd a * (s * sind a) - 2 * s * cosd a * sind a = 0 := by ring
        rw [hat, hsxy]
        have e1 : (s * cosd a - 0 * sind a) / cosd a = s := by field_simp; ring
        have e2 : (s * sind a - 0 * cosd a) / sind a = s := by field_simp; ring
        rw [e1, e2]
  obtain ⟨r, hr, hdec⟩ := hdec
  obtain ⟨rms, hf⟩ := fit_ok (c := fresh) hdet hx hy hdec
  unfold run
  rw [hd]
  change ∃ p, (fit fresh _ >>= _) = _ ∧ _
  rw [hf]
  refine ⟨_, rfl, ?_, rfl, rfl, ?_, ?_⟩
  · dsimp only
    rw [hr]
  · simp only [Matrix.cons_val_zero]
    ring
  · simp only [Matrix.cons_val_zero]
    ring

/-- **C116** The rotation which is printed is always between −180 and 180 degrees. -/
theorem C116_range (cols : List (ℤ × List Dither)) (e : ℤ) (fvc : List Fvc) (fa : List Fa) (tel : ℝ × ℝ) (p : Printed)
    (h : run cols e fvc fa tel = .ok p) : -180 * 3600 < p.rotation ∧ p.rotation ≤ 180 * 3600 := by
  unfold run at h
  obtain ⟨dither, _, h⟩ := (RayRun.bind_iff _ _ _).1 h
  obtain ⟨c, hc, h⟩ := (RayRun.bind_iff _ _ _).1 h
  have := Except.ok.inj h
  subst this
  obtain ⟨ax, ay, _, _, _, hdec, _⟩ := fit_unfold hc
  have hrot : 0 ≤ c.rot_deg ∧ c.rot_deg < 360 := by
    unfold decompose at hdec
    dsimp only at hdec
    split at hdec
    · cases hdec
    · split at hdec
      · split at hdec
        · cases hdec
        · have h1 := congrArg Prod.fst (Except.ok.inj hdec)
          dsimp only at h1
          rw [← h1]
          exact put360_range _
      · have h1 := congrArg Prod.fst (Except.ok.inj hdec)
        dsimp only at h1
        rw [← h1]
        norm_num [fresh]
  obtain ⟨h1, h2, _⟩ := C116_wrapped c.rot_deg hrot.1 hrot.2
  dsimp only
  constructor <;> linarith

/-! ## Examples -/

noncomputable def exD (f : ℤ) : Dither := ⟨f, 0, 0, 0.1, 0.1, 1, 100, 10, 20⟩

example : Good (exD 7) := by
  refine ⟨?_, ?_, ?_⟩
  · rw [Real.sqrt_lt' (by norm_num)]; norm_num [exD]
  · rw [Real.sqrt_lt' (by norm_num)]; norm_num [exD]
  · exact ((C116_chi2 (exD 7)).1 (by norm_num [exD])).2 (by norm_num [exD])

example : ((⟨3042, 10, 20⟩, ⟨3042, 7⟩), exD 7) ∈ joined [exD 7] [⟨3042, 10, 20⟩] [⟨3042, 7⟩] := by
  rw [(C116_joined _ _ _).2]
  refine ⟨by simp, by norm_num, ⟨[], [], rfl, rfl, by simp⟩, [], [], ?_, rfl, by simp⟩
  rw [List.filter_cons_of_pos]
  · rfl
  · rw [@decide_eq_true_iff _ (Classical.dec _)]
    refine ⟨?_, ?_, ?_⟩
    · rw [Real.sqrt_lt' (by norm_num)]; norm_num [exD]
    · rw [Real.sqrt_lt' (by norm_num)]; norm_num [exD]
    · exact ((C116_chi2 (exD 7)).1 (by norm_num [exD])).2 (by norm_num [exD])

/-- The tangent plane of the pole of the coordinates. -/
theorem tangent_zero (ra dec : ℝ) : tangent (0, 0) ra dec = (-sind ra * cosd dec, sind dec) := by
  unfold tangent hadec2xy M3.app dot getXYZ
  simp [cosd_zero, sind_zero, sind_neg]

/-- The hypotheses of `C116_exact`: three spots, at the positions of the dithers. -/
example : ∃ (dither : List Dither) (fvc : List Fvc) (fa : List Fa),
    ¬ OnLine ((joined dither fvc fa).map fun r => tangent (0, 0) r.1.1.ra r.1.1.dec) ∧
      ∀ r ∈ joined dither fvc fa, tangent (0, 0) r.2.ra r.2.dec =
      (1 * (cosd 0 * (tangent (0, 0) r.1.1.ra r.1.1.dec).1 - sind 0 * (tangent (0, 0) r.1.1.ra r.1.1.dec).2) + 0,
       1 * (sind 0 * (tangent (0, 0) r.1.1.ra r.1.1.dec).1 + cosd 0 * (tangent (0, 0) r.1.1.ra r.1.1.dec).2) + 0) := by
  let d : ℤ → ℝ → ℝ → Dither := fun f ra dec => ⟨f, 0, 0, 0.1, 0.1, 1, 100, ra, dec⟩
  have hg : ∀ f ra dec, valid (d f ra dec) = true := by
    intro f ra dec
    rw [valid_iff]
    refine ⟨?_, ?_, ?_⟩
    · rw [Real.sqrt_lt' (by norm_num)]; norm_num [d]
    · rw [Real.sqrt_lt' (by norm_num)]; norm_num [d]
    · exact ((C116_chi2 (d f ra dec)).1 (by norm_num [d])).2 (by norm_num [d])
  refine ⟨[d 1 90 0, d 2 (-90) 0, d 3 90 90], [⟨1, 90, 0⟩, ⟨2, -90, 0⟩, ⟨3, 90, 90⟩], [⟨1, 1⟩, ⟨2, 2⟩, ⟨3, 3⟩], ?_⟩
  have hj : joined [d 1 90 0, d 2 (-90) 0, d 3 90 90] [⟨1, 90, 0⟩, ⟨2, -90, 0⟩, ⟨3, 90, 90⟩] [⟨1, 1⟩, ⟨2, 2⟩, ⟨3, 3⟩] =
      [((⟨1, 90, 0⟩, ⟨1, 1⟩), d 1 90 0), ((⟨2, -90, 0⟩, ⟨2, 2⟩), d 2 (-90) 0), ((⟨3, 90, 90⟩, ⟨3, 3⟩), d 3 90 90)] := by
    unfold joined
    have h1 : List.filter valid [d 1 90 0, d 2 (-90) 0, d 3 90 90] = [d 1 90 0, d 2 (-90) 0, d 3 90 90] := by
      simp [hg]
    have h2 : List.filter (fun f : Fvc => @decide (f.ra ≠ 0) (Classical.dec _)) [⟨1, 90, 0⟩, ⟨2, -90, 0⟩, ⟨3, 90, 90⟩] =
        [⟨1, 90, 0⟩, ⟨2, -90, 0⟩, ⟨3, 90, 90⟩] := by
      simp
    rw [h1, h2]
    simp [join, d]
  have s90 : sind 90 = 1 := by rw [← sind_eq]; rw [show (90:ℝ) * Real.pi / 180 = Real.pi / 2 by ring]; simp
  have c90 : cosd 90 = 0 := by rw [← cosd_eq]; rw [show (90:ℝ) * Real.pi / 180 = Real.pi / 2 by ring]; simp
  rw [hj]
  constructor
  · rintro ⟨a, b, c, hne, h⟩
    simp only [List.map_cons, List.map_nil, tangent_zero, sind_neg, s90, c90, cosd_zero, sind_zero] at h
    have h1 := h (-1, 0) (by simp)
    have h2 := h (1, 0) (by simp)
    have h3 := h (0, 1) (by simp)
    simp only at h1 h2 h3
    apply hne
    have : a = 0 := by linarith
    have : b = 0 := by linarith
    have : c = 0 := by linarith
    simp [*]
  · intro r hr
    simp only [List.mem_cons, List.not_mem_nil, or_false] at hr
    rcases hr with rfl | rfl | rfl <;> simp [d, cosd_zero, sind_zero]

end Verif.Props.DitherCompare
