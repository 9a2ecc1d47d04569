import Verif.Model.Raytracefit
import Verif.Lemmas.Trig
import Verif.Lemmas.Fvc2fp

namespace Verif.Props
open Verif.Py Verif.Spec Verif.Model.ZhaoBurge Verif.Model.Fvc2fp Verif.Model.Trig Verif.Model.Raytracefit
open Verif.Lemmas Verif.Lemmas.Xy2tp Verif.Lemmas.Trig Verif.Lemmas.Fvc2fp

/-- Rotation of a planar point by `a` degrees, counter-clockwise. -/
noncomputable def turn (a : ℝ) (p : ℝ × ℝ) : ℝ × ℝ :=
  (Real.cos (a * (Real.pi / 180)) * p.1 - Real.sin (a * (Real.pi / 180)) * p.2,
   Real.sin (a * (Real.pi / 180)) * p.1 + Real.cos (a * (Real.pi / 180)) * p.2)

/-- C27: the ADC mean is always defined: it is the first ADC angle advanced by half of the
(wrapped) difference, in [0,360). -/
theorem C27_mean (a1 a2 d : ℝ) (hd0 : 0 ≤ d) (hd1 : d < 360) (hd : SameAngle (a1 + d) a2) :
    0 ≤ averageAnglesAdc a1 a2 ∧ averageAnglesAdc a1 a2 < 360 ∧
    SameAngle (averageAnglesAdc a1 a2) (a1 + d / 2) := by
  obtain ⟨k, hk⟩ := hd
  unfold averageAnglesAdc
  split_ifs with h
  · have h1 : put360 a1 = fmod a1 360 := rfl
    rw [← h1]
    refine ⟨(put360_range _).1, (put360_range _).2, ?_⟩
    have h2 := put360_same (a1 - a2)
    unfold put360 at h2
    rw [h] at h2
    obtain ⟨j, hj⟩ := h2
    have hd0' : d = 0 := by
      have hs : SameAngle d 0 := ⟨j + k, by push_cast; linarith⟩
      exact same_unique hs hd0 hd1 (le_refl 0) (by norm_num)
    rw [hd0']; simpa using put360_same a1
  · have hdpos : 0 < d := by
      rcases hd0.lt_or_eq with h0 | h0
      · exact h0
      · exfalso; apply h
        have : a1 - a2 = 360 * (k : ℝ) := by linarith
        rw [this]; unfold fmod
        rw [mul_div_cancel_left₀ _ (by norm_num : (360:ℝ) ≠ 0), Int.floor_intCast, sub_self]
    have hs : sind (a2 - 90) = sind (a1 + d - 90) :=
      sind_same ⟨-k, by push_cast; linarith⟩
    have hc : cosd (a2 - 90) = cosd (a1 + d - 90) :=
      cosd_same ⟨-k, by push_cast; linarith⟩
    have hpi := Real.pi_pos
    have hr : 0 < 2 * Real.sin (radians (d / 2)) := by
      refine mul_pos two_pos (Real.sin_pos_of_pos_of_lt_pi ?_ ?_)
      · unfold radians; positivity
      · unfold radians
        nlinarith
    have e1 : sind (a1 + 90) + sind (a2 - 90) = 2 * Real.sin (radians (d / 2)) * sind (a1 + d / 2) := by
      rw [hs]; unfold sind
      rw [show radians (a1 + 90) = radians (a1 + d / 2) - radians (d / 2) + Real.pi / 2 by unfold radians; ring,
        show radians (a1 + d - 90) = radians (a1 + d / 2) + radians (d / 2) - Real.pi / 2 by unfold radians; ring,
        Real.sin_add_pi_div_two, Real.sin_sub_pi_div_two, Real.cos_sub, Real.cos_add]
      ring
    have e2 : cosd (a1 + 90) + cosd (a2 - 90) = 2 * Real.sin (radians (d / 2)) * cosd (a1 + d / 2) := by
      rw [hc]; unfold cosd
      rw [show radians (a1 + 90) = radians (a1 + d / 2) - radians (d / 2) + Real.pi / 2 by unfold radians; ring,
        show radians (a1 + d - 90) = radians (a1 + d / 2) + radians (d / 2) - Real.pi / 2 by unfold radians; ring,
        Real.cos_add_pi_div_two, Real.cos_sub_pi_div_two, Real.sin_sub, Real.sin_add]
      ring
    unfold averageAnglesDeg
    rw [e1, e2, arctan2d_polar hr]
    exact ⟨(put360_range _).1, (put360_range _).2, put360_same _⟩

theorem mean_exists (a1 a2 : ℝ) : ∃ d, 0 ≤ d ∧ d < 360 ∧ SameAngle (a1 + d) a2 := by
  refine ⟨put360 (a2 - a1), (put360_range _).1, (put360_range _).2, ?_⟩
  obtain ⟨k, hk⟩ := put360_same (a2 - a1)
  exact ⟨k, by rw [hk]; ring⟩

/-- C27: whole turns of either ADC do not change the mean. -/
theorem C27_mean_turns (a1 a2 : ℝ) (k l : ℤ) :
    averageAnglesAdc (a1 + 360 * k) (a2 + 360 * l) = averageAnglesAdc a1 a2 := by
  obtain ⟨d, h0, h1, hd⟩ := mean_exists a1 a2
  obtain ⟨b0, b1, b2⟩ := C27_mean a1 a2 d h0 h1 hd
  obtain ⟨c0, c1, c2⟩ := C27_mean (a1 + 360 * k) (a2 + 360 * l) d h0 h1 (by
    obtain ⟨j, hj⟩ := hd
    exact ⟨j + k - l, by push_cast; linarith⟩)
  refine same_unique (sameAngle_trans c2 (sameAngle_trans ?_ (sameAngle_symm b2))) c0 c1 b0 b1
  exact ⟨k, by ring⟩

/-- C27: advancing both ADCs advances the mean by the same angle. -/
theorem C27_mean_advance (a1 a2 f : ℝ) :
    SameAngle (averageAnglesAdc (a1 + f) (a2 + f)) (averageAnglesAdc a1 a2 + f) := by
  obtain ⟨d, h0, h1, hd⟩ := mean_exists a1 a2
  obtain ⟨-, -, k, hk⟩ := C27_mean a1 a2 d h0 h1 hd
  obtain ⟨-, -, l, hl⟩ := C27_mean (a1 + f) (a2 + f) d h0 h1 (by
    obtain ⟨j, hj⟩ := hd
    exact ⟨j, by linarith⟩)
  exact ⟨l - k, by rw [hk, hl]; push_cast; ring⟩

/-- C27: the difference used for the interpolation is the wrapped angle from ADC1 to ADC2. -/
theorem C27_delta (a1 a2 : ℝ) : 0 ≤ deltaAnglesAdc a1 a2 ∧ deltaAnglesAdc a1 a2 < 360 ∧
    SameAngle (a1 + deltaAnglesAdc a1 a2) a2 := by
  unfold deltaAnglesAdc
  refine ⟨(put360_range _).1, (put360_range _).2, ?_⟩
  obtain ⟨k, hk⟩ := put360_same (a2 - a1)
  exact ⟨k, by rw [hk]; ring⟩

theorem turn_add (a b : ℝ) (p : ℝ × ℝ) : turn (a + b) p = turn a (turn b p) := by
  unfold turn
  rw [add_mul, Real.cos_add, Real.sin_add]
  ext <;> simp only <;> ring

theorem turn_same {a b : ℝ} (h : SameAngle a b) : turn a = turn b := by
  funext p
  have h1 := cosd_same h
  have h2 := sind_same h
  unfold cosd radians at h1
  unfold sind radians at h2
  unfold turn; rw [h1, h2]

theorem turn_neg (a : ℝ) (p : ℝ × ℝ) : turn (-a) p =
    (Real.cos (a * (Real.pi / 180)) * p.1 + Real.sin (a * (Real.pi / 180)) * p.2,
     -Real.sin (a * (Real.pi / 180)) * p.1 + Real.cos (a * (Real.pi / 180)) * p.2) := by
  unfold turn; rw [neg_mul, Real.cos_neg, Real.sin_neg]; ext <;> simp only <;> ring

theorem turn_zero (p : ℝ × ℝ) : turn 0 p = p := by unfold turn; simp

theorem turn_undo (a : ℝ) (p : ℝ × ℝ) : turn a (turn (-a) p) = p := by
  rw [← turn_add, add_neg_cancel, turn_zero]

theorem turn_undo' (a : ℝ) (p : ℝ × ℝ) : turn (-a) (turn a p) = p := by
  rw [← turn_add, neg_add_cancel, turn_zero]

theorem turn_reduceTan (a : ℝ) (p : ℝ × ℝ) : reduceTan (turn a p) = turn a (reduceTan p) := by
  unfold reduceTan turn; ext <;> simp only <;> ring
theorem turn_reduceFp (a : ℝ) (p : ℝ × ℝ) : reduceFp (turn a p) = turn a (reduceFp p) := by
  unfold reduceFp turn; ext <;> simp only <;> ring
theorem turn_expandFp (a : ℝ) (p : ℝ × ℝ) : expandFp (turn a p) = turn a (expandFp p) := by
  unfold expandFp turn; ext <;> simp only <;> ring
theorem turn_expandTan (a : ℝ) (p : ℝ × ℝ) : expandTan (turn a p) = turn a (expandTan p) := by
  unfold expandTan turn; ext <;> simp only <;> ring

/-- Ray-trace model as the un-rotated pixel model between two rotations. -/
noncomputable def core (t : RayTraceFit) (c : Coeffs) : FVC2FP :=
  ⟨0.027, 0.027, 0, 0, c.scale, c.rotation, c.offsetX, c.offsetY, t.zbpolids, c.zb⟩

theorem mapM_map' {α β γ : Type} (f : β → Except PyErr γ) (g : α → β) (l : List α) :
    (l.map g).mapM f = l.mapM fun a => f (g a) := by
  induction l with
  | nil => rfl
  | cons a l ih => simp only [List.map_cons, List.mapM_cons, ih]

theorem mapM_post {α β γ : Type} (f : α → Except PyErr β) (g : β → γ) (l : List α) :
    (l.mapM fun a => (do let b ← f a; return g b : Except PyErr γ)) = (do let bs ← l.mapM f; return bs.map g) := by
  induction l with
  | nil => rfl
  | cons a l ih =>
    simp only [List.mapM_cons, ih]
    cases f a with
    | error e => rfl
    | ok b =>
      cases l.mapM f with
      | error e => rfl
      | ok bs => rfl

theorem mapM_congr' {α β : Type} {f g : α → Except PyErr β} (l : List α) (h : ∀ a, f a = g a) : l.mapM f = l.mapM g := by
  rw [funext h]

theorem tan2fp_core (t : RayTraceFit) (pts : List (ℝ × ℝ)) (a1 a2 : ℝ) (c : Coeffs)
    (hc : t.interp (deltaAnglesAdc a1 a2) = .ok c) :
    t.tan2fp pts a1 a2 = (do
      let q ← (core t c).fvc2fp (pts.map (turn (-averageAnglesAdc a1 a2)))
      return q.map (turn (averageAnglesAdc a1 a2))) := by
  unfold RayTraceFit.tan2fp RayTraceFit.interpolateCoeffs FVC2FP.fvc2fp
  rw [hc]
  simp only [bind, Except.bind]
  rw [mapM_map']
  have := mapM_post (fun p : ℝ × ℝ => (do
    let r := (core t c).reduceFvc (turn (-averageAnglesAdc a1 a2) p)
    let q ← transform r.1 r.2 (core t c).scale (core t c).rotation (core t c).offsetX (core t c).offsetY
      (some ((core t c).zbpolids, (core t c).zbcoeffs))
    return expandFp q : Except PyErr (ℝ × ℝ))) (turn (averageAnglesAdc a1 a2)) pts
  simp only [bind, Except.bind, pure, Except.pure] at this ⊢
  rw [← this]
  refine mapM_congr' pts fun p => ?_
  have hr : ((core t c).reduceFvc (turn (-averageAnglesAdc a1 a2) p)) =
      (Real.cos (radians (averageAnglesAdc a1 a2)) * (reduceTan p).1 + Real.sin (radians (averageAnglesAdc a1 a2)) * (reduceTan p).2,
       -Real.sin (radians (averageAnglesAdc a1 a2)) * (reduceTan p).1 + Real.cos (radians (averageAnglesAdc a1 a2)) * (reduceTan p).2) := by
    unfold FVC2FP.reduceFvc core reduceTan radians
    rw [turn_neg]
    ext <;> simp only <;> ring
  rw [hr]
  simp only [core]
  cases transform _ _ _ _ _ _ _ with
  | error e => rfl
  | ok q =>
    simp only
    rw [← turn_expandFp]
    rfl

theorem fp2tan_core (t : RayTraceFit) (pts : List (ℝ × ℝ)) (a1 a2 : ℝ) (c : Coeffs)
    (hc : t.interp (deltaAnglesAdc a1 a2) = .ok c) :
    t.fp2tan pts a1 a2 = (do
      let q ← (core t c).fp2fvc (pts.map (turn (-averageAnglesAdc a1 a2)))
      return q.map (turn (averageAnglesAdc a1 a2))) := by
  unfold RayTraceFit.fp2tan RayTraceFit.interpolateCoeffs FVC2FP.fp2fvc
  rw [hc]
  simp only [bind, Except.bind, pure, Except.pure]
  have hr : pts.map (fun p => ((Real.cos (radians (averageAnglesAdc a1 a2)) * (reduceFp p).1 + Real.sin (radians (averageAnglesAdc a1 a2)) * (reduceFp p).2,
       -Real.sin (radians (averageAnglesAdc a1 a2)) * (reduceFp p).1 + Real.cos (radians (averageAnglesAdc a1 a2)) * (reduceFp p).2) : ℝ × ℝ)) =
      (pts.map (turn (-averageAnglesAdc a1 a2))).map reduceFp := by
    rw [List.map_map]
    refine List.map_congr_left fun p _ => ?_
    simp only [Function.comp]
    rw [turn_reduceFp, turn_neg]
    rfl
  rw [hr]
  generalize (pts.map (turn (-averageAnglesAdc a1 a2))).map reduceFp = R
  simp only [core]
  cases corrLoop _ _ _ _ _ with
  | error e => rfl
  | ok d =>
    simp only
    congr 1
    rw [List.map_map]
    refine List.map_congr_left fun e _ => ?_
    simp only [Function.comp, FVC2FP.undoLinear, FVC2FP.expandFvc, expandTan, turn, radians]
    ext <;> simp only <;> ring

/-- C27: rotating both ADCs and all input points by the same angle rotates the focal plane
points by that angle (errors are the same too). -/
theorem C27_equivariance (t : RayTraceFit) (pts : List (ℝ × ℝ)) (a1 a2 f : ℝ) :
    t.tan2fp (pts.map (turn f)) (a1 + f) (a2 + f) =
      (do let q ← t.tan2fp pts a1 a2; return q.map (turn f)) := by
  have hdel : deltaAnglesAdc (a1 + f) (a2 + f) = deltaAnglesAdc a1 a2 := by
    unfold deltaAnglesAdc; congr 1; ring
  cases hc : t.interp (deltaAnglesAdc a1 a2) with
  | error e =>
    unfold RayTraceFit.tan2fp RayTraceFit.interpolateCoeffs
    rw [hdel, hc]; rfl
  | ok c =>
    rw [tan2fp_core t _ _ _ c (by rw [hdel, hc]), tan2fp_core t _ _ _ c hc]
    have hm := C27_mean_advance a1 a2 f
    have h1 : turn (averageAnglesAdc (a1 + f) (a2 + f)) = fun p => turn f (turn (averageAnglesAdc a1 a2) p) := by
      rw [turn_same hm]; funext p; rw [add_comm, turn_add]
    have h2 : (pts.map (turn f)).map (turn (-averageAnglesAdc (a1 + f) (a2 + f))) =
        pts.map (turn (-averageAnglesAdc a1 a2)) := by
      rw [List.map_map]
      refine List.map_congr_left fun p _ => ?_
      simp only [Function.comp]
      obtain ⟨k, hk⟩ := hm
      rw [← turn_add]
      have : SameAngle (-averageAnglesAdc (a1 + f) (a2 + f) + f) (-averageAnglesAdc a1 a2) :=
        ⟨-k, by rw [hk]; push_cast; ring⟩
      rw [turn_same this]
    rw [h1, h2]
    cases (core t c).fvc2fp _ with
    | error e => rfl
    | ok q => simp only [bind, Except.bind, pure, Except.pure, List.map_map]; rfl

/-- C27: the same for the inverse direction. -/
theorem C27_equivariance_inverse (t : RayTraceFit) (pts : List (ℝ × ℝ)) (a1 a2 f : ℝ) :
    t.fp2tan (pts.map (turn f)) (a1 + f) (a2 + f) =
      (do let q ← t.fp2tan pts a1 a2; return q.map (turn f)) := by
  have hdel : deltaAnglesAdc (a1 + f) (a2 + f) = deltaAnglesAdc a1 a2 := by
    unfold deltaAnglesAdc; congr 1; ring
  cases hc : t.interp (deltaAnglesAdc a1 a2) with
  | error e =>
    unfold RayTraceFit.fp2tan RayTraceFit.interpolateCoeffs
    rw [hdel, hc]; rfl
  | ok c =>
    rw [fp2tan_core t _ _ _ c (by rw [hdel, hc]), fp2tan_core t _ _ _ c hc]
    have hm := C27_mean_advance a1 a2 f
    have h1 : turn (averageAnglesAdc (a1 + f) (a2 + f)) = fun p => turn f (turn (averageAnglesAdc a1 a2) p) := by
      rw [turn_same hm]; funext p; rw [add_comm, turn_add]
    have h2 : (pts.map (turn f)).map (turn (-averageAnglesAdc (a1 + f) (a2 + f))) =
        pts.map (turn (-averageAnglesAdc a1 a2)) := by
      rw [List.map_map]
      refine List.map_congr_left fun p _ => ?_
      simp only [Function.comp]
      obtain ⟨k, hk⟩ := hm
      rw [← turn_add]
      have : SameAngle (-averageAnglesAdc (a1 + f) (a2 + f) + f) (-averageAnglesAdc a1 a2) :=
        ⟨-k, by rw [hk]; push_cast; ring⟩
      rw [turn_same this]
    rw [h1, h2]
    cases (core t c).fp2fvc _ with
    | error e => rfl
    | ok q => simp only [bind, Except.bind, pure, Except.pure, List.map_map]; rfl

/-- C27: whole turns of the ADCs change nothing. -/
theorem C27_turns (t : RayTraceFit) (pts : List (ℝ × ℝ)) (a1 a2 : ℝ) (k l : ℤ) :
    t.tan2fp pts (a1 + 360 * k) (a2 + 360 * l) = t.tan2fp pts a1 a2 ∧
    t.fp2tan pts (a1 + 360 * k) (a2 + 360 * l) = t.fp2tan pts a1 a2 := by
  have hdel : deltaAnglesAdc (a1 + 360 * k) (a2 + 360 * l) = deltaAnglesAdc a1 a2 := by
    unfold deltaAnglesAdc
    refine same_unique (sameAngle_trans (put360_same _) (sameAngle_trans ?_ (sameAngle_symm (put360_same _))))
      (put360_range _).1 (put360_range _).2 (put360_range _).1 (put360_range _).2
    exact ⟨l - k, by push_cast; ring⟩
  unfold RayTraceFit.tan2fp RayTraceFit.fp2tan RayTraceFit.interpolateCoeffs
  rw [hdel, C27_mean_turns]
  exact ⟨rfl, rfl⟩

/-- C27: `tan2fp` maps the result of `fp2tan` back to the requested points up to the same
bound as in `C24_residual` (in coordinates turned by the mean ADC angle). -/
theorem C27_inverse (t : RayTraceFit) (c : Coeffs) (a1 a2 : ℝ) (hc : t.interp (deltaAnglesAdc a1 a2) = .ok c)
    (hs : c.scale ≠ 0) (D : ℝ × ℝ → ℝ × ℝ)
    (hD : ∀ x y, getZhaoBurgeXY t.zbpolids c.zb x y = .ok (D (x, y)))
    (pts : List (ℝ × ℝ)) (hne : pts ≠ []) (S : Set (ℝ × ℝ)) (L : ℝ) (hL0 : 0 ≤ L)
    (hL : ∀ a ∈ S, ∀ b ∈ S, dist (D a) (D b) ≤ L * dist a b)
    (hS : ∀ p ∈ pts, reduceFp (turn (-averageAnglesAdc a1 a2) p) ∈ S ∧
      ∀ q ∈ S, reduceFp (turn (-averageAnglesAdc a1 a2) p) - D q ∈ S) :
    ∃ u back : ℝ × ℝ → ℝ × ℝ, t.fp2tan pts a1 a2 = .ok (pts.map u) ∧
      t.tan2fp (pts.map u) a1 a2 = .ok (pts.map back) ∧
      ∀ p ∈ pts, dist (turn (-averageAnglesAdc a1 a2) (back p)) (turn (-averageAnglesAdc a1 a2) p) ≤
        420 * max (L * 1e-12) (L ^ 20 * ‖D (reduceFp (turn (-averageAnglesAdc a1 a2) p))‖) := by
  have h27 : (core t c).xfvcScale ≠ 0 := by simp only [core]; norm_num
  have h27' : (core t c).yfvcScale ≠ 0 := by simp only [core]; norm_num
  have hs' : (core t c).scale ≠ 0 := hs
  have hD' : ∀ x y, getZhaoBurgeXY (core t c).zbpolids (core t c).zbcoeffs x y = .ok (D (x, y)) := hD
  set m := averageAnglesAdc a1 a2 with hm
  obtain ⟨j, -, he, hstop⟩ := fp2fvc_eq (core t c) hD' (pts := pts.map (turn (-m))) (by simpa using hne)
  refine ⟨fun p => turn m ((core t c).undoLinear (reduceFp (turn (-m) p) - corr D (reduceFp (turn (-m) p)) j)),
    fun p => turn m (expandFp (reduceFp (turn (-m) p) - corr D (reduceFp (turn (-m) p)) j +
      D (reduceFp (turn (-m) p) - corr D (reduceFp (turn (-m) p)) j))), ?_, ?_, ?_⟩
  · rw [fp2tan_core t pts a1 a2 c hc, ← hm, he]
    simp only [bind, Except.bind, pure, Except.pure, List.map_map]
    rfl
  · rw [tan2fp_core t _ a1 a2 c hc, ← hm, fvc2fp_eq (core t c) hD']
    simp only [bind, Except.bind, pure, Except.pure, List.map_map]
    congr 1
    refine List.map_congr_left fun p _ => ?_
    simp only [Function.comp]
    rw [turn_undo', lin_undo _ h27 h27' hs']
  · intro p hp
    rw [turn_undo']
    obtain ⟨hpS, hcS⟩ := hS p hp
    generalize hr : turn (-m) p = p' at *
    have e : dist (expandFp (reduceFp p' - corr D (reduceFp p') j + D (reduceFp p' - corr D (reduceFp p') j))) p' =
        420 * dist (corr D (reduceFp p') (j + 1)) (corr D (reduceFp p') j) := by
      conv_lhs => rw [← expand_reduceFp p', reduce_expandFp]
      rw [dist_expandFp]
      congr 1
      change dist (reduceFp p' - corr D (reduceFp p') j + corr D (reduceFp p') (j + 1)) _ = _
      rw [dist_eq_norm, dist_eq_norm]; congr 1; abel
    rw [e]
    refine mul_le_mul_of_nonneg_left ?_ (by norm_num)
    rcases hstop with rfl | ⟨i, rfl, hi⟩
    · exact (corr_geom hL0 hL hpS hcS 20).trans (le_max_right _ _)
    · refine le_trans ?_ (le_max_left _ _)
      have hi' := hi p' (List.mem_map.2 ⟨p, hp, hr⟩)
      exact ((corr_step hL hpS hcS i).2).trans (mul_le_mul_of_nonneg_left hi'.le hL0)

/-- ADC angles 350 and 30: difference 40, mean 10. -/
example : averageAnglesAdc 350 30 = 10 := by
  obtain ⟨h0, h1, h2⟩ := C27_mean 350 30 40 (by norm_num) (by norm_num) ⟨1, by norm_num⟩
  refine same_unique (sameAngle_trans h2 ⟨1, by norm_num⟩) h0 h1 (by norm_num) (by norm_num)
/-- The other order gives the opposite direction. -/
example : averageAnglesAdc 30 350 = 190 := by
  obtain ⟨h0, h1, h2⟩ := C27_mean 30 350 320 (by norm_num) (by norm_num) ⟨0, by norm_num⟩
  refine same_unique (sameAngle_trans h2 ⟨0, by norm_num⟩) h0 h1 (by norm_num) (by norm_num)
/-- A model meeting the hypotheses of `C27_inverse`: constant distortion. -/
example : ∃ D : ℝ × ℝ → ℝ × ℝ, (∀ x y, getZhaoBurgeXY [] [] x y = .ok (D (x, y))) ∧
    ∀ a ∈ (Set.univ : Set (ℝ × ℝ)), ∀ b ∈ (Set.univ : Set (ℝ × ℝ)), dist (D a) (D b) ≤ 0 * dist a b :=
  ⟨fun _ => (0, 0), fun _ _ => rfl, fun a _ b _ => by simp⟩

end Verif.Props
