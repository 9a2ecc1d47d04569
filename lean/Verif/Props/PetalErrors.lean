import Verif.Props.AngleErrors
import Verif.Props.Int2ptl

/-!
# C130: errors between motor angles, flattened petal and petal coordinates (`transform/pos2ptl.py`)
-/

namespace Verif.Props.PetalErrors
open Verif.Py Verif.Model.Xy2tp Verif.Model.Pos2ptl Verif.Model.Xy2qs Verif.Model.Int2ptl Verif.Spec Verif.Lemmas.Xy2tp Verif.Lemmas
open Verif.Lemmas.Xy2qs Verif.Lemmas.Trig Verif.Props Verif.Props.Int2ptl Verif.Props.AngleErrors

/-- The distance in polar coordinates. -/
theorem polar_dist (s s' a a' : ℝ) : dist2 (s * Real.cos a, s * Real.sin a) (s' * Real.cos a', s' * Real.sin a') =
    Real.sqrt ((s - s') ^ 2 + 2 * (s * s') * (1 - Real.cos (a - a'))) := by
  unfold dist2
  congr 1
  rw [Real.cos_sub]
  have h := Real.sin_sq_add_cos_sq a
  have h' := Real.sin_sq_add_cos_sq a'
  dsimp only
  linear_combination s ^ 2 * h + s' ^ 2 * h'

theorem stretch {k K s s' f f' : ℝ} (a a' : ℝ) (hk : 0 ≤ k) (hs : 0 ≤ s) (hs' : 0 ≤ s') (hK : 0 ≤ K) (l : k * |s - s'| ≤ |f - f'|)
    (g : |f - f'| ≤ K * |s - s'|) (l1 : k * s ≤ f) (g1 : f ≤ K * s) (l2 : k * s' ≤ f') (g2 : f' ≤ K * s') :
    k * dist2 (s * Real.cos a, s * Real.sin a) (s' * Real.cos a', s' * Real.sin a') ≤
      dist2 (f * Real.cos a, f * Real.sin a) (f' * Real.cos a', f' * Real.sin a') ∧
    dist2 (f * Real.cos a, f * Real.sin a) (f' * Real.cos a', f' * Real.sin a') ≤
      K * dist2 (s * Real.cos a, s * Real.sin a) (s' * Real.cos a', s' * Real.sin a') := by
  have hc : 0 ≤ 1 - Real.cos (a - a') := by linarith [Real.cos_le_one (a - a')]
  have f0 : 0 ≤ f := (mul_nonneg hk hs).trans l1
  have f0' : 0 ≤ f' := (mul_nonneg hk hs').trans l2
  have q1 : (k * |s - s'|) ^ 2 ≤ |f - f'| ^ 2 := pow_le_pow_left₀ (by positivity) l 2
  have q2 : |f - f'| ^ 2 ≤ (K * |s - s'|) ^ 2 := pow_le_pow_left₀ (abs_nonneg _) g 2
  rw [mul_pow, sq_abs, sq_abs] at q1 q2
  have p1 : k * s * (k * s') ≤ f * f' := mul_le_mul l1 l2 (by positivity) f0
  have p2 : f * f' ≤ K * s * (K * s') := mul_le_mul g1 g2 f0' (by positivity)
  have m1 := mul_le_mul_of_nonneg_right p1 hc
  have m2 := mul_le_mul_of_nonneg_right p2 hc
  rw [polar_dist, polar_dist]
  have e : ∀ c : ℝ, 0 ≤ c → ∀ X : ℝ, c * Real.sqrt X = Real.sqrt (c ^ 2 * X) := fun c h X => by
    rw [Real.sqrt_mul (by positivity), Real.sqrt_sq h]
  rw [e k hk, e K hK]
  constructor
  · apply Real.sqrt_le_sqrt
    nlinarith
  · apply Real.sqrt_le_sqrt
    nlinarith

theorem polar_of (x y : ℝ) : (x, y) = (hypot x y * Real.cos (atan2 y x), hypot x y * Real.sin (atan2 y x)) := by
  have hc := cosd_arctan2d x y
  have hs := sind_arctan2d x y
  rw [Model.Trig.arctan2d, cosd_same (put360_same _), Model.Trig.cosd, radians_degrees] at hc
  rw [Model.Trig.arctan2d, sind_same (put360_same _), Model.Trig.sind, radians_degrees] at hs
  rw [hc, hs]

theorem abs_slope {F : ℝ → ℝ} (h : ∀ a b : ℝ, 0 ≤ a → a ≤ b → b ≤ 450 → 99 / 100 * (b - a) ≤ F b - F a ∧ F b - F a ≤ 101 / 100 * (b - a))
    {a b : ℝ} (ha : 0 ≤ a) (hb : 0 ≤ b) (ha' : a ≤ 450) (hb' : b ≤ 450) :
    0.99 * |a - b| ≤ |F a - F b| ∧ |F a - F b| ≤ 1.014 * |a - b| := by
  rcases le_total a b with hab | hab
  · obtain ⟨h1, h2⟩ := h a b ha hab hb'
    rw [abs_sub_comm a b, abs_sub_comm (F a), abs_of_nonneg (by linarith : 0 ≤ b - a), abs_of_nonneg (by linarith : 0 ≤ F b - F a)]
    norm_num at h1 h2 ⊢
    constructor <;> linarith
  · obtain ⟨h1, h2⟩ := h b a hb hab ha'
    rw [abs_of_nonneg (by linarith : 0 ≤ a - b), abs_of_nonneg (by linarith : 0 ≤ F a - F b)]
    norm_num at h1 h2 ⊢
    constructor <;> linarith

theorem size_bounds {F : ℝ → ℝ} (h : ∀ a b : ℝ, 0 ≤ a → a ≤ b → b ≤ 450 → 99 / 100 * (b - a) ≤ F b - F a ∧ F b - F a ≤ 101 / 100 * (b - a))
    (h0 : 0 ≤ F 0 ∧ F 0 ≤ 0.004) {a : ℝ} (ha : 1 ≤ a) (ha' : a ≤ 450) : 0.99 * a ≤ F a ∧ F a ≤ 1.014 * a := by
  obtain ⟨h1, h2⟩ := h 0 a le_rfl (by linarith) ha'
  norm_num at h0 h1 h2 ⊢
  constructor <;> linarith

/-- **C130** Distances in the flattened petal and in the petal differ by at most -1 and +1.4 percent, both ways, for all pairs of points between
1 and 450 mm from the centre. -/
theorem C130_flat (p q : ℝ × ℝ) (hp : 1 ≤ radius p ∧ radius p ≤ 450) (hq : 1 ≤ radius q ∧ radius q ≤ 450) :
    (0.99 * dist2 p q ≤ dist2 (ptl2flat p.1 p.2) (ptl2flat q.1 q.2) ∧ dist2 (ptl2flat p.1 p.2) (ptl2flat q.1 q.2) ≤ 1.014 * dist2 p q) ∧
    (0.99 * dist2 p q ≤ dist2 (flat2ptl p.1 p.2) (flat2ptl q.1 q.2) ∧ dist2 (flat2ptl p.1 p.2) (flat2ptl q.1 q.2) ≤ 1.014 * dist2 p q) := by
  have ep := polar_of p.1 p.2
  have eq := polar_of q.1 q.2
  change 1 ≤ hypot p.1 p.2 ∧ hypot p.1 p.2 ≤ 450 at hp
  change 1 ≤ hypot q.1 q.2 ∧ hypot q.1 q.2 ≤ 450 at hq
  have e : dist2 p q = dist2 (p.1, p.2) (q.1, q.2) := rfl
  rw [e, ep, eq]
  unfold ptl2flat flat2ptl
  dsimp only
  have one : ∀ F : ℝ → ℝ, (∀ a b : ℝ, 0 ≤ a → a ≤ b → b ≤ 450 → 99 / 100 * (b - a) ≤ F b - F a ∧ F b - F a ≤ 101 / 100 * (b - a)) →
      0 ≤ F 0 ∧ F 0 ≤ 0.004 → _ := fun F h h0 =>
    stretch (k := 0.99) (K := 1.014) (f := F (hypot p.1 p.2)) (f' := F (hypot q.1 q.2)) (atan2 p.2 p.1) (atan2 q.2 q.1) (by norm_num)
      (hypot_nonneg _ _) (hypot_nonneg _ _) (by norm_num)
      (abs_slope h (hypot_nonneg _ _) (hypot_nonneg _ _) hp.2 hq.2).1 (abs_slope h (hypot_nonneg _ _) (hypot_nonneg _ _) hp.2 hq.2).2
      (size_bounds h h0 hp.1 hp.2).1 (size_bounds h h0 hp.1 hp.2).2 (size_bounds h h0 hq.1 hq.2).1 (size_bounds h h0 hq.1 hq.2).2
  exact ⟨one r2s r2s_slope (by rw [r2s_zero]; norm_num), one s2r s2r_slope (by rw [s2r_zero]; norm_num)⟩

/-- **C130** Errors of the motor angles carried to petal coordinates by `int2ptl`, for any number of positioners: at most 1.014 times the
bound for the arms. -/
theorem C130_int2ptl (n : ℕ) (t p t' p' : ℕ → ℝ) (c : ℕ → Cal) : ∃ x y x' y' : ℕ → ℝ,
    int2ptl (col n t) (col n p) (col n fun i => (c i).r1) (col n fun i => (c i).r2) (col n fun i => (c i).tOff)
      (col n fun i => (c i).pOff) (col n fun i => (c i).x) (col n fun i => (c i).y) = .ok (col n x, col n y) ∧
    int2ptl (col n t') (col n p') (col n fun i => (c i).r1) (col n fun i => (c i).r2) (col n fun i => (c i).tOff)
      (col n fun i => (c i).pOff) (col n fun i => (c i).x) (col n fun i => (c i).y) = .ok (col n x', col n y') ∧
    ∀ i < n, 0 ≤ (c i).r1 → 0 ≤ (c i).r2 → (1 ≤ radius (tip (c i) (t i) (p i)) ∧ radius (tip (c i) (t i) (p i)) ≤ 450) →
      (1 ≤ radius (tip (c i) (t' i) (p' i)) ∧ radius (tip (c i) (t' i) (p' i)) ≤ 450) →
      dist2 (x i, y i) (x' i, y' i) ≤
        1.014 * (Real.pi / 180 * (((c i).r1 + (c i).r2) * |t i - t' i| + (c i).r2 * |p i - p' i|)) := by
  refine ⟨_, _, _, _, int2ptl_run n t p c, int2ptl_run n t' p' c, fun i _ h1 h2 hr hr' => ?_⟩
  refine ((C130_flat _ _ hr hr').2.2).trans (mul_le_mul_of_nonneg_left ?_ (by norm_num))
  have h := C129_position (t i + (c i).tOff, p i + (c i).pOff) (t' i + (c i).tOff, p' i + (c i).pOff) h1 h2
  rw [tip_tp2xy, tip_tp2xy]
  unfold dist2 at h ⊢
  dsimp only at h ⊢
  simp only [add_sub_add_right_eq_sub] at h ⊢
  exact h

/-- **C130** Errors of petal coordinates carried to the motor angles by `ptl2int`, for any number of positioners, with guesses or without:
where both points are reached and phi is at least `a` degrees from 0 and 180 (with its offset), phi differs by at most
`90 (r1+r2) / (r1 r2 sin a)` degrees times 1.014 times the distance. -/
theorem C130_ptl2int (n : ℕ) (x y x' y' : ℕ → ℝ) (c : ℕ → Cal) (g g' : Option (ℕ → ℝ)) (tol tol' : ℝ)
    (hr : ∀ i < n, contraction ≤ (c i).r1 ∧ contraction ≤ (c i).r2) : ∃ (t p t' p' : ℕ → ℝ) (u u' : ℕ → Bool),
    ptl2int (col n x) (col n y) (col n fun i => (c i).r1) (col n fun i => (c i).r2) (col n fun i => (c i).tOff)
      (col n fun i => (c i).pOff) (col n fun i => (c i).x) (col n fun i => (c i).y) (g.map (col n)) [tol] =
      .ok (col n t, col n p, (List.range n).map u) ∧
    ptl2int (col n x') (col n y') (col n fun i => (c i).r1) (col n fun i => (c i).r2) (col n fun i => (c i).tOff)
      (col n fun i => (c i).pOff) (col n fun i => (c i).x) (col n fun i => (c i).y) (g'.map (col n)) [tol'] =
      .ok (col n t', col n p', (List.range n).map u') ∧
    ∀ i < n, u i = false → u' i = false → (1 ≤ radius (x i, y i) ∧ radius (x i, y i) ≤ 450) →
      (1 ≤ radius (x' i, y' i) ∧ radius (x' i, y' i) ≤ 450) → ∀ a : ℝ, 0 < a →
      (a ≤ p i + (c i).pOff ∧ p i + (c i).pOff ≤ 180 - a) → (a ≤ p' i + (c i).pOff ∧ p' i + (c i).pOff ≤ 180 - a) →
      (c i).r1 * (c i).r2 * Real.sin (radians a) * |p i - p' i| ≤
        90 * ((c i).r1 + (c i).r2) * (1.014 * dist2 (x i, y i) (x' i, y' i) + 2 * contraction) := by
  have hc := contraction_pos
  have hne : ∀ i < n, (c i).r1 ≠ 0 ∧ (c i).r2 ≠ 0 := fun i hi =>
    ⟨ne_of_gt (lt_of_lt_of_le hc (hr i hi).1), ne_of_gt (lt_of_lt_of_le hc (hr i hi).2)⟩
  obtain ⟨t, p, u, h1, h2⟩ := ptl2int_run n x y c g tol hne
  obtain ⟨t', p', u', h1', h2'⟩ := ptl2int_run n x' y' c g' tol' hne
  refine ⟨t, p, t', p', u, u', h1, h1', fun i hi hu hu' hp hp' a ha hb hb' => ?_⟩
  have e := h2 i hi
  have e' := h2' i hi
  rw [hu] at e
  rw [hu'] at e'
  have k := C129_phi (hr i hi).1 (hr i hi).2 e e' ha hb hb'
  dsimp only at k
  rw [add_sub_add_right_eq_sub] at k
  refine k.trans (mul_le_mul_of_nonneg_left ?_ (by linarith [(hr i hi).1, (hr i hi).2]))
  have d := (C130_flat (x i, y i) (x' i, y' i) hp hp').1.2
  unfold dist2 at d ⊢
  dsimp only at d ⊢
  simp only [sub_sub_sub_cancel_right]
  linarith

/-- A positioner whose axis is 3 mm before the point (200, 0) in both flattened coordinates: the point is reached with phi 90 degrees. -/
example : ∃ c : Cal, contraction ≤ c.r1 ∧ contraction ≤ c.r2 ∧ (1 ≤ radius ((200, 0) : ℝ × ℝ) ∧ radius ((200, 0) : ℝ × ℝ) ≤ 450) ∧
    xy2tp ((ptl2flat 200 0).1 - c.x) ((ptl2flat 200 0).2 - c.y) c.r1 c.r2 (extRanges c.tOff c.pOff) (some 0) 30 =
      .ok ((0, 90), false) := by
  have hc := contraction_pos
  have hc1 : contraction ≤ 1 / 100 := by unfold contraction epsilon; norm_num
  have he := epsilon_pos
  have he' : epsilon < 1 := by unfold epsilon; norm_num
  have e : tp2xy (0, 90) 3 3 = (3, 3) := by
    unfold tp2xy radians
    dsimp only
    rw [zero_mul, zero_add, show (90:ℝ) * (Real.pi / 180) = Real.pi / 2 by ring]
    simp
  have hn : radius ((3, 3) : ℝ × ℝ) = Real.sqrt 18 := by unfold radius; norm_num
  have l4 : 4 ≤ Real.sqrt 18 := Real.le_sqrt_of_sq_le (by norm_num)
  have u5 : Real.sqrt 18 ≤ 5 := Real.sqrt_le_iff.2 (by norm_num)
  have h2 : radius ((200, 0) : ℝ × ℝ) = 200 := by
    unfold radius
    rw [Real.sqrt_eq_iff_mul_self_eq (by norm_num) (by norm_num)]
    norm_num
  refine ⟨⟨3, 3, 0, 0, (ptl2flat 200 0).1 - 3, (ptl2flat 200 0).2 - 3⟩, by dsimp only; linarith, by dsimp only; linarith,
    ⟨by rw [h2]; norm_num, by rw [h2]; norm_num⟩, ?_⟩
  have k := C05_guess_round_trip (r1 := 3) (r2 := 3) (rg := extRanges 0 0) (tol := 30) (tp := (0, 90)) (by linarith) (by linarith)
    (by unfold width extRanges defaultT; dsimp only; rw [max_eq_right (by linarith), min_eq_left (by linarith)]; linarith)
    (by unfold width extRanges defaultP; norm_num) (by norm_num)
    (by unfold InRange extRanges defaultT; dsimp only; rw [max_eq_right (by linarith), min_eq_left (by linarith)]; constructor <;> linarith)
    (by unfold InRange extRanges defaultP; norm_num)
    (by rw [e, hn]; norm_num; linarith) (by rw [e, hn]; linarith)
  rw [e] at k
  simpa using k

end Verif.Props.PetalErrors
