import Verif.Props.Shipped

/-!
# C133: the scale from the sky to the focal plane (`transform/tan2fp/raytracefit.py` and the tables shipped)
-/

namespace Verif.Props.SkyScale
open Verif.Py Verif.Model.ZhaoBurge Verif.Model.Fvc2fp Verif.Model.Raytracefit Verif.Model.Shipped Verif.Lemmas.Fvc2fp Verif.Lemmas.ZhaoBurgeLip
open Verif.Props Verif.Props.Shipped

/-- Squared distance from both sides by the larger of the coordinates. -/
theorem sq_dist (a b : ℝ × ℝ) : dist a b ^ 2 ≤ (a.1 - b.1) ^ 2 + (a.2 - b.2) ^ 2 ∧ (a.1 - b.1) ^ 2 + (a.2 - b.2) ^ 2 ≤ 2 * dist a b ^ 2 := by
  rw [Prod.dist_eq, Real.dist_eq, Real.dist_eq]
  have h1 := sq_abs (a.1 - b.1)
  have h2 := sq_abs (a.2 - b.2)
  have p1 := abs_nonneg (a.1 - b.1)
  have p2 := abs_nonneg (a.2 - b.2)
  rcases le_total |a.1 - b.1| |a.2 - b.2| with h | h
  · rw [max_eq_right h]; constructor <;> nlinarith
  · rw [max_eq_left h]; constructor <;> nlinarith

theorem turn_sq_sub (a : ℝ) (p q : ℝ × ℝ) :
    ((turn a p).1 - (turn a q).1) ^ 2 + ((turn a p).2 - (turn a q).2) ^ 2 = (p.1 - q.1) ^ 2 + (p.2 - q.2) ^ 2 := by
  have e := turn_sub a p q
  have g := turn_sq a (p.1 - q.1, p.2 - q.2)
  rw [← e] at g
  exact g

/-- **C133** The scale of the ray tracer: a distance on the tangent plane within 0.0278 of its centre (1.59 degrees) becomes a distance on the focal
plane that is between 5800 and 32400 mm per unit of it, for any ADC angles for which the interpolated coefficients are like those of the tables.  In
particular different directions have different places. -/
theorem C133_sky_scale (t : RayTraceFit) (ht : t.zbpolids = rayIds) (c : Coeffs) (a1 a2 : ℝ) (hc : t.interp (deltaAnglesAdc a1 a2) = .ok c)
    (hr : RayLike c) (u v : ℝ × ℝ) (hu : u.1 ^ 2 + u.2 ^ 2 ≤ 0.0278 ^ 2) (hv : v.1 ^ 2 + v.2 ^ 2 ≤ 0.0278 ^ 2) :
    ∃ p q, t.tan2fp [u, v] a1 a2 = .ok [p, q] ∧
      5800 ^ 2 * ((u.1 - v.1) ^ 2 + (u.2 - v.2) ^ 2) ≤ (p.1 - q.1) ^ 2 + (p.2 - q.2) ^ 2 ∧
      (p.1 - q.1) ^ 2 + (p.2 - q.2) ^ 2 ≤ 32400 ^ 2 * ((u.1 - v.1) ^ 2 + (u.2 - v.2) ^ 2) := by
  obtain ⟨s1, s2, s3, s4, hw⟩ := hr
  obtain ⟨-, b2, -⟩ := ray_bounds
  set m := averageAnglesAdc a1 a2 with hm
  have hids : ∀ i ∈ (core t c).zbpolids, i < 33 := by simp only [core, ht]; exact ray_ids
  obtain ⟨D, hD, hDR⟩ := distortion (core t c).zbpolids hids (core t c).zbcoeffs rayB hw
  obtain ⟨hl, -⟩ := hDR (121 / 100) (by norm_num)
  have hL : ((dL (core t c).zbpolids rayB (121 / 100) : ℚ) : ℝ) ≤ 472 / 1000 := by
    have : ((dL rayIds rayB (121 / 100) : ℚ) : ℝ) ≤ ((472 / 1000 : ℚ) : ℝ) := by exact_mod_cast b2
    simp only [core, ht]
    refine this.trans (by norm_num)
  have hlin : ∀ w : ℝ × ℝ, lin (core t c) ((core t c).reduceFvc w) = (w.1 / 0.027, w.2 / 0.027) := by
    intro w
    simp [lin, FVC2FP.reduceFvc, core, s1, s2, s3, s4]
  have hreg : ∀ w : ℝ × ℝ, w.1 ^ 2 + w.2 ^ 2 ≤ 0.0278 ^ 2 → ‖lin (core t c) ((core t c).reduceFvc (turn (-m) w))‖ ≤ ((121 / 100 : ℚ) : ℝ) := by
    intro w h
    rw [← turn_sq (-m)] at h
    obtain ⟨g1, g2⟩ := coord_of_sq (by norm_num) h
    rw [hlin]
    refine norm_le ?_ ?_
    · simp only [abs_div]; rw [abs_of_pos (by norm_num : (0:ℝ) < 0.027), div_le_iff₀ (by norm_num)]; refine g1.trans (by norm_num)
    · simp only [abs_div]; rw [abs_of_pos (by norm_num : (0:ℝ) < 0.027), div_le_iff₀ (by norm_num)]; refine g2.trans (by norm_num)
  have e1 := fvc2fp_eq (core t c) hD [turn (-m) u, turn (-m) v]
  have e2 : t.tan2fp [u, v] a1 a2 = .ok [turn m (expandFp (lin (core t c) ((core t c).reduceFvc (turn (-m) u)) + D (lin (core t c) ((core t c).reduceFvc
      (turn (-m) u))))), turn m (expandFp (lin (core t c) ((core t c).reduceFvc (turn (-m) v)) + D (lin (core t c) ((core t c).reduceFvc (turn (-m) v)))))] := by
    rw [tan2fp_core t _ a1 a2 c hc, ← hm, List.map_cons, List.map_cons, List.map_nil, e1]
    rfl
  refine ⟨_, _, e2, ?_⟩
  rw [turn_sq_sub]
  have h1 := (hl _ _ (hreg u hu) (hreg v hv)).trans (mul_le_mul_of_nonneg_right hL dist_nonneg)
  have h2 : dist (lin (core t c) ((core t c).reduceFvc (turn (-m) u))) (lin (core t c) ((core t c).reduceFvc (turn (-m) v))) * 0.027 =
      dist (turn (-m) u) (turn (-m) v) := by
    rw [hlin, hlin]
    simp only [Prod.dist_eq, Real.dist_eq, ← sub_div, abs_div]
    rw [abs_of_pos (by norm_num : (0:ℝ) < 0.027), max_mul_of_nonneg _ _ (by norm_num), div_mul_cancel₀ _ (by norm_num), div_mul_cancel₀ _ (by norm_num)]
  obtain ⟨k1, k2⟩ := sq_dist (turn (-m) u) (turn (-m) v)
  rw [turn_sq_sub] at k1 k2
  rw [← h2] at k1 k2
  clear e1 e2
  generalize lin (core t c) ((core t c).reduceFvc (turn (-m) u)) = a at *
  generalize lin (core t c) ((core t c).reduceFvc (turn (-m) v)) = b at *
  obtain ⟨j1, j2⟩ := sq_dist (expandFp (a + D a)) (expandFp (b + D b))
  rw [dist_expandFp] at j1 j2
  have h4 : dist (a + D a) (b + D b) ≤ dist a b + dist (D a) (D b) := dist_add_add_le _ _ _ _
  have h5 : dist a b ≤ dist (a + D a) (b + D b) + dist (D a) (D b) := by
    have := dist_sub_sub_le (a + D a) (D a) (b + D b) (D b)
    simpa using this
  have n0 := dist_nonneg (x := a) (y := b)
  have n1 := dist_nonneg (x := a + D a) (y := b + D b)
  have l1 : 0.528 * dist a b ≤ dist (a + D a) (b + D b) := by linarith
  have l2 : dist (a + D a) (b + D b) ≤ 1.472 * dist a b := by linarith
  have q1 : (0.528 * dist a b) ^ 2 ≤ dist (a + D a) (b + D b) ^ 2 := pow_le_pow_left₀ (by positivity) l1 2
  have q2 : dist (a + D a) (b + D b) ^ 2 ≤ (1.472 * dist a b) ^ 2 := pow_le_pow_left₀ n1 l2 2
  rw [mul_pow] at q1 q2 j1 j2 k1 k2
  have := sq_nonneg (dist a b)
  constructor
  · refine le_trans ?_ j1
    norm_num at k2 q1 ⊢
    linarith
  · refine j2.trans ?_
    norm_num at k1 q2 ⊢
    linarith

/-- Where the distortion contracts, the corrections after equally many steps of the iteration change less than the positions times `L / (1 - L)`. -/
theorem corr_lip {D : ℝ × ℝ → ℝ × ℝ} {S : Set (ℝ × ℝ)} {L : ℝ} (hL0 : 0 ≤ L) (hL1 : L < 1) (hL : ∀ a ∈ S, ∀ b ∈ S, dist (D a) (D b) ≤ L * dist a b)
    {p q : ℝ × ℝ} (hp : p ∈ S) (hpc : ∀ a ∈ S, p - D a ∈ S) (hq : q ∈ S) (hqc : ∀ a ∈ S, q - D a ∈ S) (k : Nat) :
    (1 - L) * dist (p - corr D p k) (q - corr D q k) ≤ dist p q := by
  have hd := dist_nonneg (x := p) (y := q)
  induction k with
  | zero =>
    simp only [corr, sub_zero]
    nlinarith
  | succ k ih =>
    have h1 := hL _ (corr_step hL hp hpc k).1 _ (corr_step hL hq hqc k).1
    have h2 := dist_sub_sub_le p (corr D p (k + 1)) q (corr D q (k + 1))
    have h3 : dist (corr D p (k + 1)) (corr D q (k + 1)) ≤ L * dist (p - corr D p k) (q - corr D q k) := h1
    nlinarith

/-- **C133** Errors on the sky: positions within 420 mm that differ by some distance on the focal plane have directions that differ by at most 2e-4 per mm
(41 arc seconds), if they are converted in one call. -/
theorem C133_sky_error (t : RayTraceFit) (ht : t.zbpolids = rayIds) (c : Coeffs) (a1 a2 : ℝ) (hc : t.interp (deltaAnglesAdc a1 a2) = .ok c)
    (hr : RayLike c) (pts : List (ℝ × ℝ)) (hne : pts ≠ []) (hp : ∀ p ∈ pts, p.1 ^ 2 + p.2 ^ 2 ≤ 420 ^ 2) :
    ∃ sky : ℝ × ℝ → ℝ × ℝ, t.fp2tan pts a1 a2 = .ok (pts.map sky) ∧ ∀ p ∈ pts, ∀ q ∈ pts,
      ((sky p).1 - (sky q).1) ^ 2 + ((sky p).2 - (sky q).2) ^ 2 ≤ 2e-4 ^ 2 * ((p.1 - q.1) ^ 2 + (p.2 - q.2) ^ 2) := by
  obtain ⟨s1, s2, s3, s4, hw⟩ := hr
  obtain ⟨-, -, -, b2, b3⟩ := ray_bounds
  set m := averageAnglesAdc a1 a2 with hm
  have hids : ∀ i ∈ (core t c).zbpolids, i < 33 := by simp only [core, ht]; exact ray_ids
  obtain ⟨D, hD, hDR⟩ := distortion (core t c).zbpolids hids (core t c).zbcoeffs rayB hw
  obtain ⟨hl, hM⟩ := hDR (13 / 10) (by norm_num)
  have c2 : ((dS (core t c).zbpolids rayB (13 / 10) : ℚ) : ℝ) ≤ 3 / 10 := by
    have : ((dS rayIds rayB (13 / 10) : ℚ) : ℝ) ≤ ((3 / 10 : ℚ) : ℝ) := by exact_mod_cast b2
    simp only [core, ht]
    refine this.trans (by norm_num)
  have c3 : ((dL (core t c).zbpolids rayB (13 / 10) : ℚ) : ℝ) ≤ 545 / 1000 := by
    have : ((dL rayIds rayB (13 / 10) : ℚ) : ℝ) ≤ ((545 / 1000 : ℚ) : ℝ) := by exact_mod_cast b3
    simp only [core, ht]
    refine this.trans (by norm_num)
  have hpr : ∀ p ∈ pts, ‖reduceFp (turn (-m) p)‖ ≤ 1 := by
    intro p hpp
    have h := hp p hpp
    rw [← turn_sq (-m)] at h
    obtain ⟨g1, g2⟩ := coord_of_sq (by norm_num) h
    unfold reduceFp
    refine norm_le ?_ ?_
    · simp only [abs_div]; rw [abs_of_pos (by norm_num : (0:ℝ) < 420), div_le_iff₀ (by norm_num)]; linarith
    · simp only [abs_div]; rw [abs_of_pos (by norm_num : (0:ℝ) < 420), div_le_iff₀ (by norm_num)]; linarith
  obtain ⟨j, -, he, -⟩ := fp2fvc_eq (core t c) hD (pts := pts.map (turn (-m))) (by simpa using hne)
  refine ⟨fun p => turn m ((core t c).undoLinear (reduceFp (turn (-m) p) - corr D (reduceFp (turn (-m) p)) j)), ?_, ?_⟩
  · rw [fp2tan_core t pts a1 a2 c hc, ← hm, he]
    simp only [bind, Except.bind, pure, Except.pure, List.map_map]
    rfl
  intro p hpp q hqq
  simp only
  rw [turn_sq_sub]
  have reg : ∀ r ∈ pts, reduceFp (turn (-m) r) ∈ {q : ℝ × ℝ | ‖q‖ ≤ ((13 / 10 : ℚ) : ℝ)} ∧ ∀ a ∈ {q : ℝ × ℝ | ‖q‖ ≤ ((13 / 10 : ℚ) : ℝ)},
      reduceFp (turn (-m) r) - D a ∈ {q : ℝ × ℝ | ‖q‖ ≤ ((13 / 10 : ℚ) : ℝ)} := fun r hrr => ⟨(hpr r hrr).trans (by norm_num), fun a ha => by
      have k1 := hM a ha
      have k2 := hpr r hrr
      refine (norm_sub_le _ _).trans ?_
      push_cast at c2 ⊢
      linarith⟩
  have hlip := corr_lip (L := 545 / 1000) (by norm_num) (by norm_num)
    (fun a ha b hb => (hl a b ha hb).trans (mul_le_mul_of_nonneg_right c3 dist_nonneg)) (reg p hpp).1 (reg p hpp).2 (reg q hqq).1 (reg q hqq).2 j
  have hundo : ∀ w : ℝ × ℝ, (core t c).undoLinear w = (w.1 * 0.027, w.2 * 0.027) := by
    intro w
    simp [FVC2FP.undoLinear, FVC2FP.expandFvc, core, s1, s2, s3, s4]
  have hred : dist (turn (-m) p) (turn (-m) q) = 420 * dist (reduceFp (turn (-m) p)) (reduceFp (turn (-m) q)) := by
    rw [← dist_expandFp, expand_reduceFp, expand_reduceFp]
  rw [hundo, hundo]
  obtain ⟨k1, -⟩ := sq_dist (turn (-m) p) (turn (-m) q)
  rw [turn_sq_sub, hred] at k1
  generalize reduceFp (turn (-m) p) - corr D (reduceFp (turn (-m) p)) j = a at *
  generalize reduceFp (turn (-m) q) - corr D (reduceFp (turn (-m) q)) j = b at *
  obtain ⟨-, k2⟩ := sq_dist a b
  generalize dist (reduceFp (turn (-m) p)) (reduceFp (turn (-m) q)) = d at *
  have n := dist_nonneg (x := a) (y := b)
  have q1 : ((1 - 545 / 1000) * dist a b) ^ 2 ≤ d ^ 2 := pow_le_pow_left₀ (mul_nonneg (by norm_num) n) hlip 2
  have e : (a.1 * 0.027 - b.1 * 0.027) ^ 2 + (a.2 * 0.027 - b.2 * 0.027) ^ 2 = 0.027 ^ 2 * ((a.1 - b.1) ^ 2 + (a.2 - b.2) ^ 2) := by ring
  simp only
  rw [e]
  rw [mul_pow] at q1 k1
  have := sq_nonneg d
  norm_num at q1 k1 ⊢
  linarith

/-- The hypotheses at two directions and a place, with the first row of the table. -/
example : ∃ (t : RayTraceFit) (c : Coeffs), t.zbpolids = rayIds ∧ t.interp (deltaAnglesAdc 350 30) = .ok c ∧ RayLike c ∧
    ((0.02 : ℝ) ^ 2 + (-0.019) ^ 2 ≤ 0.0278 ^ 2) ∧ ((-0.01 : ℝ) ^ 2 + 0.003 ^ 2 ≤ 0.0278 ^ 2) ∧ ((300 : ℝ) ^ 2 + (-290) ^ 2 ≤ 420 ^ 2) :=
  ⟨⟨rayIds, fun _ => .ok (rayTable[0]'(by decide)).coeffs⟩, _, rfl, rfl, C133_tables _ (.inl (List.getElem_mem _)), by norm_num, by norm_num, by norm_num⟩

end Verif.Props.SkyScale
