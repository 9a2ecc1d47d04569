import Mathlib.Analysis.SpecialFunctions.Trigonometric.Bounds
import Verif.Lemmas.ZhaoBurgeLip
import Verif.Model.Shipped
import Verif.Props.Fvc2fp
import Verif.Props.Raytracefit

/-!
# C133: the transformations shipped can be inverted

Round trips with the numbers of `data/init-fvc2fp.json`, `data/raytrace-tan2fp.json` and `data/raytrace-tan2fp-6560A.json`: the iteration of
`fp2fvc` and `fp2tan` converges over the whole field.
-/

namespace Verif.Props.Shipped
open Verif.Py Verif.Model.ZhaoBurge Verif.Model.Fvc2fp Verif.Model.Raytracefit Verif.Model.Shipped Verif.Lemmas.Fvc2fp Verif.Lemmas.ZhaoBurgeLip
open Verif.Props

/-- Every coefficient is at most its bound. -/
def Within (cs : List ℝ) (bs : List ℚ) : Prop := List.Forall₂ (fun c b => |c| ≤ ((b : ℚ) : ℝ)) cs bs

theorem within_dec (ns : List ℤ) (bs : List ℚ) (h : List.Forall₂ (fun (n : ℤ) (b : ℚ) => |(n : ℚ)| / 10 ^ 40 ≤ b) ns bs) : Within (ns.map dec) bs := by
  unfold Within
  rw [List.forall₂_map_left_iff]
  refine h.imp fun n b hb => ?_
  unfold dec
  rw [abs_div, abs_of_pos (by positivity : (0:ℝ) < 10 ^ 40)]
  exact_mod_cast hb

theorem norm_le {R : ℝ} {p : ℝ × ℝ} (h1 : |p.1| ≤ R) (h2 : |p.2| ≤ R) : ‖p‖ ≤ R := by
  rw [Prod.norm_def]; exact max_le h1 h2

/-! ### General -/

/-- Focal plane to camera and back. -/
theorem back (t : FVC2FP) (h1 : t.xfvcScale ≠ 0) (h2 : t.yfvcScale ≠ 0) (hs : t.scale ≠ 0) (hids : ∀ i ∈ t.zbpolids, i < 33) (bs : List ℚ)
    (hb : Within t.zbcoeffs bs) (r R L M M' : ℚ) (hr : 1 ≤ r) (hR : 1 ≤ R) (hM : dS t.zbpolids bs R ≤ M) (hrM : r + M ≤ R)
    (hM' : dS t.zbpolids bs r ≤ M') (hL : dL t.zbpolids bs R ≤ L) (hL0 : 0 ≤ L) (pts : List (ℝ × ℝ)) (hne : pts ≠ [])
    (hp : ∀ p ∈ pts, |p.1| ≤ 420 * (r : ℝ) ∧ |p.2| ≤ 420 * (r : ℝ)) :
    ∃ pix fp : ℝ × ℝ → ℝ × ℝ, t.fp2fvc pts = .ok (pts.map pix) ∧ t.fvc2fp (pts.map pix) = .ok (pts.map fp) ∧
      ∀ p ∈ pts, dist (fp p) p ≤ 420 * max ((L : ℝ) * 1e-12) ((L : ℝ) ^ 20 * M') := by
  obtain ⟨D, hD, hDR⟩ := distortion t.zbpolids hids t.zbcoeffs bs hb
  obtain ⟨hl, hm⟩ := hDR R hR
  have hL0' : (0:ℝ) ≤ L := by exact_mod_cast hL0
  have hLR : ((dL t.zbpolids bs R : ℚ) : ℝ) ≤ L := by exact_mod_cast hL
  have hMR : ((dS t.zbpolids bs R : ℚ) : ℝ) ≤ M := by exact_mod_cast hM
  have hrMR : (r : ℝ) + M ≤ R := by exact_mod_cast hrM
  have hpr : ∀ p ∈ pts, ‖((p.1 / 420, p.2 / 420) : ℝ × ℝ)‖ ≤ (r : ℝ) := by
    intro p hpp
    obtain ⟨g1, g2⟩ := hp p hpp
    refine norm_le ?_ ?_
    · simp only [abs_div]; rw [abs_of_pos (by norm_num : (0:ℝ) < 420), div_le_iff₀ (by norm_num)]; linarith
    · simp only [abs_div]; rw [abs_of_pos (by norm_num : (0:ℝ) < 420), div_le_iff₀ (by norm_num)]; linarith
  have hM0 : (0:ℝ) ≤ M := (norm_nonneg _).trans ((hm 0 (by rw [norm_zero]; exact_mod_cast (by linarith : (0:ℚ) ≤ R))).trans hMR)
  obtain ⟨pix, fp, e1, e2, e3⟩ := C24_residual t h1 h2 hs D hD pts hne {q | ‖q‖ ≤ (R : ℝ)} L hL0'
    (fun a ha b hb => (hl a b ha hb).trans (mul_le_mul_of_nonneg_right hLR dist_nonneg))
    (fun p hpp => ⟨(hpr p hpp).trans (by linarith), fun q hq => by
      have := hm q hq
      have := hpr p hpp
      exact (norm_sub_le _ _).trans (by linarith)⟩)
  refine ⟨pix, fp, e1, e2, fun p hpp => (e3 p hpp).trans ?_⟩
  refine mul_le_mul_of_nonneg_left (max_le_max le_rfl ?_) (by norm_num)
  refine mul_le_mul_of_nonneg_left ?_ (by positivity)
  exact ((hDR r hr).2 _ (hpr p hpp)).trans (by exact_mod_cast hM')

/-- Camera to focal plane and back. -/
theorem forth (t : FVC2FP) (h1 : t.xfvcScale ≠ 0) (h2 : t.yfvcScale ≠ 0) (hs : t.scale ≠ 0) (hids : ∀ i ∈ t.zbpolids, i < 33) (bs : List ℚ)
    (hb : Within t.zbcoeffs bs) (r R L M : ℚ) (hr : 1 ≤ r) (hR : 1 ≤ R) (hM : dS t.zbpolids bs r ≤ M) (hrM : r + M ≤ R)
    (hL : dL t.zbpolids bs R ≤ L) (hL0 : 0 ≤ L) (hL1 : L < 1) (us : List (ℝ × ℝ)) (hne : us ≠ [])
    (hu : ∀ u ∈ us, ‖lin t (t.reduceFvc u)‖ ≤ (r : ℝ)) :
    ∃ pts, ∃ pix : ℝ × ℝ → ℝ × ℝ, t.fvc2fp us = .ok pts ∧ t.fp2fvc pts = .ok (us.map pix) ∧
      ∀ u ∈ us, |(pix u).1 - u.1| ≤ |t.xfvcScale| * (2 * max ((L : ℝ) * 1e-12 / (1 - L)) ((L : ℝ) ^ 20 * M) / |t.scale|) ∧
        |(pix u).2 - u.2| ≤ |t.yfvcScale| * (2 * max ((L : ℝ) * 1e-12 / (1 - L)) ((L : ℝ) ^ 20 * M) / |t.scale|) := by
  obtain ⟨D, hD, hDR⟩ := distortion t.zbpolids hids t.zbcoeffs bs hb
  obtain ⟨hl, -⟩ := hDR R hR
  obtain ⟨-, hm⟩ := hDR r hr
  have hL0' : (0:ℝ) ≤ L := by exact_mod_cast hL0
  have hL1' : (L:ℝ) < 1 := by exact_mod_cast hL1
  have hLR : ((dL t.zbpolids bs R : ℚ) : ℝ) ≤ L := by exact_mod_cast hL
  have hMR : ((dS t.zbpolids bs r : ℚ) : ℝ) ≤ M := by exact_mod_cast hM
  have hrMR : (r : ℝ) + M ≤ R := by exact_mod_cast hrM
  have hDM : ∀ u ∈ us, ‖D (lin t (t.reduceFvc u))‖ ≤ (M : ℝ) := fun u h => (hm _ (hu u h)).trans hMR
  obtain ⟨pts, pix, e1, e2, e3⟩ := C24_contraction t h1 h2 hs D hD us hne L hL0' hL1' (by
    intro u h a ha
    have g1 := hDM u h
    have g2 := hu u h
    have g3 : ‖a‖ ≤ (R : ℝ) := by
      have := norm_add_le (a - lin t (t.reduceFvc u)) (lin t (t.reduceFvc u))
      rw [sub_add_cancel, ← dist_eq_norm] at this
      linarith
    have g4 : ‖lin t (t.reduceFvc u)‖ ≤ (R : ℝ) := by
      have := norm_nonneg (D (lin t (t.reduceFvc u)))
      linarith
    exact (hl a _ g3 g4).trans (mul_le_mul_of_nonneg_right hLR dist_nonneg))
  refine ⟨pts, pix, e1, e2, fun u h => ?_⟩
  have hmax : max ((L:ℝ) * 1e-12 / (1 - L)) ((L:ℝ) ^ 20 * ‖D (lin t (t.reduceFvc u))‖) ≤ max ((L : ℝ) * 1e-12 / (1 - L)) ((L : ℝ) ^ 20 * M) :=
    max_le_max le_rfl (mul_le_mul_of_nonneg_left (hDM u h) (by positivity))
  obtain ⟨k1, k2⟩ := e3 u h _ rfl
  have hq : 2 * max ((L:ℝ) * 1e-12 / (1 - L)) ((L:ℝ) ^ 20 * ‖D (lin t (t.reduceFvc u))‖) / |t.scale| ≤
      2 * max ((L : ℝ) * 1e-12 / (1 - L)) ((L : ℝ) ^ 20 * M) / |t.scale| :=
    div_le_div_of_nonneg_right (by linarith) (abs_nonneg _)
  exact ⟨k1.trans (mul_le_mul_of_nonneg_left hq (abs_nonneg _)), k2.trans (mul_le_mul_of_nonneg_left hq (abs_nonneg _))⟩

/-! ### The camera -/

/-- The coefficients of init-fvc2fp.json as bounds. -/
def initB : List ℚ := initCoeffs.map fun n => |(n : ℚ)| / 10 ^ 40

theorem own_bounds (l : List ℤ) : List.Forall₂ (fun (n : ℤ) (b : ℚ) => |(n : ℚ)| / 10 ^ 40 ≤ b) l (l.map fun n => |(n : ℚ)| / 10 ^ 40) := by
  induction l with
  | nil => exact .nil
  | cons n l ih => exact .cons le_rfl ih

theorem init_within : Within initFvc2fp.zbcoeffs initB := within_dec _ _ (own_bounds _)

theorem init_ids : ∀ i ∈ initFvc2fp.zbpolids, i < 33 := by decide

theorem init_bounds : dS initFvc2fp.zbpolids initB (115 / 100) ≤ 15 / 100 ∧ dL initFvc2fp.zbpolids initB (115 / 100) ≤ 423 / 1000 ∧
    dS initFvc2fp.zbpolids initB 1 ≤ 84 / 1000 ∧ dL initFvc2fp.zbpolids initB 1 ≤ 31 / 100 := by
  have h : dS [0, 1, 2, 3, 4, 5, 6, 9, 20, 27, 28, 29, 30] initB (115 / 100) ≤ 15 / 100 ∧
    dL [0, 1, 2, 3, 4, 5, 6, 9, 20, 27, 28, 29, 30] initB (115 / 100) ≤ 423 / 1000 ∧
    dS [0, 1, 2, 3, 4, 5, 6, 9, 20, 27, 28, 29, 30] initB 1 ≤ 84 / 1000 ∧ dL [0, 1, 2, 3, 4, 5, 6, 9, 20, 27, 28, 29, 30] initB 1 ≤ 31 / 100 := by
    decide +kernel
  exact h

/-- **C133** With the transformation shipped, any positions within 420 mm (each coordinate) are brought to pixels and back with an error
below 2e-6 mm. -/
theorem C133_camera_back (pts : List (ℝ × ℝ)) (hne : pts ≠ []) (hp : ∀ p ∈ pts, |p.1| ≤ 420 ∧ |p.2| ≤ 420) :
    ∃ pix fp : ℝ × ℝ → ℝ × ℝ, initFvc2fp.fp2fvc pts = .ok (pts.map pix) ∧ initFvc2fp.fvc2fp (pts.map pix) = .ok (pts.map fp) ∧
      ∀ p ∈ pts, |(fp p).1 - p.1| ≤ 2e-6 ∧ |(fp p).2 - p.2| ≤ 2e-6 := by
  obtain ⟨b1, b2, b3, -⟩ := init_bounds
  obtain ⟨pix, fp, e1, e2, e3⟩ := back initFvc2fp (by norm_num [initFvc2fp]) (by norm_num [initFvc2fp]) (by norm_num [initFvc2fp]) init_ids initB
    init_within 1 (115 / 100) (423 / 1000) (15 / 100) (84 / 1000) le_rfl (by norm_num) b1 (by norm_num) b3 b2 (by norm_num) pts hne
    (by simpa using hp)
  refine ⟨pix, fp, e1, e2, fun p h => ?_⟩
  have h3 := e3 p h
  have h4 : (420:ℝ) * max (((423 / 1000 : ℚ) : ℝ) * 1e-12) (((423 / 1000 : ℚ) : ℝ) ^ 20 * ((84 / 1000 : ℚ) : ℝ)) ≤ 2e-6 := by
    rw [← le_div_iff₀' (by norm_num)]
    apply max_le <;> norm_num
  obtain ⟨d1, d2⟩ := coordD (fp p) p
  exact ⟨d1.trans (h3.trans h4), d2.trans (h3.trans h4)⟩

/-- The reduced pixels of most of the image are in the unit square. -/
theorem init_region {u : ℝ × ℝ} (h : (200 ≤ u.1 ∧ u.1 ≤ 5800) ∧ 200 ≤ u.2 ∧ u.2 ≤ 5800) : ‖lin initFvc2fp (initFvc2fp.reduceFvc u)‖ ≤ 1 := by
  obtain ⟨⟨h1, h2⟩, h3, h4⟩ := h
  have hs : |Real.sin (-0.0058668572341911375 : ℝ)| ≤ 0.0059 := by
    refine (Real.abs_sin_lt_abs (by norm_num)).le.trans ?_
    rw [abs_neg, abs_of_pos (by norm_num)]
    norm_num
  have hc := Real.abs_cos_le_one (-0.0058668572341911375 : ℝ)
  have key : ∀ x y s c : ℝ, |x| ≤ 0.9545 → |y| ≤ 0.9545 → |s| ≤ 0.0059 → |c| ≤ 1 → |x * c| + |y * s| ≤ 0.9602 := by
    intro x y s c hx hy hs hc
    rw [abs_mul, abs_mul]
    have := mul_le_mul hx hc (abs_nonneg _) (by norm_num)
    have := mul_le_mul hy hs (abs_nonneg _) (by norm_num)
    linarith
  have hx : |(u.1 - 3000) / -3000 + -0.007425372883534545| ≤ 0.9545 := by rw [abs_le]; constructor <;> linarith
  have hy : |(u.2 - 3000) / 3000 + -0.020898283420238962| ≤ 0.9545 := by rw [abs_le]; constructor <;> linarith
  refine norm_le ?_ ?_
  · show |(((u.1 - 3000) / -3000 + -0.007425372883534545) * Real.cos (-0.0058668572341911375) -
      ((u.2 - 3000) / 3000 + -0.020898283420238962) * Real.sin (-0.0058668572341911375)) * 1.0360859195871759| ≤ 1
    have := key _ _ _ _ hx hy hs hc
    have := abs_sub (((u.1 - 3000) / -3000 + -0.007425372883534545) * Real.cos (-0.0058668572341911375))
      (((u.2 - 3000) / 3000 + -0.020898283420238962) * Real.sin (-0.0058668572341911375))
    rw [abs_mul, abs_of_pos (by norm_num : (0:ℝ) < 1.0360859195871759)]
    linarith
  · show |(((u.1 - 3000) / -3000 + -0.007425372883534545) * Real.sin (-0.0058668572341911375) +
      ((u.2 - 3000) / 3000 + -0.020898283420238962) * Real.cos (-0.0058668572341911375)) * 1.0360859195871759| ≤ 1
    have := key _ _ _ _ hy hx hs hc
    have := abs_add_le (((u.1 - 3000) / -3000 + -0.007425372883534545) * Real.sin (-0.0058668572341911375))
      (((u.2 - 3000) / 3000 + -0.020898283420238962) * Real.cos (-0.0058668572341911375))
    rw [abs_mul, abs_of_pos (by norm_num : (0:ℝ) < 1.0360859195871759)]
    linarith

/-- **C133** With the transformation shipped, any pixels between 200 and 5800 are brought to the focal plane and back with an error below
2e-5 pixels. -/
theorem C133_camera (us : List (ℝ × ℝ)) (hne : us ≠ []) (hu : ∀ u ∈ us, (200 ≤ u.1 ∧ u.1 ≤ 5800) ∧ 200 ≤ u.2 ∧ u.2 ≤ 5800) :
    ∃ pts, ∃ pix : ℝ × ℝ → ℝ × ℝ, initFvc2fp.fvc2fp us = .ok pts ∧ initFvc2fp.fp2fvc pts = .ok (us.map pix) ∧
      ∀ u ∈ us, |(pix u).1 - u.1| ≤ 2e-5 ∧ |(pix u).2 - u.2| ≤ 2e-5 := by
  obtain ⟨-, b2, b3, -⟩ := init_bounds
  obtain ⟨pts, pix, e1, e2, e3⟩ := forth initFvc2fp (by norm_num [initFvc2fp]) (by norm_num [initFvc2fp]) (by norm_num [initFvc2fp]) init_ids initB
    init_within 1 (115 / 100) (423 / 1000) (84 / 1000) le_rfl (by norm_num) b3 (by norm_num) b2 (by norm_num) (by norm_num) us hne
    (fun u h => by simpa using init_region (hu u h))
  refine ⟨pts, pix, e1, e2, fun u h => ?_⟩
  have hB : max (((423 / 1000 : ℚ) : ℝ) * 1e-12 / (1 - ((423 / 1000 : ℚ) : ℝ))) (((423 / 1000 : ℚ) : ℝ) ^ 20 * ((84 / 1000 : ℚ) : ℝ)) ≤ 3.3e-9 := by
    apply max_le <;> norm_num
  have hq : 2 * max (((423 / 1000 : ℚ) : ℝ) * 1e-12 / (1 - ((423 / 1000 : ℚ) : ℝ))) (((423 / 1000 : ℚ) : ℝ) ^ 20 * ((84 / 1000 : ℚ) : ℝ)) /
      |initFvc2fp.scale| ≤ 6.6e-9 := by
    rw [show |initFvc2fp.scale| = 1.0360859195871759 by rw [abs_of_pos] <;> norm_num [initFvc2fp], div_le_iff₀ (by norm_num)]
    linarith
  obtain ⟨k1, k2⟩ := e3 u h
  rw [show |initFvc2fp.xfvcScale| = 3000 by norm_num [initFvc2fp, abs_of_neg]] at k1
  rw [show |initFvc2fp.yfvcScale| = 3000 by norm_num [initFvc2fp, abs_of_pos]] at k2
  constructor <;> linarith

/-- **C133** An error of one pixel is one of 0.05 to 0.2 mm in the focal plane (larger coordinate): no two pixels have the same position. -/
theorem C133_camera_scale (u v : ℝ × ℝ) (hu : (200 ≤ u.1 ∧ u.1 ≤ 5800) ∧ 200 ≤ u.2 ∧ u.2 ≤ 5800)
    (hv : (200 ≤ v.1 ∧ v.1 ≤ 5800) ∧ 200 ≤ v.2 ∧ v.2 ≤ 5800) :
    ∃ p q, initFvc2fp.fvc2fp [u, v] = .ok [p, q] ∧ 0.05 * dist u v ≤ dist p q ∧ dist p q ≤ 0.2 * dist u v := by
  obtain ⟨D, hD, hDR⟩ := distortion _ init_ids _ _ init_within
  obtain ⟨hl, -⟩ := hDR 1 le_rfl
  have hL : ((dL initFvc2fp.zbpolids initB 1 : ℚ) : ℝ) ≤ 31 / 100 := by
    have := init_bounds.2.2.2
    have : ((dL initFvc2fp.zbpolids initB 1 : ℚ) : ℝ) ≤ ((31 / 100 : ℚ) : ℝ) := by exact_mod_cast this
    refine this.trans (by norm_num)
  refine ⟨_, _, fvc2fp_eq initFvc2fp hD [u, v], ?_⟩
  rw [dist_expandFp]
  have ru := init_region hu
  have rv := init_region hv
  have h1 : dist (D (lin initFvc2fp (initFvc2fp.reduceFvc u))) (D (lin initFvc2fp (initFvc2fp.reduceFvc v))) ≤
      31 / 100 * dist (lin initFvc2fp (initFvc2fp.reduceFvc u)) (lin initFvc2fp (initFvc2fp.reduceFvc v)) :=
    (hl _ _ (by simpa using ru) (by simpa using rv)).trans (mul_le_mul_of_nonneg_right hL dist_nonneg)
  have hback : ∀ w, initFvc2fp.undoLinear (lin initFvc2fp (initFvc2fp.reduceFvc w)) = w :=
    undo_lin initFvc2fp (by norm_num [initFvc2fp]) (by norm_num [initFvc2fp]) (by norm_num [initFvc2fp])
  have h2 : 1.036 / 6000 * dist u v ≤ dist (lin initFvc2fp (initFvc2fp.reduceFvc u)) (lin initFvc2fp (initFvc2fp.reduceFvc v)) := by
    have h := undo_dist initFvc2fp (lin initFvc2fp (initFvc2fp.reduceFvc u)) (lin initFvc2fp (initFvc2fp.reduceFvc v))
    rw [hback, hback, show |initFvc2fp.xfvcScale| = 3000 by norm_num [initFvc2fp, abs_of_neg],
      show |initFvc2fp.yfvcScale| = 3000 by norm_num [initFvc2fp, abs_of_pos],
      show |initFvc2fp.scale| = 1.0360859195871759 by rw [abs_of_pos] <;> norm_num [initFvc2fp]] at h
    have h0 : dist u v ≤ 3000 * (2 * dist (lin initFvc2fp (initFvc2fp.reduceFvc u)) (lin initFvc2fp (initFvc2fp.reduceFvc v)) /
        1.0360859195871759) := by
      rw [Prod.dist_eq, Real.dist_eq, Real.dist_eq]
      exact max_le h.1 h.2
    have hd := dist_nonneg (x := lin initFvc2fp (initFvc2fp.reduceFvc u)) (y := lin initFvc2fp (initFvc2fp.reduceFvc v))
    rw [mul_div_assoc', le_div_iff₀ (by norm_num)] at h0
    have := dist_nonneg (x := u) (y := v)
    linarith
  have h3 : dist (lin initFvc2fp (initFvc2fp.reduceFvc u)) (lin initFvc2fp (initFvc2fp.reduceFvc v)) ≤ 1.0423 / 3000 * dist u v := by
    have hs : |Real.sin (-0.0058668572341911375 : ℝ)| ≤ 0.0059 := by
      refine (Real.abs_sin_lt_abs (by norm_num)).le.trans ?_
      rw [abs_neg, abs_of_pos (by norm_num)]
      norm_num
    have hc := Real.abs_cos_le_one (-0.0058668572341911375 : ℝ)
    obtain ⟨d1, d2⟩ := coordD u v
    have hd := dist_nonneg (x := u) (y := v)
    have key : ∀ x y s c : ℝ, |x| ≤ dist u v → |y| ≤ dist u v → |s| ≤ 0.0059 → |c| ≤ 1 → |x * c| + |y * s| ≤ 1.0059 * dist u v := by
      intro x y s c hx hy hs hc
      rw [abs_mul, abs_mul]
      have := mul_le_mul hx hc (abs_nonneg _) hd
      have := mul_le_mul hy hs (abs_nonneg _) hd
      linarith
    rw [Prod.dist_eq, Real.dist_eq, Real.dist_eq]
    have d1' : |-(u.1 - v.1)| ≤ dist u v := by rwa [abs_neg]
    refine max_le ?_ ?_
    · have e : (lin initFvc2fp (initFvc2fp.reduceFvc u)).1 - (lin initFvc2fp (initFvc2fp.reduceFvc v)).1 =
          (-(u.1 - v.1) * Real.cos (-0.0058668572341911375) - (u.2 - v.2) * Real.sin (-0.0058668572341911375)) * (1.0360859195871759 / 3000) := by
        simp only [lin, FVC2FP.reduceFvc, initFvc2fp]; ring
      have k1 := key _ _ _ _ d1' d2 hs hc
      have k2 := abs_sub (-(u.1 - v.1) * Real.cos (-0.0058668572341911375)) ((u.2 - v.2) * Real.sin (-0.0058668572341911375))
      rw [e, abs_mul, abs_of_pos (by norm_num : (0:ℝ) < 1.0360859195871759 / 3000)]
      linarith
    · have e : (lin initFvc2fp (initFvc2fp.reduceFvc u)).2 - (lin initFvc2fp (initFvc2fp.reduceFvc v)).2 =
          (-(u.1 - v.1) * Real.sin (-0.0058668572341911375) + (u.2 - v.2) * Real.cos (-0.0058668572341911375)) * (1.0360859195871759 / 3000) := by
        simp only [lin, FVC2FP.reduceFvc, initFvc2fp]; ring
      have k1 := key _ _ _ _ d2 d1' hs hc
      have k2 := abs_add_le (-(u.1 - v.1) * Real.sin (-0.0058668572341911375)) ((u.2 - v.2) * Real.cos (-0.0058668572341911375))
      rw [e, abs_mul, abs_of_pos (by norm_num : (0:ℝ) < 1.0360859195871759 / 3000)]
      linarith
  generalize lin initFvc2fp (initFvc2fp.reduceFvc u) = a at *
  generalize lin initFvc2fp (initFvc2fp.reduceFvc v) = b at *
  have h4 : dist (a + D a) (b + D b) ≤ dist a b + dist (D a) (D b) := dist_add_add_le _ _ _ _
  have h5 : dist a b ≤ dist (a + D a) (b + D b) + dist (D a) (D b) := by
    have := dist_sub_sub_le (a + D a) (D a) (b + D b) (D b)
    simpa using this
  have := dist_nonneg (x := u) (y := v)
  constructor <;> linarith

/-! ### The sky -/

/-- Bounds of the coefficients of both tables of the ray tracer, rounded up by 2% or more. -/
def rayB : List ℚ := [22 / 10 ^ 6, 13 / 10 ^ 3, 59 / 10 ^ 3, 32 / 10 ^ 7, 50 / 10 ^ 7, 33 / 10 ^ 5, 51 / 10 ^ 7, 63 / 10 ^ 4, 16 / 10 ^ 8, 44 / 10 ^ 7,
  54 / 10 ^ 6, 13 / 10 ^ 7, 15 / 10 ^ 7, 11 / 10 ^ 5, 75 / 10 ^ 9]

/-- Interpolated parameters like those of the tables. -/
def RayLike (c : Coeffs) : Prop := c.scale = 1 ∧ c.rotation = 0 ∧ c.offsetX = 0 ∧ c.offsetY = 0 ∧ Within c.zb rayB

theorem ray_ids : ∀ i ∈ rayIds, i < 33 := by decide

theorem ray_bounds : dS rayIds rayB (103 / 100) ≤ 1702 / 10000 ∧ dL rayIds rayB (121 / 100) ≤ 472 / 1000 ∧
    dS rayIds rayB 1 ≤ 16 / 100 ∧ dS rayIds rayB (13 / 10) ≤ 3 / 10 ∧ dL rayIds rayB (13 / 10) ≤ 545 / 1000 := by decide +kernel

/-- **C133** Every row of both tables shipped is within the bounds. -/
theorem C133_tables (r : RayRow) (h : r ∈ rayTable ∨ r ∈ rayTable6560) : RayLike r.coeffs := by
  refine ⟨rfl, rfl, rfl, rfl, within_dec _ _ ?_⟩
  have hd : ∀ r ∈ rayTable ++ rayTable6560, r.2.2.length = rayB.length ∧ ∀ e ∈ r.2.2.zip rayB, |((e.1 : ℤ) : ℚ)| / 10 ^ 40 ≤ e.2 := by decide +kernel
  obtain ⟨h1, h2⟩ := hd r (List.mem_append.2 h)
  exact List.forall₂_iff_zip.2 ⟨h1, fun {a b} hab => h2 (a, b) hab⟩

theorem turn_sq (a : ℝ) (p : ℝ × ℝ) : (turn a p).1 ^ 2 + (turn a p).2 ^ 2 = p.1 ^ 2 + p.2 ^ 2 := by
  unfold turn
  have := Real.sin_sq_add_cos_sq (a * (Real.pi / 180))
  simp only
  linear_combination (p.1 ^ 2 + p.2 ^ 2) * this

theorem turn_sub (a : ℝ) (p q : ℝ × ℝ) : ((turn a p).1 - (turn a q).1, (turn a p).2 - (turn a q).2) = turn a (p.1 - q.1, p.2 - q.2) := by
  unfold turn; ext <;> simp only <;> ring

theorem coord_of_sq {p : ℝ × ℝ} {R : ℝ} (hR : 0 ≤ R) (h : p.1 ^ 2 + p.2 ^ 2 ≤ R ^ 2) : |p.1| ≤ R ∧ |p.2| ≤ R :=
  ⟨abs_le_of_sq_le_sq (by nlinarith [sq_nonneg p.2]) hR, abs_le_of_sq_le_sq (by nlinarith [sq_nonneg p.1]) hR⟩

/-- **C133** Sky to focal plane and back: any directions within 0.0278 of the centre of the tangent plane (1.59 degrees) come back to within
4.8e-9 (a thousandth of an arc second), for any ADC angles for which the interpolated coefficients are like those of the tables. -/
theorem C133_sky (t : RayTraceFit) (ht : t.zbpolids = rayIds) (c : Coeffs) (a1 a2 : ℝ) (hc : t.interp (deltaAnglesAdc a1 a2) = .ok c)
    (hr : RayLike c) (pts : List (ℝ × ℝ)) (hne : pts ≠ []) (hp : ∀ p ∈ pts, p.1 ^ 2 + p.2 ^ 2 ≤ 0.0278 ^ 2) :
    ∃ fp, ∃ sky : ℝ × ℝ → ℝ × ℝ, t.tan2fp pts a1 a2 = .ok fp ∧ t.fp2tan fp a1 a2 = .ok (pts.map sky) ∧
      ∀ p ∈ pts, ((sky p).1 - p.1) ^ 2 + ((sky p).2 - p.2) ^ 2 ≤ 4.8e-9 ^ 2 := by
  obtain ⟨s1, s2, s3, s4, hw⟩ := hr
  obtain ⟨b1, b2, -⟩ := ray_bounds
  set m := averageAnglesAdc a1 a2 with hm
  have hids : ∀ i ∈ (core t c).zbpolids, i < 33 := by simp only [core, ht]; exact ray_ids
  obtain ⟨q, pix, e1, e2, e3⟩ := forth (core t c) (by simp only [core]; norm_num) (by simp only [core]; norm_num) (by simp only [core, s1]; norm_num)
    hids rayB hw (103 / 100) (121 / 100) (472 / 1000) (1702 / 10000) (by norm_num) (by norm_num) (by simp only [core, ht]; exact b1) (by norm_num)
    (by simp only [core, ht]; exact b2) (by norm_num) (by norm_num) (pts.map (turn (-m))) (by simpa using hne) (by
      intro u hu
      obtain ⟨p, hpp, rfl⟩ := List.mem_map.1 hu
      have h := hp p hpp
      rw [← turn_sq (-m)] at h
      obtain ⟨g1, g2⟩ := coord_of_sq (by norm_num) h
      have e : lin (core t c) ((core t c).reduceFvc (turn (-m) p)) = ((turn (-m) p).1 / 0.027, (turn (-m) p).2 / 0.027) := by
        simp [lin, FVC2FP.reduceFvc, core, s1, s2, s3, s4]
      rw [e]
      refine norm_le ?_ ?_
      · simp only [abs_div]; rw [abs_of_pos (by norm_num : (0:ℝ) < 0.027), div_le_iff₀ (by norm_num)]; refine g1.trans (by norm_num)
      · simp only [abs_div]; rw [abs_of_pos (by norm_num : (0:ℝ) < 0.027), div_le_iff₀ (by norm_num)]; refine g2.trans (by norm_num))
  refine ⟨q.map (turn m), fun p => turn m (pix (turn (-m) p)), ?_, ?_, ?_⟩
  · rw [tan2fp_core t pts a1 a2 c hc, ← hm, e1]; rfl
  · rw [fp2tan_core t _ a1 a2 c hc, ← hm, List.map_map]
    have : (turn (-m)) ∘ (turn m) = id := by funext p; exact turn_undo' m p
    rw [this, List.map_id, e2]
    simp only [bind, Except.bind, pure, Except.pure, List.map_map]
    rfl
  · intro p hpp
    obtain ⟨k1, k2⟩ := e3 (turn (-m) p) (List.mem_map.2 ⟨p, hpp, rfl⟩)
    have hB : max (((472 / 1000 : ℚ) : ℝ) * 1e-12 / (1 - ((472 / 1000 : ℚ) : ℝ))) (((472 / 1000 : ℚ) : ℝ) ^ 20 * ((1702 / 10000 : ℚ) : ℝ)) ≤ 6e-8 := by
      apply max_le <;> norm_num
    have hx : |(core t c).xfvcScale| = 0.027 := by simp only [core]; rw [abs_of_pos]; norm_num
    have hy : |(core t c).yfvcScale| = 0.027 := by simp only [core]; rw [abs_of_pos]; norm_num
    have hsc : |(core t c).scale| = 1 := by simp only [core, s1]; norm_num
    rw [hx, hsc, div_one] at k1
    rw [hy, hsc, div_one] at k2
    have f1 : ((pix (turn (-m) p)).1 - (turn (-m) p).1) ^ 2 ≤ 3.3e-9 ^ 2 := sq_le_sq' (by linarith [abs_le.1 k1]) (by linarith [abs_le.1 k1])
    have f2 : ((pix (turn (-m) p)).2 - (turn (-m) p).2) ^ 2 ≤ 3.3e-9 ^ 2 := sq_le_sq' (by linarith [abs_le.1 k2]) (by linarith [abs_le.1 k2])
    have e := turn_sub m (pix (turn (-m) p)) (turn (-m) p)
    rw [turn_undo] at e
    have g := turn_sq m ((pix (turn (-m) p)).1 - (turn (-m) p).1, (pix (turn (-m) p)).2 - (turn (-m) p).2)
    rw [← e] at g
    simp only at g ⊢
    rw [g]
    norm_num at f1 f2 ⊢
    linarith

/-- **C133** Focal plane to sky and back: any positions within 420 mm of the centre come back to within a micron. -/
theorem C133_sky_back (t : RayTraceFit) (ht : t.zbpolids = rayIds) (c : Coeffs) (a1 a2 : ℝ) (hc : t.interp (deltaAnglesAdc a1 a2) = .ok c)
    (hr : RayLike c) (pts : List (ℝ × ℝ)) (hne : pts ≠ []) (hp : ∀ p ∈ pts, p.1 ^ 2 + p.2 ^ 2 ≤ 420 ^ 2) :
    ∃ sky fp : ℝ × ℝ → ℝ × ℝ, t.fp2tan pts a1 a2 = .ok (pts.map sky) ∧ t.tan2fp (pts.map sky) a1 a2 = .ok (pts.map fp) ∧
      ∀ p ∈ pts, ((fp p).1 - p.1) ^ 2 + ((fp p).2 - p.2) ^ 2 ≤ 0.001 ^ 2 := by
  obtain ⟨s1, s2, s3, s4, hw⟩ := hr
  obtain ⟨-, -, b1, b2, b3⟩ := ray_bounds
  set m := averageAnglesAdc a1 a2 with hm
  have hids : ∀ i ∈ t.zbpolids, i < 33 := by rw [ht]; exact ray_ids
  obtain ⟨D, hD, hDR⟩ := distortion t.zbpolids hids c.zb rayB hw
  rw [ht] at hDR
  obtain ⟨hl, hM⟩ := hDR (13 / 10) (by norm_num)
  obtain ⟨-, hM1⟩ := hDR 1 le_rfl
  have c1 : ((dS rayIds rayB 1 : ℚ) : ℝ) ≤ ((16 / 100 : ℚ) : ℝ) := by exact_mod_cast b1
  have c2 : ((dS rayIds rayB (13 / 10) : ℚ) : ℝ) ≤ ((3 / 10 : ℚ) : ℝ) := by exact_mod_cast b2
  have c3 : ((dL rayIds rayB (13 / 10) : ℚ) : ℝ) ≤ ((545 / 1000 : ℚ) : ℝ) := by exact_mod_cast b3
  have hpr : ∀ p ∈ pts, ‖reduceFp (turn (-m) p)‖ ≤ 1 := by
    intro p hpp
    have h := hp p hpp
    rw [← turn_sq (-m)] at h
    obtain ⟨g1, g2⟩ := coord_of_sq (by norm_num) h
    unfold reduceFp
    refine norm_le ?_ ?_
    · simp only [abs_div]; rw [abs_of_pos (by norm_num : (0:ℝ) < 420), div_le_iff₀ (by norm_num)]; linarith
    · simp only [abs_div]; rw [abs_of_pos (by norm_num : (0:ℝ) < 420), div_le_iff₀ (by norm_num)]; linarith
  obtain ⟨sky, fp, e1, e2, e3⟩ := C27_inverse t c a1 a2 hc (by rw [s1]; norm_num) D hD pts hne {q | ‖q‖ ≤ ((13 / 10 : ℚ) : ℝ)} ((545 / 1000 : ℚ) : ℝ)
    (by norm_num) (fun a ha b hb => (hl a b ha hb).trans (mul_le_mul_of_nonneg_right c3 dist_nonneg))
    (fun p hpp => ⟨(hpr p hpp).trans (by norm_num), fun q hq => by
      have k1 := hM q hq
      have k2 := hpr p hpp
      refine (norm_sub_le _ _).trans ?_
      push_cast at c2 ⊢
      linarith⟩)
  refine ⟨sky, fp, e1, e2, fun p hpp => ?_⟩
  have k := e3 p hpp
  rw [← hm] at k
  have hB : (420:ℝ) * max (((545 / 1000 : ℚ) : ℝ) * 1e-12) (((545 / 1000 : ℚ) : ℝ) ^ 20 * ‖D (reduceFp (turn (-m) p))‖) ≤ 4e-4 := by
    rw [← le_div_iff₀' (by norm_num)]
    apply max_le
    · norm_num
    · have : ‖D (reduceFp (turn (-m) p))‖ ≤ 16 / 100 := (hM1 _ (by simpa using hpr p hpp)).trans (c1.trans (by norm_num))
      have := mul_le_mul_of_nonneg_left this (by positivity : (0:ℝ) ≤ ((545 / 1000 : ℚ) : ℝ) ^ 20)
      refine this.trans (by norm_num)
  obtain ⟨d1, d2⟩ := coordD (turn (-m) (fp p)) (turn (-m) p)
  have k' := k.trans hB
  have f1 : ((turn (-m) (fp p)).1 - (turn (-m) p).1) ^ 2 ≤ 4e-4 ^ 2 := sq_le_sq' (by linarith [abs_le.1 d1]) (by linarith [abs_le.1 d1])
  have f2 : ((turn (-m) (fp p)).2 - (turn (-m) p).2) ^ 2 ≤ 4e-4 ^ 2 := sq_le_sq' (by linarith [abs_le.1 d2]) (by linarith [abs_le.1 d2])
  have e := turn_sub (-m) (fp p) p
  have g := turn_sq (-m) ((fp p).1 - p.1, (fp p).2 - p.2)
  rw [← e] at g
  simp only at g
  rw [← g]
  norm_num at f1 f2 ⊢
  linarith

/-- The interpolation gives the rows of the table at their differences of the ADC angles (parameter: `interp1d` passes through its points). -/
def Knots (t : RayTraceFit) (table : List RayRow) : Prop := ∀ r ∈ table, r.2.1 - r.1 < 360 → t.interp (r.2.1 - r.1 : ℤ) = .ok r.coeffs

/-- **C133** So both round trips hold with both tables at every tabulated difference of the ADC angles, whatever their mean. -/
theorem C133_sky_table (t : RayTraceFit) (ht : t.zbpolids = rayIds) (table : List RayRow) (htab : table = rayTable ∨ table = rayTable6560)
    (hk : Knots t table) (r : RayRow) (hr : r ∈ table) (hr' : r.2.1 - r.1 < 360) (a1 a2 : ℝ) (ha : deltaAnglesAdc a1 a2 = (r.2.1 - r.1 : ℤ))
    (pts : List (ℝ × ℝ)) (hne : pts ≠ []) :
    ((∀ p ∈ pts, p.1 ^ 2 + p.2 ^ 2 ≤ 0.0278 ^ 2) → ∃ fp, ∃ sky : ℝ × ℝ → ℝ × ℝ, t.tan2fp pts a1 a2 = .ok fp ∧
      t.fp2tan fp a1 a2 = .ok (pts.map sky) ∧ ∀ p ∈ pts, ((sky p).1 - p.1) ^ 2 + ((sky p).2 - p.2) ^ 2 ≤ 4.8e-9 ^ 2) ∧
    ((∀ p ∈ pts, p.1 ^ 2 + p.2 ^ 2 ≤ 420 ^ 2) → ∃ sky fp : ℝ × ℝ → ℝ × ℝ, t.fp2tan pts a1 a2 = .ok (pts.map sky) ∧
      t.tan2fp (pts.map sky) a1 a2 = .ok (pts.map fp) ∧ ∀ p ∈ pts, ((fp p).1 - p.1) ^ 2 + ((fp p).2 - p.2) ^ 2 ≤ 0.001 ^ 2) := by
  have hc : t.interp (deltaAnglesAdc a1 a2) = .ok r.coeffs := by rw [ha]; exact hk r hr hr'
  have hlike : RayLike r.coeffs := C133_tables r (by rcases htab with rfl | rfl; exacts [Or.inl hr, Or.inr hr])
  exact ⟨fun hp => C133_sky t ht _ a1 a2 hc hlike pts hne hp, fun hp => C133_sky_back t ht _ a1 a2 hc hlike pts hne hp⟩

/-- Pixels of the image, and a direction and a position in the field. -/
example : (∀ u ∈ ([(1000, 4000), (5800, 200)] : List (ℝ × ℝ)), (200 ≤ u.1 ∧ u.1 ≤ 5800) ∧ 200 ≤ u.2 ∧ u.2 ≤ 5800) ∧
    ((0.02 : ℝ) ^ 2 + (-0.019) ^ 2 ≤ 0.0278 ^ 2) ∧ ((300 : ℝ) ^ 2 + (-290) ^ 2 ≤ 420 ^ 2) := by
  refine ⟨?_, by norm_num, by norm_num⟩
  intro u hu
  simp only [List.mem_cons, List.not_mem_nil, or_false] at hu
  rcases hu with rfl | rfl <;> norm_num

open Classical in
/-- An interpolation through the points of the table, and ADC angles at one of them. -/
example : ∃ t : RayTraceFit, t.zbpolids = rayIds ∧ Knots t rayTable ∧ ∃ r ∈ rayTable, r.2.1 - r.1 < 360 ∧
    deltaAnglesAdc 350 30 = (r.2.1 - r.1 : ℤ) := by
  refine ⟨⟨rayIds, fun d => if h : ∃ r ∈ rayTable, d = ((r.2.1 - r.1 : ℤ) : ℝ) then .ok h.choose.coeffs else .error .valueError⟩, rfl, ?_, ?_⟩
  · intro r hr _
    have h : ∃ r' ∈ rayTable, ((r.2.1 - r.1 : ℤ) : ℝ) = ((r'.2.1 - r'.1 : ℤ) : ℝ) := ⟨r, hr, rfl⟩
    simp only
    rw [dif_pos h]
    have h2 := h.choose_spec
    have h3 : r.2.1 - r.1 = h.choose.2.1 - h.choose.1 := by exact_mod_cast h2.2
    have hd : ∀ r ∈ rayTable, ∀ r' ∈ rayTable, r.2.1 - r.1 = r'.2.1 - r'.1 → r = r' := by decide +kernel
    rw [← hd r hr _ h2.1 h3]
  · refine ⟨rayTable[2]'(by decide), List.getElem_mem _, by decide, ?_⟩
    obtain ⟨h0, h1, k, hk⟩ := C27_delta 350 30
    have k1 : k = 1 := by
      have g1 : (0:ℝ) < k := by linarith
      have g2 : (k:ℝ) < 2 := by linarith
      have g1' : 0 < k := by exact_mod_cast g1
      have g2' : k < 2 := by exact_mod_cast g2
      omega
    subst k1
    have e : (rayTable[2]'(by decide)).2.1 - (rayTable[2]'(by decide)).1 = 40 := by decide
    rw [e]
    push_cast at hk ⊢
    linarith

end Verif.Props.Shipped
