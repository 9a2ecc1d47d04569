import Verif.Lemmas.Fvc2fp
import Verif.Lemmas.ZhaoBurgePoly
import Verif.Props.ZhaoBurge

namespace Verif.Props
open Verif.Py Verif.Model.ZhaoBurge Verif.Model.Fvc2fp Verif.Lemmas.Fvc2fp

/-- `D` is the distortion of the transformation (reduced coordinates). -/
def HasDistortion (t : FVC2FP) (D : ℝ × ℝ → ℝ × ℝ) : Prop :=
  ∀ x y, getZhaoBurgeXY t.zbpolids t.zbcoeffs x y = .ok (D (x, y))

/-- C24: every transformation with known ids has a distortion. -/
theorem C24_distortion (t : FVC2FP) (h : ∀ i ∈ t.zbpolids, i < 33) : ∃ D, HasDistortion t D := by
  have : ∀ p : ℝ × ℝ, ∃ d, getZhaoBurgeXY t.zbpolids t.zbcoeffs p.1 p.2 = .ok d := by
    intro p
    obtain ⟨F, hF⟩ := fields_exist t.zbpolids h p.1 p.2
    exact ⟨_, C25_sum _ _ _ _ F hF⟩
  choose D hD using this
  exact ⟨D, fun x y => hD (x, y)⟩

/-- C24: reduction and expansion undo each other (pixels and focal plane). -/
theorem C24_reduce_expand (t : FVC2FP) (h1 : t.xfvcScale ≠ 0) (h2 : t.yfvcScale ≠ 0) (p : ℝ × ℝ) :
    t.reduceFvc (t.expandFvc p) = p ∧ t.expandFvc (t.reduceFvc p) = p ∧
    reduceFp (expandFp p) = p ∧ expandFp (reduceFp p) = p :=
  ⟨reduce_expand t h1 h2 p, expand_reduce t h1 h2 p, reduce_expandFp p, expand_reduceFp p⟩

/-- C24: the fields of view: pixels 0..6000 (x flipped) and focal plane ±420 mm map to [-1,1]. -/
theorem C24_normalisation (t : FVC2FP) (h : t.xfvcScale = -3000 ∧ t.yfvcScale = 3000 ∧ t.xfvcOffset = 3000 ∧
    t.yfvcOffset = 3000) : t.reduceFvc (0, 0) = (1, -1) ∧ t.reduceFvc (6000, 6000) = (-1, 1) ∧
    t.reduceFvc (3000, 3000) = (0, 0) ∧ reduceFp (420, -420) = (1, -1) := by
  obtain ⟨h1, h2, h3, h4⟩ := h
  unfold FVC2FP.reduceFvc reduceFp
  rw [h1, h2, h3, h4]
  refine ⟨?_, ?_, ?_, ?_⟩ <;> ext <;> norm_num

/-- C24: on a non-empty list of points `fp2fvc` returns a pixel for each, and these pixels
map back with `fvc2fp` to the requested points up to `420 mm` times the larger of
`L·1e-12` (stopped by the tolerance) and `L^20·|D|` (stopped by the iteration limit), for
every Lipschitz constant `L` of the distortion on a region `S` that the iteration does not
leave. -/
theorem C24_residual (t : FVC2FP) (h1 : t.xfvcScale ≠ 0) (h2 : t.yfvcScale ≠ 0) (hs : t.scale ≠ 0)
    (D : ℝ × ℝ → ℝ × ℝ) (hD : HasDistortion t D) (pts : List (ℝ × ℝ)) (hne : pts ≠ [])
    (S : Set (ℝ × ℝ)) (L : ℝ) (hL0 : 0 ≤ L) (hL : ∀ a ∈ S, ∀ b ∈ S, dist (D a) (D b) ≤ L * dist a b)
    (hS : ∀ p ∈ pts, (p.1 / 420, p.2 / 420) ∈ S ∧ ∀ q ∈ S, (p.1 / 420, p.2 / 420) - D q ∈ S) :
    ∃ pix : ℝ × ℝ → ℝ × ℝ, ∃ back : ℝ × ℝ → ℝ × ℝ,
      t.fp2fvc pts = .ok (pts.map pix) ∧ t.fvc2fp (pts.map pix) = .ok (pts.map back) ∧
      ∀ p ∈ pts, dist (back p) p ≤ 420 * max (L * 1e-12) (L ^ 20 * ‖D (p.1 / 420, p.2 / 420)‖) := by
  obtain ⟨j, hj, he, hstop⟩ := fp2fvc_eq t hD hne
  refine ⟨_, _, he, by rw [fvc2fp_eq t hD, List.map_map], ?_⟩
  intro p hp
  simp only [Function.comp]
  rw [lin_undo t h1 h2 hs]
  have hr : (reduceFp p) = (p.1 / 420, p.2 / 420) := rfl
  obtain ⟨hpS, hcS⟩ := hS p hp
  rw [← hr] at hpS hcS ⊢
  have e : dist (expandFp (reduceFp p - corr D (reduceFp p) j + D (reduceFp p - corr D (reduceFp p) j))) p =
      420 * dist (corr D (reduceFp p) (j + 1)) (corr D (reduceFp p) j) := by
    conv_lhs => rw [← expand_reduceFp p, reduce_expandFp]
    rw [dist_expandFp]
    congr 1
    change dist (reduceFp p - corr D (reduceFp p) j + corr D (reduceFp p) (j + 1)) _ = _
    rw [dist_eq_norm, dist_eq_norm]; congr 1; abel
  rw [e]
  refine mul_le_mul_of_nonneg_left ?_ (by norm_num)
  rcases hstop with rfl | ⟨i, rfl, hi⟩
  · exact (corr_geom hL0 hL hpS hcS 20).trans (le_max_right _ _)
  · refine le_trans ?_ (le_max_left _ _)
    exact ((corr_step hL hpS hcS i).2).trans (mul_le_mul_of_nonneg_left (hi p hp).le hL0)

/-- C24: if the requested points are the images of pixels `u` and the distortion contracts
(factor `L < 1`) around each undistorted point, the returned pixels differ from `u` by at
most `2·scale_fvc/|scale|` times the larger of `L·1e-12/(1-L)` and `L^20·|D|`. -/
theorem C24_contraction (t : FVC2FP) (h1 : t.xfvcScale ≠ 0) (h2 : t.yfvcScale ≠ 0) (hs : t.scale ≠ 0)
    (D : ℝ × ℝ → ℝ × ℝ) (hD : HasDistortion t D) (us : List (ℝ × ℝ)) (hne : us ≠ [])
    (L : ℝ) (hL0 : 0 ≤ L) (hL1 : L < 1)
    (hL : ∀ u ∈ us, ∀ a, dist a (lin t (t.reduceFvc u)) ≤ ‖D (lin t (t.reduceFvc u))‖ →
      dist (D a) (D (lin t (t.reduceFvc u))) ≤ L * dist a (lin t (t.reduceFvc u))) :
    ∃ pts pix, t.fvc2fp us = .ok pts ∧ t.fp2fvc pts = .ok (us.map pix) ∧
      ∀ u ∈ us, ∀ B, B = max (L * 1e-12 / (1 - L)) (L ^ 20 * ‖D (lin t (t.reduceFvc u))‖) →
        |(pix u).1 - u.1| ≤ |t.xfvcScale| * (2 * B / |t.scale|) ∧
        |(pix u).2 - u.2| ≤ |t.yfvcScale| * (2 * B / |t.scale|) := by
  have hf := fvc2fp_eq t hD us
  obtain ⟨j, hj, he, hstop⟩ := fp2fvc_eq t hD (pts := us.map fun p =>
    expandFp (lin t (t.reduceFvc p) + D (lin t (t.reduceFvc p)))) (by simpa using hne)
  refine ⟨_, fun u => t.undoLinear (lin t (t.reduceFvc u) + D (lin t (t.reduceFvc u)) -
      corr D (lin t (t.reduceFvc u) + D (lin t (t.reduceFvc u))) j), hf, ?_, ?_⟩
  · rw [he, List.map_map]
    congr 1
    refine List.map_congr_left fun u _ => ?_
    simp only [Function.comp]
    rw [reduce_expandFp]
  intro u hu B hB
  simp only
  generalize hq : lin t (t.reduceFvc u) = q at *
  have hLu := hL u hu
  rw [hq] at hLu
  have hconv := fun k => corr_conv (D := D) hL0 hL1.le (p := q + D q) (q := q) rfl hLu k
  have hb : dist (corr D (q + D q) j) (D q) ≤ B := by
    rw [hB]
    rcases hstop with rfl | ⟨i, rfl, hi⟩
    · exact (hconv 20).1.trans (le_max_right _ _)
    · refine le_trans ?_ (le_max_left _ _)
      have hi' := hi (expandFp (q + D q)) (List.mem_map.2 ⟨u, hu, by rw [hq]⟩)
      rw [reduce_expandFp] at hi'
      have hst := (hconv i).2
      have htri := dist_triangle (corr D (q + D q) i) (corr D (q + D q) (i + 1)) (D q)
      rw [dist_comm (corr D (q + D q) i) (corr D (q + D q) (i + 1))] at htri
      rw [le_div_iff₀ (by linarith)]
      nlinarith
  have hback : t.undoLinear q = u := by rw [← hq]; exact undo_lin t h1 h2 hs u
  have hd := undo_dist t (q + D q - corr D (q + D q) j) q
  rw [hback] at hd
  have e : dist (q + D q - corr D (q + D q) j) q = dist (corr D (q + D q) j) (D q) := by
    rw [dist_eq_norm, dist_eq_norm, ← norm_neg]; congr 1; abel
  rw [e] at hd
  have hmono : 2 * dist (corr D (q + D q) j) (D q) / |t.scale| ≤ 2 * B / |t.scale| :=
    div_le_div_of_nonneg_right (by linarith) (abs_nonneg _)
  exact ⟨hd.1.trans (mul_le_mul_of_nonneg_left hmono (abs_nonneg _)),
    hd.2.trans (mul_le_mul_of_nonneg_left hmono (abs_nonneg _))⟩

/-- C24: without distortion both directions are exact inverses of each other. -/
theorem C24_exact_linear (t : FVC2FP) (h1 : t.xfvcScale ≠ 0) (h2 : t.yfvcScale ≠ 0) (hs : t.scale ≠ 0)
    (hk : ∀ i ∈ t.zbpolids, i < 33) (hz : ∀ c ∈ t.zbcoeffs, c = 0) (pts : List (ℝ × ℝ)) (hne : pts ≠ []) :
    (∃ q, t.fp2fvc pts = .ok q ∧ t.fvc2fp q = .ok pts) ∧ (∃ q, t.fvc2fp pts = .ok q ∧ t.fp2fvc q = .ok pts) := by
  have hrep : t.zbcoeffs = List.replicate t.zbcoeffs.length 0 := List.eq_replicate_of_mem hz
  have hD : HasDistortion t (fun _ => 0) := by
    intro x y; rw [hrep]; exact C25_zero t.zbpolids hk _ x y
  have hc : ∀ p k, corr (fun _ => (0 : ℝ × ℝ)) p k = 0 := by intro p k; cases k <;> rfl
  constructor
  · obtain ⟨j, -, he, -⟩ := fp2fvc_eq (D := fun _ => 0) t hD hne
    refine ⟨_, he, ?_⟩
    rw [fvc2fp_eq (D := fun _ => 0) t hD, List.map_map]
    congr 1
    conv_rhs => rw [← List.map_id pts]
    refine List.map_congr_left fun p _ => ?_
    simp only [Function.comp, hc, sub_zero, add_zero, lin_undo t h1 h2 hs, expand_reduceFp, id]
  · obtain ⟨j, -, he, -⟩ := fp2fvc_eq (D := fun _ => 0) t hD (pts := pts.map fun p => expandFp (lin t (t.reduceFvc p) + 0))
      (by simpa using hne)
    refine ⟨_, fvc2fp_eq (D := fun _ => 0) t hD pts, ?_⟩
    rw [he, List.map_map]
    congr 1
    conv_rhs => rw [← List.map_id pts]
    refine List.map_congr_left fun p _ => ?_
    simp only [Function.comp, hc, sub_zero, add_zero, reduce_expandFp, undo_lin t h1 h2 hs, id]

/-- C24: empty arrays raise (maximum of an empty array). -/
theorem C24_empty (t : FVC2FP) : t.fp2fvc [] = .error .valueError := rfl

/-- C24: the transformation without distortion is scale times rotation of the shifted reduced pixel. -/
theorem C24_forward (t : FVC2FP) (D : ℝ × ℝ → ℝ × ℝ) (hD : HasDistortion t D) (pts : List (ℝ × ℝ)) :
    t.fvc2fp pts = .ok (pts.map fun p =>
      let x := (p.1 - t.xfvcOffset) / t.xfvcScale + t.offsetX
      let y := (p.2 - t.yfvcOffset) / t.yfvcScale + t.offsetY
      let q : ℝ × ℝ := ((x * Real.cos t.rotation - y * Real.sin t.rotation) * t.scale,
        (x * Real.sin t.rotation + y * Real.cos t.rotation) * t.scale)
      ((q.1 + (D q).1) * 420, (q.2 + (D q).2) * 420)) :=
  fvc2fp_eq t hD pts

/-- A transformation with a 10% magnification term: the distortion contracts everywhere. -/
example : ∃ D, HasDistortion ⟨-3000, 3000, 3000, 3000, 1, 0, 0, 0, [2], [1 / 20]⟩ D ∧
    ∀ a b, dist (D a) (D b) ≤ (1 / 10 : ℝ) * dist a b := by
  refine ⟨fun p => (rh / 10 * p.1, rh / 10 * p.2), ?_, ?_⟩
  · intro x y
    rw [C25_sum _ _ x y (fun _ => (rh * (2 * x), rh * (2 * y)))]
    · simp; constructor <;> ring
    · intro i hi
      have : i = 2 := by simpa using hi
      subst this
      exact ⟨.S, by
        simp only [getZhaoBurgeTerm, Verif.Lemmas.ZhaoBurge.getZ_2, Verif.Lemmas.ZhaoBurge.getZ_3,
          Verif.Lemmas.ZhaoBurge.s4]
        simp [Verif.Lemmas.ZhaoBurge.ev, Verif.Lemmas.ZhaoBurge.Zp]⟩
  · intro a b
    have h0 : 0 ≤ rh := Real.sqrt_nonneg _
    have h1 : rh ≤ 1 := by unfold rh; rw [Real.sqrt_le_left (by norm_num)]; norm_num
    have e : ((rh / 10 * a.1, rh / 10 * a.2) : ℝ × ℝ) = (rh / 10) • a := rfl
    have e' : ((rh / 10 * b.1, rh / 10 * b.2) : ℝ × ℝ) = (rh / 10) • b := rfl
    simp only [e, e']
    rw [dist_smul₀, Real.norm_of_nonneg (by positivity)]
    exact mul_le_mul_of_nonneg_right (by linarith) dist_nonneg

end Verif.Props
