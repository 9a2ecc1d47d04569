import Verif.Model.Fvc2fp
import Mathlib.Analysis.Normed.Group.Constructions
import Mathlib.Tactic.LinearCombination
import Mathlib.Tactic.FieldSimp
import Verif.Lemmas.Pos2ptl

namespace Verif.Lemmas.Fvc2fp
open Verif.Py Verif.Model.ZhaoBurge Verif.Model.Fvc2fp

theorem mapM_ok {α β : Type} {f : α → Except PyErr β} {g : α → β} {l : List α}
    (h : ∀ a ∈ l, f a = .ok (g a)) : l.mapM f = .ok (l.map g) := by
  induction l with
  | nil => rfl
  | cons a l ih =>
    rw [List.mapM_cons, h a (by simp), ih fun b hb => h b (by simp [hb])]
    rfl

theorem zip_map_self {α β : Type} (l : List α) (f : α → β) : l.zip (l.map f) = l.map fun a => (a, f a) := by
  induction l with
  | nil => rfl
  | cons a l ih => simp [ih]

theorem zip_map_map {α β γ : Type} (l : List α) (f : α → β) (g : α → γ) :
    (l.map f).zip (l.map g) = l.map fun a => (f a, g a) := by
  induction l with
  | nil => rfl
  | cons a l ih => simp [ih]

/-- Corrections after `k` evaluations at the (reduced) point `p`. -/
def corr (D : ℝ × ℝ → ℝ × ℝ) (p : ℝ × ℝ) : Nat → ℝ × ℝ
  | 0 => 0
  | k + 1 => D (p - corr D p k)

variable {ids : List Nat} {cs : List ℝ} {D : ℝ × ℝ → ℝ × ℝ}

theorem evalCorr_eq (hD : ∀ x y, getZhaoBurgeXY ids cs x y = .ok (D (x, y))) (pts : List (ℝ × ℝ)) (k : Nat) :
    evalCorr ids cs pts (pts.map fun p => corr D p k) = .ok (pts.map fun p => corr D p (k + 1)) := by
  unfold evalCorr
  rw [zip_map_self, mapM_ok (g := fun pd : (ℝ × ℝ) × (ℝ × ℝ) => D (pd.1 - pd.2)), List.map_map]
  · rfl
  · intro a _; rw [hD]; rfl

theorem foldl_max_lt (l : List ℝ) (a e : ℝ) : l.foldl max a < e ↔ a < e ∧ ∀ b ∈ l, b < e := by
  induction l generalizing a with
  | nil => simp
  | cons b l ih => rw [List.foldl_cons, ih]; simp [and_assoc]

theorem dmax_eq (pts : List (ℝ × ℝ)) (h : pts ≠ []) (f g : ℝ × ℝ → ℝ × ℝ) :
    ∃ m, dmax (pts.map f) (pts.map g) = .ok m ∧ ∀ e, m < e ↔ ∀ p ∈ pts, dist (f p) (g p) < e := by
  unfold dmax
  rw [zip_map_map, List.map_map]
  cases pts with
  | nil => exact absurd rfl h
  | cons a l =>
    refine ⟨_, rfl, fun e => ?_⟩
    rw [foldl_max_lt]
    simp only [Function.comp, List.mem_map, forall_exists_index, and_imp, forall_apply_eq_imp_iff₂,
      List.mem_cons, forall_eq_or_imp, Prod.dist_eq, Real.dist_eq]

theorem loop_eq (hD : ∀ x y, getZhaoBurgeXY ids cs x y = .ok (D (x, y))) {pts : List (ℝ × ℝ)} (h : pts ≠ [])
    (n k : Nat) : ∃ j, k ≤ j ∧ j ≤ k + n ∧
      corrLoop ids cs pts n (pts.map fun p => corr D p k) = .ok (pts.map fun p => corr D p j) ∧
      (j = k + n ∨ ∃ i, j = i + 1 ∧ ∀ p ∈ pts, dist (corr D p (i + 1)) (corr D p i) < 1e-12) := by
  induction n generalizing k with
  | zero => exact ⟨k, le_refl _, le_refl _, rfl, Or.inl rfl⟩
  | succ n ih =>
    obtain ⟨m, hm, hlt⟩ := dmax_eq pts h (fun p => corr D p (k + 1)) (fun p => corr D p k)
    rw [corrLoop, evalCorr_eq hD]
    simp only [bind, Except.bind, hm]
    by_cases hs : m < 1e-12
    · rw [if_pos hs]
      exact ⟨k + 1, by omega, by omega, rfl, Or.inr ⟨k, rfl, (hlt _).1 hs⟩⟩
    · rw [if_neg hs]
      obtain ⟨j, h1, h2, h3, h4⟩ := ih (k + 1)
      exact ⟨j, by omega, by omega, h3, by rcases h4 with h4 | h4; exacts [Or.inl (by omega), Or.inr h4]⟩

/-- The linear part of the forward transformation, reduced coordinates. -/
noncomputable def lin (t : FVC2FP) (r : ℝ × ℝ) : ℝ × ℝ :=
  (((r.1 + t.offsetX) * Real.cos t.rotation - (r.2 + t.offsetY) * Real.sin t.rotation) * t.scale,
   ((r.1 + t.offsetX) * Real.sin t.rotation + (r.2 + t.offsetY) * Real.cos t.rotation) * t.scale)

theorem fvc2fp_eq (t : FVC2FP) (hD : ∀ x y, getZhaoBurgeXY t.zbpolids t.zbcoeffs x y = .ok (D (x, y)))
    (pts : List (ℝ × ℝ)) :
    t.fvc2fp pts = .ok (pts.map fun p => expandFp (lin t (t.reduceFvc p) + D (lin t (t.reduceFvc p)))) := by
  unfold FVC2FP.fvc2fp
  refine mapM_ok fun p _ => ?_
  unfold transform
  simp only [bind, Except.bind, pure, Except.pure, hD]
  rfl

theorem reduce_expand (t : FVC2FP) (h1 : t.xfvcScale ≠ 0) (h2 : t.yfvcScale ≠ 0) (p : ℝ × ℝ) :
    t.reduceFvc (t.expandFvc p) = p := by
  unfold FVC2FP.reduceFvc FVC2FP.expandFvc
  ext <;> simp [h1, h2]

theorem expand_reduce (t : FVC2FP) (h1 : t.xfvcScale ≠ 0) (h2 : t.yfvcScale ≠ 0) (p : ℝ × ℝ) :
    t.expandFvc (t.reduceFvc p) = p := by
  unfold FVC2FP.reduceFvc FVC2FP.expandFvc
  ext <;> simp [h1, h2]

theorem lin_undo (t : FVC2FP) (h1 : t.xfvcScale ≠ 0) (h2 : t.yfvcScale ≠ 0) (hs : t.scale ≠ 0) (q : ℝ × ℝ) :
    lin t (t.reduceFvc (t.undoLinear q)) = q := by
  unfold FVC2FP.undoLinear
  rw [reduce_expand t h1 h2]
  unfold lin
  have h := Real.sin_sq_add_cos_sq t.rotation
  rw [Real.cos_neg, Real.sin_neg]
  ext
  · simp only; field_simp; linear_combination q.1 * h
  · simp only; field_simp; linear_combination q.2 * h

theorem undo_lin (t : FVC2FP) (h1 : t.xfvcScale ≠ 0) (h2 : t.yfvcScale ≠ 0) (hs : t.scale ≠ 0) (u : ℝ × ℝ) :
    t.undoLinear (lin t (t.reduceFvc u)) = u := by
  have h := Real.sin_sq_add_cos_sq t.rotation
  rw [← expand_reduce t h1 h2 u]
  rw [reduce_expand t h1 h2]
  unfold FVC2FP.undoLinear lin
  rw [Real.cos_neg, Real.sin_neg]
  refine congrArg t.expandFvc ?_
  ext
  · simp only; field_simp; linear_combination ((t.reduceFvc u).1 + t.offsetX) * h
  · simp only; field_simp; linear_combination ((t.reduceFvc u).2 + t.offsetY) * h

theorem fp2fvc_eq (t : FVC2FP) (hD : ∀ x y, getZhaoBurgeXY t.zbpolids t.zbcoeffs x y = .ok (D (x, y)))
    {pts : List (ℝ × ℝ)} (h : pts ≠ []) : ∃ j ≤ 20,
      t.fp2fvc pts = .ok (pts.map fun p => t.undoLinear (reduceFp p - corr D (reduceFp p) j)) ∧
      (j = 20 ∨ ∃ i, j = i + 1 ∧ ∀ p ∈ pts,
        dist (corr D (reduceFp p) (i + 1)) (corr D (reduceFp p) i) < 1e-12) := by
  have hne : pts.map reduceFp ≠ [] := by simpa using h
  obtain ⟨j, -, h2, h3, h4⟩ := loop_eq (D := D) hD hne 20 0
  refine ⟨j, by omega, ?_, ?_⟩
  · unfold FVC2FP.fp2fvc
    have e0 : (pts.map reduceFp).map (fun _ => ((0:ℝ), (0:ℝ))) = (pts.map reduceFp).map fun p => corr D p 0 := rfl
    simp only [e0, bind, Except.bind, h3, pure, Except.pure]
    rw [zip_map_self, List.map_map, List.map_map]
    rfl
  · rcases h4 with h4 | ⟨i, hi, h4⟩
    · exact Or.inl (by omega)
    · exact Or.inr ⟨i, hi, fun p hp => h4 _ (List.mem_map_of_mem hp)⟩

/-- Residual of the fixed point equation after `k` evaluations. -/
theorem corr_step {S : Set (ℝ × ℝ)} {L : ℝ} (hL : ∀ a ∈ S, ∀ b ∈ S, dist (D a) (D b) ≤ L * dist a b)
    {p : ℝ × ℝ} (hp : p ∈ S) (hc : ∀ q ∈ S, p - D q ∈ S) (k : Nat) :
    p - corr D p k ∈ S ∧
    dist (corr D p (k + 2)) (corr D p (k + 1)) ≤ L * dist (corr D p (k + 1)) (corr D p k) := by
  have hm : ∀ k, p - corr D p k ∈ S := by
    intro k; cases k with
    | zero => simpa [corr] using hp
    | succ k =>
      induction k with
      | zero => exact hc _ (by simpa [corr] using hp)
      | succ k ih => exact hc _ ih
  refine ⟨hm k, ?_⟩
  have := hL _ (hm (k + 1)) _ (hm k)
  rwa [dist_sub_left] at this

theorem corr_geom {S : Set (ℝ × ℝ)} {L : ℝ} (hL0 : 0 ≤ L)
    (hL : ∀ a ∈ S, ∀ b ∈ S, dist (D a) (D b) ≤ L * dist a b)
    {p : ℝ × ℝ} (hp : p ∈ S) (hc : ∀ q ∈ S, p - D q ∈ S) (k : Nat) :
    dist (corr D p (k + 1)) (corr D p k) ≤ L ^ k * ‖D p‖ := by
  induction k with
  | zero => simp [corr]
  | succ k ih =>
    calc _ ≤ L * dist (corr D p (k + 1)) (corr D p k) := (corr_step hL hp hc k).2
      _ ≤ L * (L ^ k * ‖D p‖) := mul_le_mul_of_nonneg_left ih hL0
      _ = _ := by ring

/-- Convergence to a solution `q + D q = p`. -/
theorem corr_conv {L : ℝ} (hL0 : 0 ≤ L) (hL1 : L ≤ 1) {p q : ℝ × ℝ} (hq : q + D q = p)
    (hL : ∀ a, dist a q ≤ ‖D q‖ → dist (D a) (D q) ≤ L * dist a q) (k : Nat) :
    dist (corr D p k) (D q) ≤ L ^ k * ‖D q‖ ∧ dist (corr D p (k + 1)) (D q) ≤ L * dist (corr D p k) (D q) := by
  have e : ∀ k, dist (p - corr D p k) q = dist (corr D p k) (D q) := by
    intro k
    rw [dist_eq_norm, dist_eq_norm, ← hq, ← norm_neg]; congr 1; abel
  have step : ∀ k, dist (corr D p k) (D q) ≤ L ^ k * ‖D q‖ →
      dist (corr D p (k + 1)) (D q) ≤ L * dist (corr D p k) (D q) := by
    intro k hk
    have := hL (p - corr D p k) (by
      rw [e k]
      exact hk.trans (mul_le_of_le_one_left (norm_nonneg _) (pow_le_one₀ hL0 hL1)))
    rw [e k] at this
    exact this
  have main : dist (corr D p k) (D q) ≤ L ^ k * ‖D q‖ := by
    induction k with
    | zero => simp [corr]
    | succ k ih =>
      calc _ ≤ L * dist (corr D p k) (D q) := step k ih
        _ ≤ L * (L ^ k * ‖D q‖) := mul_le_mul_of_nonneg_left ih hL0
        _ = _ := by ring
  exact ⟨main, step k main⟩

theorem dist_expandFp (a b : ℝ × ℝ) : dist (expandFp a) (expandFp b) = 420 * dist a b := by
  unfold expandFp
  simp only [Prod.dist_eq, Real.dist_eq, ← sub_mul, abs_mul]
  rw [← max_mul_of_nonneg _ _ (abs_nonneg (420:ℝ)), abs_of_pos (by norm_num : (0:ℝ) < 420)]
  ring

theorem expand_reduceFp (p : ℝ × ℝ) : expandFp (reduceFp p) = p := by
  unfold expandFp reduceFp; ext <;> simp

theorem reduce_expandFp (p : ℝ × ℝ) : reduceFp (expandFp p) = p := by
  unfold expandFp reduceFp; ext <;> simp

theorem undo_dist (t : FVC2FP) (a b : ℝ × ℝ) :
    |(t.undoLinear a).1 - (t.undoLinear b).1| ≤ |t.xfvcScale| * (2 * dist a b / |t.scale|) ∧
    |(t.undoLinear a).2 - (t.undoLinear b).2| ≤ |t.yfvcScale| * (2 * dist a b / |t.scale|) := by
  have key : ∀ u v c s : ℝ, |c| ≤ 1 → |s| ≤ 1 → |u| ≤ dist a b → |v| ≤ dist a b →
      |u / t.scale * c + v / t.scale * s| ≤ 2 * dist a b / |t.scale| := by
    intro u v c s hc hs hu hv
    have e : u / t.scale * c + v / t.scale * s = (u * c + v * s) / t.scale := by ring
    rw [e, abs_div]
    refine div_le_div_of_nonneg_right ?_ (abs_nonneg _)
    calc |u * c + v * s| ≤ |u * c| + |v * s| := abs_add_le _ _
      _ ≤ dist a b + dist a b := by
        rw [abs_mul, abs_mul]
        exact add_le_add ((mul_le_of_le_one_right (abs_nonneg _) hc).trans hu)
          ((mul_le_of_le_one_right (abs_nonneg _) hs).trans hv)
      _ = _ := by ring
  have h1 : |a.1 - b.1| ≤ dist a b := by rw [Prod.dist_eq, Real.dist_eq]; exact le_max_left _ _
  have h2 : |a.2 - b.2| ≤ dist a b := by rw [Prod.dist_eq, Real.dist_eq (a.2)]; exact le_max_right _ _
  have hc := Real.abs_cos_le_one (-t.rotation)
  have hs := Real.abs_sin_le_one (-t.rotation)
  unfold FVC2FP.undoLinear FVC2FP.expandFvc
  constructor
  · have e : ∀ (X Y : ℝ), X * t.xfvcScale + t.xfvcOffset - (Y * t.xfvcScale + t.xfvcOffset) = t.xfvcScale * (X - Y) := by
      intros; ring
    simp only
    rw [e, abs_mul]
    refine mul_le_mul_of_nonneg_left ?_ (abs_nonneg _)
    have := key (a.1 - b.1) (a.2 - b.2) _ (-(Real.sin (-t.rotation))) hc (by rwa [abs_neg]) h1 h2
    refine le_trans (le_of_eq ?_) this
    congr 1; ring
  · have e : ∀ (X Y : ℝ), X * t.yfvcScale + t.yfvcOffset - (Y * t.yfvcScale + t.yfvcOffset) = t.yfvcScale * (X - Y) := by
      intros; ring
    simp only
    rw [e, abs_mul]
    refine mul_le_mul_of_nonneg_left ?_ (abs_nonneg _)
    have := key (a.1 - b.1) (a.2 - b.2) _ _ hs hc h1 h2
    refine le_trans (le_of_eq ?_) this
    congr 1; ring

end Verif.Lemmas.Fvc2fp
