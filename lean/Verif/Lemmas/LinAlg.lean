import Verif.Py.LinAlg
import Mathlib.LinearAlgebra.Matrix.ToLinearEquiv
import Mathlib.Algebra.BigOperators.Fin
import Mathlib.Tactic.Linarith
import Mathlib.Tactic.LinearCombination

namespace Verif.Lemmas.LinAlg
open Verif.Py Matrix

variable {α : Type*} {n : Nat}

/-- Prediction with coefficients `c`. -/
def pred (h : Fin n → α → ℝ) (c : Fin n → ℝ) (q : α) : ℝ := ∑ i, c i * h i q

theorem sum_map_finset {ι : Type*} (s : Finset ι) (f : ι → α → ℝ) (l : List α) :
    (l.map fun q => ∑ i ∈ s, f i q).sum = ∑ i ∈ s, (l.map fun q => f i q).sum := by
  induction l with
  | nil => simp
  | cons a l ih => simp [ih, Finset.sum_add_distrib]

theorem sum_map_mul_left' (c : ℝ) (f : α → ℝ) (l : List α) :
    (l.map fun q => c * f q).sum = c * (l.map f).sum := by
  induction l with
  | nil => simp
  | cons a l ih => simp [ih, mul_add]

/-- `A c = Σ_q (Σ_j c_j h_j(q)) h_i(q)`. -/
theorem gram_mulVec (h : Fin n → α → ℝ) (l : List α) (c : Fin n → ℝ) :
    (gram h l).mulVec c = moments h (pred h c) l := by
  funext i
  unfold Matrix.mulVec moments gram pred dotProduct
  simp only [Matrix.of_apply]
  have : (fun q => (∑ j, c j * h j q) * h i q) = fun q => ∑ j, c j * (h i q * h j q) := by
    funext q; rw [Finset.sum_mul]; exact Finset.sum_congr rfl fun j _ => by ring
  rw [this, sum_map_finset]
  exact Finset.sum_congr rfl fun j _ => by rw [sum_map_mul_left', mul_comm]

theorem moments_congr {h : Fin n → α → ℝ} {t t' : α → ℝ} {l : List α} (e : ∀ q ∈ l, t q = t' q) :
    moments h t l = moments h t' l := by
  funext i
  unfold moments
  congr 1
  exact List.map_congr_left fun q hq => by rw [e q hq]

theorem dot_moments (h : Fin n → α → ℝ) (t : α → ℝ) (l : List α) (v : Fin n → ℝ) :
    v ⬝ᵥ moments h t l = (l.map fun q => t q * pred h v q).sum := by
  unfold dotProduct moments pred
  have : (fun q => t q * ∑ i, v i * h i q) = fun q => ∑ i, v i * (t q * h i q) := by
    funext q; rw [Finset.mul_sum]; exact Finset.sum_congr rfl fun j _ => by ring
  rw [this, sum_map_finset]
  exact Finset.sum_congr rfl fun j _ => by rw [sum_map_mul_left']

/-- Sum of squares zero means every term zero. -/
theorem sum_sq_zero {f : α → ℝ} {l : List α} (h : (l.map fun q => f q * f q).sum = 0) :
    ∀ q ∈ l, f q = 0 := by
  induction l with
  | nil => simp
  | cons a l ih =>
    have h0 : 0 ≤ (l.map fun q => f q * f q).sum := List.sum_nonneg (by
      intro x hx; obtain ⟨q, -, rfl⟩ := List.mem_map.1 hx; exact mul_self_nonneg _)
    simp only [List.map_cons, List.sum_cons] at h
    have ha : f a = 0 := by nlinarith [mul_self_nonneg (f a)]
    intro q hq
    rcases List.mem_cons.1 hq with rfl | hq
    · exact ha
    · exact ih (by rw [ha] at h; linarith) q hq

/-- The normal matrix is singular exactly when some non-trivial combination of the
design functions vanishes on all the data. -/
theorem gram_singular_iff (h : Fin n → α → ℝ) (l : List α) :
    (gram h l).det = 0 ↔ ∃ v, v ≠ 0 ∧ ∀ q ∈ l, pred h v q = 0 := by
  rw [← Matrix.exists_mulVec_eq_zero_iff]
  constructor
  · rintro ⟨v, hv, e⟩
    refine ⟨v, hv, ?_⟩
    have := dot_moments h (pred h v) l v
    rw [← gram_mulVec, e, dotProduct_zero] at this
    exact sum_sq_zero this.symm
  · rintro ⟨v, hv, e⟩
    refine ⟨v, hv, ?_⟩
    rw [gram_mulVec, moments_congr (t' := fun _ => 0) e]
    funext i; unfold moments; simp

theorem isUnit_det {A : Matrix (Fin n) (Fin n) ℝ} (h : A.det ≠ 0) : IsUnit A.det := isUnit_iff_ne_zero.2 h

/-- Solution of the normal equations. -/
theorem normal_eq {h : Fin n → α → ℝ} {l : List α} (hd : (gram h l).det ≠ 0) (t : α → ℝ) :
    moments h (pred h ((gram h l)⁻¹.mulVec (moments h t l))) l = moments h t l := by
  rw [← gram_mulVec, mulVec_mulVec, Matrix.mul_nonsing_inv _ (isUnit_det hd), one_mulVec]

/-- Exact data are recovered. -/
theorem solve_exact {h : Fin n → α → ℝ} {l : List α} (hd : (gram h l).det ≠ 0) {t : α → ℝ} {c : Fin n → ℝ}
    (e : ∀ q ∈ l, t q = pred h c q) : (gram h l)⁻¹.mulVec (moments h t l) = c := by
  rw [moments_congr e, ← gram_mulVec, mulVec_mulVec, Matrix.nonsing_inv_mul _ (isUnit_det hd), one_mulVec]

theorem sum_map_add' (f g : α → ℝ) (l : List α) :
    (l.map fun q => f q + g q).sum = (l.map f).sum + (l.map g).sum := by
  induction l with
  | nil => simp
  | cons a l ih => simp [ih]; ring

theorem pred_sub (h : Fin n → α → ℝ) (a b : Fin n → ℝ) (q : α) : pred h (a - b) q = pred h a q - pred h b q := by
  unfold pred; rw [← Finset.sum_sub_distrib]; exact Finset.sum_congr rfl fun i _ => by
    rw [Pi.sub_apply]; ring

/-- Least squares: no coefficients do better. -/
theorem solve_optimal {h : Fin n → α → ℝ} {l : List α} (hd : (gram h l).det ≠ 0) (t : α → ℝ) (c : Fin n → ℝ) :
    (l.map fun q => (t q - pred h ((gram h l)⁻¹.mulVec (moments h t l)) q) ^ 2).sum ≤
      (l.map fun q => (t q - pred h c q) ^ 2).sum := by
  set a := (gram h l)⁻¹.mulVec (moments h t l) with ha
  have hn := normal_eq hd t
  rw [← ha] at hn
  have hcross : (l.map fun q => (t q - pred h a q) * pred h (a - c) q).sum = 0 := by
    have h1 := dot_moments h t l (a - c)
    have h2 := dot_moments h (pred h a) l (a - c)
    rw [hn, h1] at h2
    have e : (fun q => (t q - pred h a q) * pred h (a - c) q) =
        fun q => t q * pred h (a - c) q + (-1) * (pred h a q * pred h (a - c) q) := by funext q; ring
    rw [e, sum_map_add', sum_map_mul_left', h2]; ring
  have e : (fun q => (t q - pred h c q) ^ 2) = fun q => (t q - pred h a q) ^ 2 +
      (2 * ((t q - pred h a q) * pred h (a - c) q) + pred h (a - c) q ^ 2) := by
    funext q; rw [pred_sub]; ring
  rw [e, sum_map_add', sum_map_add', sum_map_mul_left', hcross]
  have : 0 ≤ (l.map fun q => pred h (a - c) q ^ 2).sum := List.sum_nonneg (by
    intro x hx; obtain ⟨q, -, rfl⟩ := List.mem_map.1 hx; exact sq_nonneg _)
  linarith

end Verif.Lemmas.LinAlg
