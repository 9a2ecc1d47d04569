import Verif.Model.Ptl2fp
import Mathlib.LinearAlgebra.Matrix.NonsingularInverse
import Mathlib.Tactic.FinCases
import Mathlib.Tactic.Linarith
import Mathlib.Tactic.LinearCombination

namespace Verif.Lemmas.Ptl2fp
open Verif.Model.Ptl2fp Matrix

theorem Rx_orth (a : ℝ) : (Rx a)ᵀ * Rx a = 1 := by
  have h := Real.sin_sq_add_cos_sq a
  ext i j
  fin_cases i <;> fin_cases j <;>
    simp [Rx, Matrix.mul_apply, Fin.sum_univ_three] <;> nlinarith [h]

theorem Ry_orth (a : ℝ) : (Ry a)ᵀ * Ry a = 1 := by
  have h := Real.sin_sq_add_cos_sq a
  ext i j
  fin_cases i <;> fin_cases j <;>
    simp [Ry, Matrix.mul_apply, Fin.sum_univ_three] <;> nlinarith [h]

theorem Rz_orth (a : ℝ) : (Rz a)ᵀ * Rz a = 1 := by
  have h := Real.sin_sq_add_cos_sq a
  ext i j
  fin_cases i <;> fin_cases j <;>
    simp [Rz, Matrix.mul_apply, Fin.sum_univ_three] <;> nlinarith [h]

theorem Rx_det (a : ℝ) : (Rx a).det = 1 := by
  have h := Real.sin_sq_add_cos_sq a
  simp [Rx, Matrix.det_fin_three]; nlinarith [h]

theorem Ry_det (a : ℝ) : (Ry a).det = 1 := by
  have h := Real.sin_sq_add_cos_sq a
  simp [Ry, Matrix.det_fin_three]; nlinarith [h]

theorem Rz_det (a : ℝ) : (Rz a).det = 1 := by
  have h := Real.sin_sq_add_cos_sq a
  simp [Rz, Matrix.det_fin_three]; nlinarith [h]

theorem Rxyz_orth (a b c : ℝ) : (Rxyz a b c)ᵀ * Rxyz a b c = 1 := by
  unfold Rxyz
  rw [Matrix.transpose_mul, Matrix.transpose_mul]
  calc (Rx a)ᵀ * ((Ry b)ᵀ * (Rz c)ᵀ) * (Rz c * Ry b * Rx a)
      = (Rx a)ᵀ * ((Ry b)ᵀ * ((Rz c)ᵀ * Rz c) * Ry b) * Rx a := by simp only [Matrix.mul_assoc]
    _ = 1 := by rw [Rz_orth, Matrix.mul_one, Ry_orth, Matrix.mul_one, Rx_orth]

theorem Rxyz_orth' (a b c : ℝ) : Rxyz a b c * (Rxyz a b c)ᵀ = 1 :=
  mul_eq_one_comm.1 (Rxyz_orth a b c)

theorem Rxyz_det (a b c : ℝ) : (Rxyz a b c).det = 1 := by
  unfold Rxyz; rw [Matrix.det_mul, Matrix.det_mul, Rx_det, Ry_det, Rz_det]; norm_num

theorem dot_mulVec (M : Matrix (Fin 3) (Fin 3) ℝ) (h : Mᵀ * M = 1) (v w : V3) :
    M.mulVec v ⬝ᵥ M.mulVec w = v ⬝ᵥ w := by
  rw [Matrix.dotProduct_mulVec, Matrix.vecMul_mulVec, h, Matrix.vecMul_one]

end Verif.Lemmas.Ptl2fp
