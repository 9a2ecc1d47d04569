import Verif.Py.Real
import Mathlib.LinearAlgebra.Matrix.NonsingularInverse

/-!
# `np.linalg.inv`, `np.linalg.solve` and the normal equations of least squares

Exact arithmetic: a singular matrix raises `LinAlgError` (numpy raises it for an
exactly singular factorisation only).
-/

namespace Verif.Py
open Matrix Classical

/-- `np.linalg.inv(A)`. -/
noncomputable def linInv {n : Nat} (A : Matrix (Fin n) (Fin n) ℝ) :
    Except PyErr (Matrix (Fin n) (Fin n) ℝ) :=
  if A.det = 0 then .error .linAlgError else .ok A⁻¹

/-- `np.linalg.solve(A, b)`. -/
noncomputable def linSolve {n : Nat} (A : Matrix (Fin n) (Fin n) ℝ) (b : Fin n → ℝ) :
    Except PyErr (Fin n → ℝ) :=
  if A.det = 0 then .error .linAlgError else .ok (A⁻¹.mulVec b)

/-- `H.dot(H.T)` for the design `H[i] = h i`, one column per element of `l`. -/
def gram {α : Type*} {n : Nat} (h : Fin n → α → ℝ) (l : List α) : Matrix (Fin n) (Fin n) ℝ :=
  Matrix.of fun i j => (l.map fun q => h i q * h j q).sum

/-- `np.sum(t*H, axis=1)`. -/
def moments {α : Type*} {n : Nat} (h : Fin n → α → ℝ) (t : α → ℝ) (l : List α) : Fin n → ℝ :=
  fun i => (l.map fun q => t q * h i q).sum

/-- `np.mean` of a list (NaN for the empty list is not used). -/
noncomputable def mean (l : List ℝ) : ℝ := l.sum / l.length

end Verif.Py
