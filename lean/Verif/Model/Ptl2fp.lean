import Verif.Py.Real
import Mathlib.LinearAlgebra.Matrix.Determinant.Basic
import Mathlib.LinearAlgebra.Matrix.Notation

/-!
# Model of `py/desimeter/transform/ptl2fp.py`
-/

namespace Verif.Model.Ptl2fp
open Verif.Py Matrix

/-- Cartesian triple. -/
abbrev V3 := Fin 3 → ℝ

/-- `Rx` (ptl2fp.py lines 14-20). -/
noncomputable def Rx (a : ℝ) : Matrix (Fin 3) (Fin 3) ℝ :=
  !![1, 0, 0; 0, Real.cos a, -Real.sin a; 0, Real.sin a, Real.cos a]

/-- `Ry` (ptl2fp.py lines 22-28). -/
noncomputable def Ry (a : ℝ) : Matrix (Fin 3) (Fin 3) ℝ :=
  !![Real.cos a, 0, Real.sin a; 0, 1, 0; -Real.sin a, 0, Real.cos a]

/-- `Rz` (ptl2fp.py lines 30-36). -/
noncomputable def Rz (a : ℝ) : Matrix (Fin 3) (Fin 3) ℝ :=
  !![Real.cos a, -Real.sin a, 0; Real.sin a, Real.cos a, 0; 0, 0, 1]

/-- `Rxyz` (ptl2fp.py lines 38-39). -/
noncomputable def Rxyz (alpha beta gamma : ℝ) : Matrix (Fin 3) (Fin 3) ℝ :=
  Rz gamma * Ry beta * Rx alpha

/-- One entry of the petal alignment dictionary (io.py `load_petal_alignement`). -/
structure Alignment where
  alpha : ℝ
  beta : ℝ
  gamma : ℝ
  Tx : ℝ
  Ty : ℝ
  Tz : ℝ

/-- The translation vector (ptl2fp.py lines 64, 83). -/
def Alignment.T (a : Alignment) : V3 := ![a.Tx, a.Ty, a.Tz]

/-- The rotation (ptl2fp.py lines 63, 82). -/
noncomputable def Alignment.R (a : Alignment) : Matrix (Fin 3) (Fin 3) ℝ :=
  Rxyz a.alpha a.beta a.gamma

/-- The alignment dictionary: petal location to alignment
(ptl2fp.py lines 41-45); a missing petal is `KeyError`. -/
abbrev Dict := Nat → Option Alignment

/-- `dict[petal]`. -/
def lookup (d : Dict) (petal : Nat) : Except PyErr Alignment :=
  match d petal with
  | some a => .ok a
  | none => .error .keyError

/-- `ptl2fp` of one point with explicit z (ptl2fp.py lines 74-86). -/
noncomputable def ptl2fp (d : Dict) (petal : Nat) (p : V3) : Except PyErr V3 := do
  let a ← lookup d petal
  return a.R.mulVec p + a.T

/-- `fp2ptl` of one point with explicit z (ptl2fp.py lines 88-113). -/
noncomputable def fp2ptl (d : Dict) (petal : Nat) (q : V3) : Except PyErr V3 := do
  let a ← lookup d petal
  return a.Rᵀ.mulVec (q - a.T)

/-- `ptl2fp` / `fp2ptl` without z: the third coordinate is `r2z(hypot(x,y))`
(ptl2fp.py lines 75-77 and 105-107); `r2z` is a parameter here. -/
noncomputable def withZ (r2z : ℝ → ℝ) (x y : ℝ) : V3 := ![x, y, r2z (hypot x y)]

/-- `apply_ptl2fp` (ptl2fp.py lines 47-72): spots are (petal, xyz) rows; for each
distinct petal in turn the columns of its spots are overwritten.  `np.unique`
is `petals`, any duplicate-free enumeration of the petals present; the output
starts as zeros. -/
noncomputable def applyPtl2fp (d : Dict) (petals : List Nat) (spots : List (Nat × V3)) :
    Except PyErr (List V3) :=
  petals.foldlM (init := spots.map (fun _ => (0 : V3))) (fun out petal => do
    let a ← lookup d petal
    return List.zipWith (fun (s : Nat × V3) o => if s.1 = petal then a.R.mulVec s.2 + a.T else o)
      spots out)

end Verif.Model.Ptl2fp
