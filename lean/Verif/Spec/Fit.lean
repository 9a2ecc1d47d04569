import Mathlib.Analysis.SpecialFunctions.Trigonometric.Basic

/-!
# Specification vocabulary for fits (independent of the model)
-/

namespace Verif.Spec

/-- All points on one line (in particular any set of at most two points). -/
def OnLine (pts : List (ℝ × ℝ)) : Prop :=
  ∃ a b c : ℝ, (a, b, c) ≠ (0, 0, 0) ∧ ∀ q ∈ pts, a + b * q.1 + c * q.2 = 0

/-- Squared distance. -/
def sqDist (a b : ℝ × ℝ) : ℝ := (a.1 - b.1) ^ 2 + (a.2 - b.2) ^ 2

/-- The affine map `t + M q`. -/
structure Affine where
  t1 : ℝ
  t2 : ℝ
  m11 : ℝ
  m12 : ℝ
  m21 : ℝ
  m22 : ℝ

def Affine.app (m : Affine) (q : ℝ × ℝ) : ℝ × ℝ :=
  (m.t1 + m.m11 * q.1 + m.m12 * q.2, m.t2 + m.m21 * q.1 + m.m22 * q.2)

/-- Rigid motion: rotation by `deg` degrees then translation. -/
noncomputable def rigid (deg t1 t2 : ℝ) (q : ℝ × ℝ) : ℝ × ℝ :=
  (Real.cos (deg * Real.pi / 180) * q.1 - Real.sin (deg * Real.pi / 180) * q.2 + t1,
   Real.sin (deg * Real.pi / 180) * q.1 + Real.cos (deg * Real.pi / 180) * q.2 + t2)

end Verif.Spec
