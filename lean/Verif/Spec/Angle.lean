import Mathlib.Analysis.SpecialFunctions.Complex.Arg

/-!
# Specification vocabulary for angles and planar points
(independent of the model)
-/

namespace Verif.Spec

/-- `a` and `b` (degrees) denote the same direction: they differ by a whole
number of turns. -/
def SameAngle (a b : ℝ) : Prop := ∃ k : ℤ, a = b + 360 * k

/-- Euclidean distance in the plane. -/
noncomputable def dist2 (a b : ℝ × ℝ) : ℝ := Real.sqrt ((a.1 - b.1) ^ 2 + (a.2 - b.2) ^ 2)

/-- Distance of a planar point from the origin. -/
noncomputable def radius (a : ℝ × ℝ) : ℝ := Real.sqrt (a.1 ^ 2 + a.2 ^ 2)

/-- `v` lies between the two (unordered) ends `r.1`, `r.2`. -/
def InRange (r : ℝ × ℝ) (v : ℝ) : Prop := min r.1 r.2 ≤ v ∧ v ≤ max r.1 r.2

/-- Length of the interval with (unordered) ends `r.1`, `r.2`. -/
noncomputable def width (r : ℝ × ℝ) : ℝ := max r.1 r.2 - min r.1 r.2

end Verif.Spec
