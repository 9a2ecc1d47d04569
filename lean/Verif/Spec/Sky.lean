import Mathlib.Analysis.SpecialFunctions.Trigonometric.Basic

/-!
# Specification vocabulary for directions on the sky (independent of the model)
-/

namespace Verif.Spec

/-- Unit vector of the direction with longitude `p.1` and latitude `p.2` (degrees). -/
noncomputable def skyDir (p : ℝ × ℝ) : ℝ × ℝ × ℝ :=
  (Real.cos (p.2 * Real.pi / 180) * Real.cos (p.1 * Real.pi / 180),
   Real.cos (p.2 * Real.pi / 180) * Real.sin (p.1 * Real.pi / 180),
   Real.sin (p.2 * Real.pi / 180))

/-- Cosine of the angle between two directions. -/
noncomputable def cosSep (p q : ℝ × ℝ) : ℝ :=
  (skyDir p).1 * (skyDir q).1 + (skyDir p).2.1 * (skyDir q).2.1 + (skyDir p).2.2 * (skyDir q).2.2

/-- Signed volume of three directions (its sign is their handedness). -/
noncomputable def handed (p q r : ℝ × ℝ) : ℝ :=
  (skyDir p).1 * ((skyDir q).2.1 * (skyDir r).2.2 - (skyDir q).2.2 * (skyDir r).2.1)
  + (skyDir p).2.1 * ((skyDir q).2.2 * (skyDir r).1 - (skyDir q).1 * (skyDir r).2.2)
  + (skyDir p).2.2 * ((skyDir q).1 * (skyDir r).2.1 - (skyDir q).2.1 * (skyDir r).1)

/-- Normalised coordinates: longitude in [0,360), latitude in [-90,90]. -/
def SkyRange (p : ℝ × ℝ) : Prop := 0 ≤ p.1 ∧ p.1 < 360 ∧ -90 ≤ p.2 ∧ p.2 ≤ 90

end Verif.Spec
