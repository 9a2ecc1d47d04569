import Verif.Py.Real

/-!
# py/desimeter/fieldmodel.py `dfieldrotdt_empirical_model`, lines 496-543

Arrays of `n` directions; the scalar call is the case `n = 1` (lines 516-519 and 540-541).
-/

namespace Verif.Model.FieldRotRate
open Verif.Py

/-- lines 524-526. -/
noncomputable def hourAngle (ra lst : ℝ) : ℝ :=
  let ha := fmod (lst - ra) 360
  if ha > 180 then ha - 360 else ha

/-- line 532. -/
noncomputable def poly (x y : ℝ) : ℝ :=
  -0.447 + 0.065 * x - 0.067 * y + 0.382 * x ^ 2 + 0.021 * x * y - 0.121 * y ^ 2 - 0.031 * x ^ 3
    + 0.196 * x ^ 2 * y + 0.096 * x * y ^ 2 - 0.043 * y ^ 3

/-- lines 534-538. -/
noncomputable def saturate (v : ℝ) : ℝ :=
  let v1 := if v < -1.5 then -1.5 else v
  if v1 > 1.5 then 1.5 else v1

open Classical in
/-- lines 496-543 (528-529 are the arguments of `poly`). -/
noncomputable def rate {n : ℕ} (ra dec : Fin n → ℝ) (lst : ℝ) : Except PyErr (Fin n → ℝ) :=
  if ∃ i, |dec i| > 90 then .error .valueError
  else .ok fun i => saturate (poly (hourAngle (ra i) lst / 60) ((dec i - 30) / 30))

end Verif.Model.FieldRotRate
