import Mathlib.Data.Real.Basic

namespace Verif.Py

/-- `np.argmax` without NaN: position of the first largest value. -/
noncomputable def argmaxReal : List ℝ → ℕ
  | [] => 0
  | [_] => 0
  | a :: b :: l =>
    let k := argmaxReal (b :: l)
    if (b :: l).getD k 0 > a then k + 1 else 0

end Verif.Py
