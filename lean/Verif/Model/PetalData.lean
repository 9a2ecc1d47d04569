import Verif.Model.Ptl2fp

/-!
# The alignments of the petals that come with the package: py/desimeter/data/petal-alignments.yaml

The decimal numbers of the file, exactly; as a dictionary it is what `load_petal_alignement` (py/desimeter/io.py lines 38-51) returns unless `DESIMETER_DATA` names
other data (C120). With it, the conversions between petal and focal plane without a height (py/desimeter/transform/ptl2fp.py lines 74-113).
-/

namespace Verif.Model.PetalData
open Verif.Py Verif.Model.Ptl2fp

/-- An entry without tilt and height, as all in the file. -/
def entry (Tx Ty gamma : ℝ) : Alignment := ⟨0, 0, gamma, Tx, Ty, 0⟩

/-- petal-alignments.yaml, lines 2-71. -/
noncomputable def shipped : Dict
  | 0 => some (entry 0.1175 0.0397 (-1.885372167))
  | 1 => some (entry 0.0158 (-0.0133) (-1.256503195))
  | 2 => some (entry (-0.0125) 0.0111 (-0.628304778))
  | 3 => some (entry (-0.0133) (-0.0258) 0.000211098)
  | 4 => some (entry (-0.0104) 0.0815 0.628135812)
  | 5 => some (entry (-0.0643) 0.012 1.256690922)
  | 6 => some (entry 0.0106 0.0638 1.885428)
  | 7 => some (entry 0.0476 (-0.1252) 2.513129889)
  | 8 => some (entry (-0.057) (-0.035) 3.141578953)
  | 9 => some (entry (-0.034) (-0.0089) 3.769783444)
  | _ => none

/-- `ptl2fp(petal, x, y)` (ptl2fp.py lines 74-86), x and y of the result. -/
noncomputable def ptl2fpXY (d : Dict) (r2z : ℝ → ℝ) (petal : ℕ) (xy : ℝ × ℝ) : Except PyErr (ℝ × ℝ) := do
  let u ← ptl2fp d petal (withZ r2z xy.1 xy.2)
  return (u 0, u 1)

/-- `fp2ptl(petal, x, y)` (ptl2fp.py lines 88-113), x and y of the result. -/
noncomputable def fp2ptlXY (d : Dict) (r2z : ℝ → ℝ) (petal : ℕ) (xy : ℝ × ℝ) : Except PyErr (ℝ × ℝ) := do
  let u ← fp2ptl d petal (withZ r2z xy.1 xy.2)
  return (u 0, u 1)

end Verif.Model.PetalData
