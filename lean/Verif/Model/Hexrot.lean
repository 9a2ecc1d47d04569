import Verif.Py.Str
import Verif.Py.Dict
import Verif.Py.Real

/-!
# py/desimeter/io.py `read_hexrot_deg`, lines 7-31

The header is a dictionary.  `parse` stands for `float(text)`: the number denoted by a text, or
nothing when it is not the text of a (finite) number.
-/

namespace Verif.Model.Hexrot
open Verif.Py

/-- Element of a tuple. -/
inductive Item where
  | num (r : ℝ)
  | str (s : PyStr)
  /-- anything `float` refuses with TypeError (None, a list, ...) -/
  | other

/-- Value of a header key. -/
inductive Val where
  | str (s : PyStr)
  | tuple (l : List Item)
  /-- neither a string nor a tuple (number, list, None, ...) -/
  | other

/-- `float(x)`. -/
noncomputable def toFloat (parse : PyStr → Option ℝ) : Item → Except PyErr ℝ
  | .num r => .ok r
  | .str s => match parse s with
    | some r => .ok r
    | none => .error .valueError
  | .other => .error .typeError

/-- lines 19-24. -/
def params : Val → Except PyErr (List Item)
  | .str s => .ok ((split [','] s).map .str)
  | .tuple l => .ok l
  | .other => .error .valueError

/-- lines 7-31. -/
noncomputable def readHexrotDeg (parse : PyStr → Option ℝ) (header : Dict PyStr Val) : Except PyErr ℝ :=
  match header.get? "FOCUS".toList with
  | none => .error .keyError
  | some v =>
    match params v with
    | .error e => .error e
    | .ok l =>
      if l.length ≠ 6 then .error .valueError
      else match l[5]? with
        | none => .error .indexError
        | some x => match toFloat parse x with
          | .error e => .error e
          | .ok r => .ok (r / 3600)

end Verif.Model.Hexrot
