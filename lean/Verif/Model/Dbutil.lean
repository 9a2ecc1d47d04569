import Verif.Py.Real
import Verif.Py.Dict

/-!
# Model of `get_petal_loc` in `py/desimeter/dbutil.py`
-/

namespace Verif.Model.Dbutil
open Verif.Py

/-- Lines 48-61. -/
def petalId2loc : Dict Int Int :=
  [(2, 7), (3, 3), (4, 0), (5, 1), (6, 2), (7, 8), (8, 4), (9, 9), (10, 5), (11, 6), (1, 0), (0, 0)].foldl
    (fun d p => d.set p.1 p.2) []

/-- `get_petal_loc` (lines 46-63). -/
def getPetalLoc (petal_id : Int) : Except PyErr Int :=
  match petalId2loc.get? petal_id with
  | some l => .ok l
  | none => .error .keyError

end Verif.Model.Dbutil
