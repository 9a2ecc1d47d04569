import Verif.Py.Str
import Verif.Py.Real

/-!
# py/desimeter/posparams/posmoveselection.py

The printed summaries are not modelled.  The table is a list of rows; `note` is the text
`str(table["LOG_NOTE"][i])` of a row.
-/

namespace Verif.Model.Selection
open Verif.Py

/-- ASCII characters removed by `str.strip()`. -/
def isSpace (c : Char) : Bool :=
  c = ' ' || (9 ≤ c.toNat && c.toNat ≤ 13) || (28 ≤ c.toNat && c.toNat ≤ 31)

/-- `s.strip()`. -/
def strip (s : PyStr) : PyStr := ((s.dropWhile isSpace).reverse.dropWhile isSpace).reverse

/-- `s.find(sub)`: first position, -1 when absent. -/
def find (sub : PyStr) : PyStr → Int
  | [] => if sub = [] then 0 else -1
  | c :: t => if sub.isPrefixOf (c :: t) then 0 else
    let k := find sub t
    if k < 0 then -1 else k + 1

/-- `table[ok]` for a boolean mask. -/
def mask {α : Type} (table : List α) (ok : List Bool) : List α :=
  ((table.zip ok).filter Prod.snd).map Prod.fst

/-- lines 19-22: the keywords of one clause. -/
def keywords (s : PyStr) : List PyStr :=
  ((split ['&'] s).map strip).filter fun v => 0 < v.length

/-- `get_matches`, lines 18-28. -/
def getMatches {α : Type} (note : α → PyStr) (table : List α) (s : PyStr) : List Bool :=
  (keywords s).foldl (fun ok k => List.zipWith (fun b r => b && decide (find k (note r) ≥ 0)) ok table)
    (List.replicate table.length true)

/-- `posmove_selection`, lines 3-16. -/
def posmoveSelection {α : Type} (note : α → PyStr) (table : List α) : Option PyStr → List α
  | none => table
  | some sel =>
    mask table ((split ['|'] sel).foldl (fun ok s => List.zipWith (fun a b => a || b) ok (getMatches note table s))
      (List.replicate table.length false))

end Verif.Model.Selection
